import Verif.Spec.Local
/-!
# Specification: lists of conjunctions
-/
namespace Fundu.Spec

/-- the word `w` starts with the word `v`, whatever the case of the letters is -/
def BeginsWith (w v : Bytes) : Prop := SameText (w.take v.length) v

/-- no word of the list is the start of another one, in any case -/
def PrefixFree (l : List Bytes) : Prop := ∀ v ∈ l, ∀ w ∈ l, BeginsWith w v → v = w

instance (w v : Bytes) : Decidable (BeginsWith w v) := by unfold BeginsWith; infer_instance
instance (l : List Bytes) : Decidable (PrefixFree l) := by unfold PrefixFree; infer_instance

end Fundu.Spec
