import Verif.Spec.Number
/-!
# Specification: texts written one after the other with white space between them
-/
namespace Fundu.Spec

/-- the text consists of the parts in this order, with white space between them -/
inductive Joined (space : UInt8 → Prop) : List Bytes → Bytes → Prop
  | one {t : Bytes} : Joined space [t] t
  | snoc {l : List Bytes} {s gap t : Bytes} : Joined space l s → (∀ b ∈ gap, space b) → gap ≠ [] →
      Joined space (l ++ [t]) (s ++ (gap ++ t))

end Fundu.Spec
