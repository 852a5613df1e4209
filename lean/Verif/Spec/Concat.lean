import Verif.Spec.Options
/-!
# Specification: texts which can be written one after the other
-/
namespace Fundu.Spec

/-- Conjunctions are written without delimiters. -/
def PlainConjunctions (cfg : Config) : Prop := ∀ w ∈ cfg.conjunctions.getD [], ∀ b ∈ w, ¬ IsDelimiter cfg b

/-- The text `s` can be written behind another one: it does not start with a delimiter, a conjunction, a time unit or the
word `ago`. -/
structure CanFollow (cfg : Config) (units : TimeUnitsLike) (s : Bytes) : Prop where
  delimiter : ¬ StartsWith (IsDelimiter cfg) s
  conjunction : ∀ w ∈ cfg.conjunctions.getD [], ¬ ∃ r, AfterWord w s r
  unit : ¬ ∃ u r, WordIn (UnitEnd cfg) units s u r
  ago : ¬ ∃ r, AgoText cfg s r

end Fundu.Spec
