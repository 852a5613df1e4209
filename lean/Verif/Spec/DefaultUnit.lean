import Verif.Spec.Grammar
/-!
# Specification: the default time unit written out
-/
namespace Fundu.Spec

/-- `t` is a number without a time unit, and `t'` is the same text with an identifier of the default time unit behind it:
immediately, unless the identifier starts with an `e`, or after delimiters if they are allowed there -/
def WrittenOut (cfg : Config) (units : TimeUnitsLike) (t t' : Bytes) : Prop :=
  (∃ neg r W F e, SignPart cfg t neg r ∧ NumberText cfg r W F e []) ∧
  ∃ gap id, t' = t ++ (gap ++ id) ∧ (∀ b ∈ gap, cfg.innerDelimiter b = true) ∧
    (gap ≠ [] → cfg.allowTimeUnitDelimiter = true) ∧ (gap = [] → ¬ StartsWith (fun b => b = 101 ∨ b = 69) id) ∧
    units.get id = some (cfg.defaultUnit, ⟨1, 0⟩)

end Fundu.Spec
