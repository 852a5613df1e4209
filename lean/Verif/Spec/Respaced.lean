import Verif.Spec.Options
/-!
# Specification: texts which differ only in their gaps
-/
namespace Fundu.Spec

/-- The texts are equal apart from their gaps: where one has a (longest) run of the given bytes the other one has another run of
such bytes, of any length except zero. -/
inductive Respaced (space : UInt8 → Prop) : Bytes → Bytes → Prop
  | done : Respaced space [] []
  | same {b : UInt8} {s t : Bytes} : ¬ space b → Respaced space s t → Respaced space (b :: s) (b :: t)
  | gap {x y s t : Bytes} : (∀ b ∈ x, space b) → x ≠ [] → (∀ b ∈ y, space b) → y ≠ [] →
      ¬ StartsWith space s → ¬ StartsWith space t → Respaced space s t → Respaced space (x ++ s) (y ++ t)

/-- The settings have one sort of delimiters, and signs are not among them. -/
structure OneDelimiter (cfg : Config) : Prop where
  same : ∀ b, cfg.innerDelimiter b = cfg.outerDelimiter b
  signs : ∀ b, cfg.innerDelimiter b = true → b ≠ 43 ∧ b ≠ 45

end Fundu.Spec
