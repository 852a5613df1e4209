import Verif.Model.Config
import Verif.Spec.Text
/-!
# What is assumed about the arguments of a parser
-/
namespace Fundu.Spec

/-- delimiters are ASCII and conjunctions are strings (which their Rust type `&str` guarantees) -/
structure CfgText (cfg : Config) : Prop where
  inner : AsciiDelimiter cfg.innerDelimiter
  outer : AsciiDelimiter cfg.outerDelimiter
  conjunctions : ∀ ws, cfg.conjunctions = some ws → ∀ w ∈ ws, IsText w

/-- the product of two multipliers can be represented -/
def Fits (a b : Multiplier) : Prop := IsI64 (a.coefficient * b.coefficient) ∧ IsI16 (a.exponent + b.exponent)

instance (a b : Multiplier) : Decidable (Fits a b) := by unfold Fits; infer_instance

/-- every multiplier in the table can be multiplied with the multiplier of its unit (the coefficients of
the table being `i64` and the exponents `i16`) -/
def TableFits (t : TimeUnitsLike) : Prop :=
  ∀ id u m, t.get id = some (u, m) → IsI64 m.coefficient ∧ IsI16 m.exponent ∧ Fits u.multiplier m

/-- every numeral can be multiplied with every unit of the table, and with its negation -/
def NumeralsFit (numerals : NumbersLike) (t : TimeUnitsLike) : Prop :=
  ∀ id q, numerals id = some q → ∀ id' u m, t.get id' = some (u, m) →
    Fits q u.multiplier ∧ ∀ c, c = m.coefficient ∨ c = -m.coefficient →
      Fits ⟨q.coefficient * u.multiplier.coefficient, q.exponent + u.multiplier.exponent⟩ ⟨c, m.exponent⟩

end Fundu.Spec
