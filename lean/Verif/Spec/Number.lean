import Verif.Model.Prim
import Verif.Spec.Time
import Mathlib.Data.Rat.Floor
/-!
# Specification of decimal digits and literals
-/
namespace Fundu.Spec

/-- an ASCII decimal digit -/
def IsDigit (b : UInt8) : Prop := 48 ≤ b.toNat ∧ b.toNat ≤ 57
instance (b : UInt8) : Decidable (IsDigit b) := by unfold IsDigit; infer_instance

/-- a string of ASCII digits -/
def AllDigits (ds : Bytes) : Prop := ∀ b ∈ ds, IsDigit b
instance (ds : Bytes) : Decidable (AllDigits ds) := by unfold AllDigits; infer_instance

/-- the number a string of ASCII digits denotes in base ten (the empty string denotes 0) -/
def decimal : Bytes → Nat
  | [] => 0
  | b :: bs => (b.toNat - 48) * 10 ^ bs.length + decimal bs

/-- the rational number `W.F * 10^e` which a literal with whole digits `W`, fraction digits `F` and
exponent `e` denotes -/
def literalValue (W F : Bytes) (e : ℤ) : ℚ :=
  ((decimal W : ℚ) + (decimal F : ℚ) / 10 ^ F.length) * 10 ^ e

/-- `v` cut off after the 18th decimal place, in units of `10^-18` -/
noncomputable def attos (v : ℚ) : ℤ := ⌊v * 10 ^ 18⌋

/-- Whole nanoseconds of `v` units of `c` seconds each, where `v` is first cut off after the 18th decimal
place and the product is cut off after the 9th. -/
noncomputable def truncatedNanos (v : ℚ) (c : ℤ) : ℤ := ⌊(attos v * |c| : ℚ) / 10 ^ 9⌋

/-- sign of a literal with an explicit sign and a unit with coefficient `c` -/
def literalSign (neg : Bool) (c : ℤ) : ℤ := (if neg then -1 else 1) * (if c < 0 then -1 else 1)

end Fundu.Spec
