import Verif.Model.Time
import Verif.Proofs.Prim
import Mathlib.Tactic.Ring
import Mathlib.Algebra.Order.Ring.Rat
import Mathlib.Data.Rat.Cast.Order
/-!
# Property C10: multipliers
-/
namespace Fundu.Props
open Fundu

/-! ## C10 -/

/-- C10: `checked_mul` is the exact product if both parts fit their types, `None` otherwise; `*` panics
exactly on `None`. -/
theorem C10_checked_mul (a b : Multiplier) :
    (IsI64 (a.coefficient * b.coefficient) ∧ IsI16 (a.exponent + b.exponent) →
      a.checkedMul b = some ⟨a.coefficient * b.coefficient, a.exponent + b.exponent⟩ ∧
      a.mul b = .ok ⟨a.coefficient * b.coefficient, a.exponent + b.exponent⟩) ∧
    (¬ (IsI64 (a.coefficient * b.coefficient) ∧ IsI16 (a.exponent + b.exponent)) →
      a.checkedMul b = none ∧ a.mul b = .error .unwrap) := by
  simp only [Multiplier.mul, Multiplier.checkedMul, checkedI64, checkedI16]
  by_cases h1 : IsI64 (a.coefficient * b.coefficient) <;>
    by_cases h2 : IsI16 (a.exponent + b.exponent) <;> simp [h1, h2, unwrap]

/-- C10: the value `coefficient * 10 ^ exponent` is multiplicative. -/
theorem C10_value (a b c : Multiplier) (h : a.checkedMul b = some c) :
    (c.coefficient : ℚ) * 10 ^ c.exponent =
      ((a.coefficient : ℚ) * 10 ^ a.exponent) * ((b.coefficient : ℚ) * 10 ^ b.exponent) := by
  have := C10_checked_mul a b
  by_cases hb : IsI64 (a.coefficient * b.coefficient) ∧ IsI16 (a.exponent + b.exponent)
  · have h' := (this.1 hb).1
    rw [h] at h'
    cases h'
    simp only [Int.cast_mul]
    rw [zpow_add₀ (by norm_num)]
    ring
  · rw [(this.2 hb).1] at h; cases h

/-- C10: `saturating_neg` negates, except that `i64::MIN` becomes `i64::MAX`; it stays in range. -/
theorem C10_saturating_neg (a : Multiplier) (h : a.WF) :
    a.saturatingNeg.WF ∧ a.saturatingNeg.exponent = a.exponent ∧
    (a.coefficient ≠ I64_MIN → a.saturatingNeg.coefficient = -a.coefficient) ∧
    (a.coefficient = I64_MIN → a.saturatingNeg.coefficient = I64_MAX) := by
  obtain ⟨⟨h1, h2⟩, h3⟩ := h
  unfold Multiplier.saturatingNeg saturatingNegI64
  refine ⟨⟨?_, h3⟩, rfl, fun h => if_neg h, fun h => if_pos h⟩
  by_cases h : a.coefficient = I64_MIN
  · simp only [h, if_true]; decide
  · simp only [h, if_false]
    simp only [I64_MIN, I64_MAX, isI64_iff] at *
    omega

/-- C10: `is_positive`/`is_negative` are the sign of the coefficient, zero counting as positive. -/
theorem C10_sign (a : Multiplier) :
    (a.isPositive = true ↔ 0 ≤ a.coefficient) ∧ (a.isNegative = true ↔ a.coefficient < 0) := by
  simp only [Multiplier.isPositive, Multiplier.isNegative]
  constructor <;> simp <;> omega

example : (⟨9223372036854775807, 0⟩ : Multiplier).checkedMul ⟨2, 0⟩ = none ∧
    (⟨-3, 7⟩ : Multiplier).mul ⟨5, -9⟩ = .ok ⟨-15, -2⟩ := by decide

end Fundu.Props
