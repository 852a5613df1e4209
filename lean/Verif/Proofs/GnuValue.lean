import Verif.Model.Gnu
import Verif.Spec.Gnu
import Verif.Proofs.ListBody
import Verif.Proofs.Rational
/-! # The value of one part of a gnu relative time -/
namespace Fundu.Gnu
open Fundu Fundu.Spec

/-- `n` times a time unit -/
def amount (t : TimeUnit) (n : Int) : GnuPart :=
  if t = .month then .months (clampI64 n)
  else if t = .year then .years (clampI64 n)
  else .exact (clamp (n * t.multiplier.coefficient * 10 ^ 9))

/-- the sign as a factor -/
def sg (neg : Bool) : Int := if neg then -1 else 1

/-- the part for an item; `none` is an error -/
def partOf (neg pt : Bool) : Item → Option GnuPart
  | .number W F _ u =>
    let u := u.getD (.second, ⟨1, 0⟩)
    if pt then
      if u.1 = .second ∧ W ≠ [] ∧ F ≠ [] then some (.exact (clamp (sg neg * u.2.coefficient * decimalNanos W F)))
      else none
    else some (amount u.1 (sg neg * u.2.coefficient * decimal W))
  | .infinity => none
  | .word u => some (amount u.1 (sg neg * u.2.coefficient))
  | .numeral q u => some (amount u.1 (sg neg * u.2.coefficient * q.coefficient))

/-- the units of the tables, also with `ago` -/
def UnitOk (u : TimeUnit × Multiplier) : Prop :=
  u.1 ∈ [TimeUnit.second, .minute, .hour, .day, .week, .month, .year] ∧ u.2.exponent = 0 ∧ u.2.coefficient.natAbs ≤ 2 ∧
    ((u.1 = .month ∨ u.1 = .year ∨ u.1 = .second) → u.2.coefficient = 1 ∨ u.2.coefficient = -1)

/-- the items of gnu relative times -/
def ItemOk : Item → Prop
  | .number _ _ e u => e = 0 ∧ ∀ u', u = some u' → UnitOk u' ∧ u'.2.coefficient ≠ 0
  | .infinity => False
  | .word u => UnitOk u
  | .numeral q u => q.exponent = 0 ∧ q.coefficient.natAbs ≤ 12 ∧ UnitOk u

/-- the output of the model stands for the part -/
def Means : FuzzyOutput → GnuPart → Prop
  | .duration d, .exact x => d.WF ∧ nanos d = x
  | .months n, .months n' => n = n'
  | .years n, .years n' => n = n'
  | _, _ => False

theorem sign_mul (neg : Bool) (c : Int) (T : Nat) (hc : c ≠ 0) :
    (if Bool.xor neg (decide (c < 0)) then (-1 : Int) else 1) * min maxNanos (T * c.natAbs : ℤ) = clamp (sg neg * c * T) := by
  unfold clamp sg
  have hM : (0 : Int) < maxNanos := by decide
  generalize maxNanos = M at *
  have h1 : (0 : Int) ≤ (T : ℤ) * c.natAbs := by positivity
  rcases lt_or_gt_of_ne hc with h | h
  · have e : ((T : ℤ) * (c.natAbs : ℤ)) = -(c * T) := by
      rw [Int.ofNat_natAbs_of_nonpos (by omega)]; ring
    rw [e] at h1 ⊢
    rw [decide_eq_true h]
    cases neg
    · simp only [Bool.xor, Bool.false_eq_true, if_false, if_true, one_mul]
      generalize c * (T : ℤ) = x at *
      simp; omega
    · have : (-1 : ℤ) * c * T = -(c * T) := by ring
      simp only [if_true, this]
      generalize c * (T : ℤ) = x at *
      simp; omega
  · have e : ((T : ℤ) * (c.natAbs : ℤ)) = c * T := by
      rw [Int.natAbs_of_nonneg (by omega)]; ring
    rw [e] at h1 ⊢
    rw [decide_eq_false (by omega : ¬ c < 0)]
    cases neg
    · simp only [Bool.false_eq_true, if_false, one_mul]
      generalize c * (T : ℤ) = x at *
      simp; omega
    · have : (-1 : ℤ) * c * T = -(c * T) := by ring
      simp only [if_true, this]
      generalize c * (T : ℤ) = x at *
      simp; omega

theorem zero_wf : Duration.ZERO.WF ∧ nanos Duration.ZERO = 0 := by decide

theorem clamp_zero : clamp 0 = 0 := by decide

/-- the result of `calculate_duration` for whole seconds -/
theorem calculate_whole (neg : Bool) (N : Nat) (c : Int) (hc : IsI64 c) (hN : N ≤ U64_MAX) :
    ∃ d, DurationRepr.calculateDuration (Bool.xor neg (decide (c < 0))) N 0 c = .ok d ∧ d.WF ∧
      nanos d = clamp (sg neg * c * (N * 10 ^ 9 : ℕ)) := by
  rw [DurationRepr.calculateDuration_eq _ _ _ _ hc (by decide) hN]
  by_cases h : N * 1000000000000000000 + 0 = 0 ∨ c = 0
  · rw [if_pos h]
    refine ⟨_, rfl, zero_wf.1, ?_⟩
    rw [zero_wf.2]
    rcases h with h | h
    · have : N = 0 := by omega
      subst this
      simp [clamp_zero]
    · subst h
      simp [clamp_zero]
  · rw [if_neg h]
    obtain ⟨h1, h2, -⟩ := ofNanos_nanos (Bool.xor neg (decide (c < 0))) ((N * 1000000000000000000 + 0) * c.natAbs / 1000000000)
    refine ⟨_, rfl, h2, ?_⟩
    rw [h1, ← sign_mul neg c _ (fun hh => h (Or.inr hh))]
    congr 2
    have : (N * 1000000000000000000 + 0) * c.natAbs / 1000000000 = N * 10 ^ 9 * c.natAbs := by
      rw [show (N * 1000000000000000000 + 0) * c.natAbs = N * 10 ^ 9 * c.natAbs * 1000000000 by ring]
      exact Nat.mul_div_cancel _ (by decide)
    rw [this]
    push_cast
    rfl

/-- the value of a saturated duration -/
theorem saturated_nanos (neg : Bool) (c : Int) (hc : c ≠ 0) (T : Nat) (hT : U64_MAX * 1000000000 + 999999999 ≤ T) :
    (DurationRepr.saturated (Bool.xor neg (decide (c < 0)))).WF ∧
      nanos (DurationRepr.saturated (Bool.xor neg (decide (c < 0)))) = clamp (sg neg * c * T) := by
  rw [← sign_mul neg c T hc]
  have hmin : min maxNanos ((T : ℤ) * c.natAbs) = maxNanos := by
    apply min_eq_left
    have h1 : T * 1 ≤ T * c.natAbs := Nat.mul_le_mul_left _ (by omega)
    have h2 : maxNanos ≤ (T : ℤ) := by unfold maxNanos; unfold U64_MAX at hT; omega
    have h3 : (T : ℤ) ≤ ((T * c.natAbs : ℕ) : ℤ) := by rw [Nat.mul_one] at h1; exact_mod_cast h1
    push_cast at h3
    rw [Int.natCast_natAbs]
    exact h2.trans h3
  rw [hmin]
  cases Bool.xor neg (decide (c < 0)) <;> decide

theorem scaled_whole (r : DurationRepr) (w : Range) (W : Bytes) (m : Multiplier) (hw : DurationRepr.rangeSlice r.input w = .ok W)
    (hW : AllDigits W) (hm : IsI64 m.coefficient) (h0 : m.coefficient ≠ 0) :
    ∃ d, scaled r w (fun _ => .ok 0) m = .ok d ∧ d.WF ∧
      nanos d = clamp (sg (r.isNegative.getD false) * m.coefficient * (decimal W * 10 ^ 9 : ℕ)) := by
  unfold scaled
  rw [hw, ok_bind, Whole.parse_eq W none none hW (by intro b hb; cases hb), liftP_ok, ok_bind]
  simp only [Option.getD_none, List.append_nil, Nat.pow_zero, Nat.mul_one]
  by_cases h : decimal W ≤ U64_MAX
  · rw [checkedU64_some h]
    obtain ⟨d, h1, h2, h3⟩ := calculate_whole (r.isNegative.getD false) (decimal W) m.coefficient hm h
    refine ⟨d, ?_, h2, h3⟩
    simp only [ok_bind, h1, liftP_ok]
  · rw [checkedU64_none (by omega)]
    obtain ⟨h1, h2⟩ := saturated_nanos (r.isNegative.getD false) m.coefficient h0 (decimal W * 10 ^ 9)
      (by unfold U64_MAX at *; omega)
    exact ⟨_, rfl, h1, h2⟩

theorem split_div (x y : Nat) : (x * 1000000000000000000 + y) / 1000000000 = x * 10 ^ 9 + y / 1000000000 := by
  rw [show x * 1000000000000000000 = 1000000000 * (x * 10 ^ 9) by ring, Nat.mul_add_div (by decide)]

theorem above_max (x y : Nat) (h : ¬ x ≤ U64_MAX) :
    U64_MAX * 1000000000 + 999999999 ≤ (x * 1000000000000000000 + y) / 1000000000 := by
  rw [split_div]
  generalize y / 1000000000 = z
  unfold U64_MAX at *
  omega

theorem decimalNanos_eq (W F : Bytes) : decimalNanos W F =
    ((decimal W * 1000000000000000000 + decimal F * 10 ^ 18 / 10 ^ F.length) / 1000000000 : ℕ) := by
  unfold decimalNanos
  have hp : (0 : ℚ) < 10 ^ F.length := by positivity
  have e : ((decimal W : ℚ) + (decimal F : ℚ) / 10 ^ F.length) * 10 ^ 9 =
      (((decimal W * 10 ^ 9 : ℕ) : ℤ) : ℚ) + ((decimal F * 10 ^ 9 : ℕ) : ℤ) / ((10 ^ F.length : ℕ) : ℚ) := by
    push_cast; field_simp; norm_num
  rw [e, Int.floor_intCast_add, Rat.floor_intCast_div_natCast]
  have e2 : decimal F * 10 ^ 18 / 10 ^ F.length / 1000000000 = decimal F * 10 ^ 9 / 10 ^ F.length := by
    rw [Nat.div_div_eq_div_mul, Nat.mul_comm (10 ^ F.length), show decimal F * 10 ^ 18 = 1000000000 * (decimal F * 10 ^ 9) by ring,
      Nat.mul_div_mul_left _ _ (by decide)]
  have e3 : (decimal W * 1000000000000000000 + decimal F * 10 ^ 18 / 10 ^ F.length) / 1000000000 =
      decimal W * 10 ^ 9 + decimal F * 10 ^ 9 / 10 ^ F.length := by
    rw [split_div, e2]
  rw [e3]
  push_cast
  rfl

theorem scaled_fract (r : DurationRepr) (w f : Range) (W F : Bytes) (m : Multiplier) (hw : DurationRepr.rangeSlice r.input w = .ok W)
    (hf : DurationRepr.rangeSlice r.input f = .ok F) (hW : AllDigits W) (hF : AllDigits F) (h1 : m.coefficient = 1 ∨ m.coefficient = -1) :
    ∃ d, scaled r w (fun _ => do Fract.parse (← DurationRepr.rangeSlice r.input f) none none) m = .ok d ∧ d.WF ∧
      nanos d = clamp (sg (r.isNegative.getD false) * m.coefficient * decimalNanos W F) := by
  have hm : IsI64 m.coefficient := by
    rcases h1 with h | h <;> rw [h] <;> decide
  have h0 : m.coefficient ≠ 0 := by omega
  have habs : m.coefficient.natAbs = 1 := by omega
  unfold scaled
  rw [hw, ok_bind, Whole.parse_eq W none none hW (by intro b hb; cases hb), liftP_ok, ok_bind, decimalNanos_eq]
  simp only [Option.getD_none, List.append_nil, Nat.pow_zero, Nat.mul_one]
  have ha : decimal F * 10 ^ 18 / 10 ^ F.length < 1000000000000000000 := by
    rw [Nat.div_lt_iff_lt_mul (by positivity)]
    have := decimal_lt F hF
    rw [Nat.mul_comm]
    exact Nat.mul_lt_mul_of_pos_left this (by decide)
  by_cases h : decimal W ≤ U64_MAX
  · rw [checkedU64_some h, hf]
    simp only [ok_bind]
    rw [Fract.parse_eq F none none hF (by intro b hb; cases hb)]
    simp only [ok_bind, Option.getD_none, List.nil_append, Nat.zero_add]
    rw [DurationRepr.calculateDuration_eq _ _ _ _ hm ha h, liftP_ok, habs, Nat.mul_one]
    generalize decimal W * 1000000000000000000 + decimal F * 10 ^ 18 / 10 ^ F.length = A
    by_cases hz : A = 0 ∨ m.coefficient = 0
    · rw [if_pos hz]
      have hA : A = 0 := by omega
      subst hA
      exact ⟨_, rfl, zero_wf.1, by rw [zero_wf.2]; simp [clamp_zero]⟩
    · rw [if_neg hz]
      obtain ⟨g1, g2, -⟩ := ofNanos_nanos (Bool.xor (r.isNegative.getD false) (decide (m.coefficient < 0))) (A / 1000000000)
      refine ⟨_, rfl, g2, ?_⟩
      rw [g1, ← sign_mul _ m.coefficient _ h0, habs]
      simp
  · rw [checkedU64_none (by omega)]
    obtain ⟨h1, h2⟩ := saturated_nanos (r.isNegative.getD false) m.coefficient h0
      ((decimal W * 1000000000000000000 + decimal F * 10 ^ 18 / 10 ^ F.length) / 1000000000) (above_max _ _ h)
    exact ⟨_, rfl, h1, h2⟩

end Fundu.Gnu
