import Verif.Model.Util
import Verif.Proofs.Prim
/-! # Lemmas about util.rs -/
namespace Fundu

theorem eq_zero_of_mul_small {b k t : Int} (h : b * k = t) (hlt : t.natAbs < b.natAbs) : k = 0 := by
  rcases Nat.eq_zero_or_pos k.natAbs with hk | hk
  · omega
  · have : b.natAbs * 1 ≤ b.natAbs * k.natAbs := Nat.mul_le_mul_left _ hk
    rw [← Int.natAbs_mul, h] at this
    omega

theorem floorDiv_ok (a b : Int) (ha : IsI64 a) (hb : IsI64 b) (h0 : b ≠ 0)
    (h1 : ¬ (a = I64_MIN ∧ b = -1)) : floorDiv a b = .ok (a.fdiv b) := by
  have ha' : -9223372036854775808 ≤ a ∧ a ≤ 9223372036854775807 := ha
  have h1' : ¬ (a = -9223372036854775808 ∧ b = -1) := h1
  have key : -9223372036854775808 ≤ a.tdiv b ∧ a.tdiv b ≤ 9223372036854775807 := by
    have hn : (a.tdiv b).natAbs = a.natAbs / b.natAbs := Int.natAbs_tdiv a b
    have hle : a.natAbs / b.natAbs ≤ a.natAbs := Nat.div_le_self _ _
    by_cases hmin : a = -9223372036854775808
    · by_cases hb1 : b = 1
      · subst hb1; rw [Int.tdiv_one]; omega
      · have h2 : 2 ≤ b.natAbs := by omega
        have : a.natAbs / b.natAbs ≤ a.natAbs / 2 := Nat.div_le_div_left h2 (by decide)
        omega
    · omega
  have hf : a.fdiv b = if (0 < a.tmod b ∧ b < 0) ∨ (a.tmod b < 0 ∧ 0 < b) then a.tdiv b - 1 else a.tdiv b := by
    have e1 := Int.tmod_add_mul_tdiv a b
    have e2 := Int.fmod_add_mul_fdiv a b
    have hm : (a.tmod b).natAbs = a.natAbs % b.natAbs := Int.natAbs_tmod a b
    have hlt : a.natAbs % b.natAbs < b.natAbs := Nat.mod_lt _ (by omega)
    have hfm : (0 < b → 0 ≤ a.fmod b ∧ a.fmod b < b) ∧ (b < 0 → a.fmod b ≤ 0 ∧ b < a.fmod b) := by
      refine ⟨fun h => ⟨Int.fmod_nonneg_of_pos a h, Int.fmod_lt_of_pos a h⟩, fun h => ?_⟩
      have h1 := Int.fmod_nonneg_of_pos (-a) (show 0 < -b by omega)
      have h2 := Int.fmod_lt_of_pos (-a) (show 0 < -b by omega)
      rw [Int.neg_fmod_neg] at h1 h2
      omega
    by_cases hr : (0 < a.tmod b ∧ b < 0) ∨ (a.tmod b < 0 ∧ 0 < b)
    · rw [if_pos hr]
      have h3 : b * (a.fdiv b - a.tdiv b + 1) = a.tmod b - a.fmod b + b := by
        rw [Int.mul_add, Int.mul_sub]; omega
      have h4 := eq_zero_of_mul_small h3 (by omega)
      omega
    · rw [if_neg hr]
      have h3 : b * (a.fdiv b - a.tdiv b) = a.tmod b - a.fmod b := by
        rw [Int.mul_sub]; omega
      have h4 := eq_zero_of_mul_small h3 (by omega)
      omega
  unfold floorDiv divI64 remI64
  rw [if_neg h0, if_neg h0, if_neg h1, arithI64_ok key.1 key.2]
  simp only [ok_bind, ok_pure]
  rw [hf]
  by_cases hc : (0 < a.tmod b ∧ b < 0) ∨ (a.tmod b < 0 ∧ 0 < b)
  · rw [if_pos hc, if_pos hc]
    refine arithI64_ok ?_ (by omega)
    by_cases hq : a.tdiv b = -9223372036854775808
    · exfalso
      have hn : (a.tdiv b).natAbs = a.natAbs / b.natAbs := Int.natAbs_tdiv a b
      have e1 := Int.tmod_add_mul_tdiv a b
      have h2 : b.natAbs = 1 := by
        by_cases h2 : 2 ≤ b.natAbs
        · have : a.natAbs / b.natAbs ≤ a.natAbs / 2 := Nat.div_le_div_left h2 (by decide)
          omega
        · omega
      have hm : (a.tmod b).natAbs = a.natAbs % b.natAbs := Int.natAbs_tmod a b
      rw [h2, Nat.mod_one] at hm
      omega
    · omega
  · rw [if_neg hc, if_neg hc]

/-- `floor_div` by a positive constant -/
theorem floorDiv_pos {a b : Int} (ha1 : -9223372036854775808 ≤ a) (ha2 : a ≤ 9223372036854775807)
    (hb : 0 < b) (hb' : b ≤ 9223372036854775807) : floorDiv a b = .ok (a / b) := by
  rw [floorDiv_ok a b ⟨ha1, ha2⟩ ⟨by have : I64_MIN = -9223372036854775808 := rfl; omega, hb'⟩
    (by omega) (by omega), Int.fdiv_eq_ediv_of_nonneg _ (by omega)]

theorem leadingZeros_zero (k : Nat) : leadingZeros k 0 = k := by
  induction k with
  | zero => rfl
  | succ k ih => rw [leadingZeros, Nat.zero_testBit, if_neg (by decide), ih]; omega

theorem leadingZeros_spec (k n : Nat) (hn : n ≠ 0) (h : n < 2 ^ k) :
    leadingZeros k n < k ∧ 2 ^ (k - 1 - leadingZeros k n) ≤ n ∧ n < 2 ^ (k - leadingZeros k n) := by
  induction k with
  | zero => simp at h; omega
  | succ k ih =>
    rw [leadingZeros]
    by_cases hb : n.testBit k = true
    · rw [if_pos hb]
      exact ⟨by omega, Nat.ge_two_pow_of_testBit hb, h⟩
    · rw [if_neg hb]
      have hlt : n < 2 ^ k := by
        apply Classical.byContradiction
        intro hge
        apply hb
        rw [Nat.testBit_eq_decide_div_mod_eq]
        have : n / 2 ^ k = 1 := by
          apply Nat.div_eq_of_lt_le <;> omega
        rw [this]; rfl
      obtain ⟨h1, h2, h3⟩ := ih hlt
      refine ⟨by omega, ?_, ?_⟩
      · have : k + 1 - 1 - (1 + leadingZeros k n) = k - 1 - leadingZeros k n := by omega
        rw [this]; exact h2
      · have : k + 1 - (1 + leadingZeros k n) = k - leadingZeros k n := by omega
        rw [this]; exact h3

end Fundu
