import Verif.Spec.Months
import Verif.Proofs.JulianDay
/-! # Lengths of successive months -/
namespace Fundu
open Fundu.Spec

/-- the day number of the first day of a month -/
def monthStart (k : Int) : Int := dayNumber (k / 12) ((k % 12).toNat + 1) 1

theorem monthStart_succ (k : Int) : monthStart (k + 1) = monthStart k + monthLength k := by
  unfold monthStart monthLength
  by_cases h : k % 12 = 11
  · have e1 : (k + 1) / 12 = k / 12 + 1 := by omega
    have e2 : (k + 1) % 12 = 0 := by omega
    rw [e1, e2, h]
    unfold dayNumber
    rw [daysToYear_succ]
    have : yearDays (k / 12) = daysOfMonths (k / 12) 11 + monthDays (k / 12) 12 := by
      unfold yearDays
      simp only [daysOfMonths, monthDays]
      cases isLeap (k / 12) <;> decide
    have h0 : daysOfMonths (k / 12 + 1) 0 = 0 := rfl
    simp only [show ((0 : Int).toNat + 1 - 1) = 0 from rfl, show ((11 : Int).toNat + 1) = 12 from rfl, show 12 - 1 = 11 from rfl, h0]
    omega
  · have e1 : (k + 1) / 12 = k / 12 := by omega
    have e2 : ((k + 1) % 12).toNat = (k % 12).toNat + 1 := by omega
    rw [e1, e2]
    unfold dayNumber
    have : daysOfMonths (k / 12) ((k % 12).toNat + 1) = daysOfMonths (k / 12) (k % 12).toNat + monthDays (k / 12) ((k % 12).toNat + 1) := rfl
    simp only [Nat.add_sub_cancel]
    omega

theorem monthsForward_eq (k : Int) (n : Nat) : monthsForward k n = monthStart (k + n) - monthStart k := by
  induction n with
  | zero => simp [monthsForward]
  | succ n ih =>
    unfold monthsForward
    rw [ih, show k + ((n + 1 : Nat) : Int) = k + n + 1 by omega, monthStart_succ]
    omega

theorem monthsBackward_eq (k : Int) (n : Nat) : monthsBackward k n = monthStart k - monthStart (k - n) := by
  induction n with
  | zero => simp [monthsBackward]
  | succ n ih =>
    unfold monthsBackward
    rw [ih]
    have := monthStart_succ (k - 1 - n)
    rw [show k - 1 - (n : Int) + 1 = k - n by omega] at this
    rw [show k - ((n + 1 : Nat) : Int) = k - 1 - n by omega]
    omega

theorem monthsLength_eq (k n : Int) : monthsLength k n = monthStart (k + n) - monthStart k := by
  unfold monthsLength
  by_cases h : 0 ≤ n
  · rw [if_pos h, monthsForward_eq, Int.toNat_of_nonneg h]
  · rw [if_neg h, monthsBackward_eq, Int.toNat_of_nonneg (by omega), show k - -n = k + n by omega]
    omega

theorem dayNumber_start (y : Int) (m d : Nat) (h1 : 1 ≤ m) (h2 : m ≤ 12) : dayNumber y m d = monthStart (12 * y + m - 1) + ((d : Int) - 1) := by
  unfold monthStart
  have e1 : (12 * y + (m : Int) - 1) / 12 = y := by omega
  have e2 : ((12 * y + (m : Int) - 1) % 12).toNat + 1 = m := by omega
  rw [e1, e2]
  unfold dayNumber
  omega

theorem monthLength_bounds (k : Int) : 28 ≤ monthLength k ∧ monthLength k ≤ 31 := by
  unfold monthLength
  have h : (k % 12).toNat < 12 := by omega
  generalize (k % 12).toNat = i at h
  have key : ∀ i : Fin 12, (28 ≤ monthDays (k / 12) (i.val + 1) ∧ monthDays (k / 12) (i.val + 1) ≤ 31) := by
    intro i
    unfold monthDays
    generalize isLeap (k / 12) = l
    revert i
    cases l <;> decide
  exact key ⟨i, h⟩

theorem monthStart_year (k : Int) : 365 ≤ monthStart (k + 12) - monthStart k ∧ monthStart (k + 12) - monthStart k ≤ 366 := by
  unfold monthStart
  have e1 : (k + 12) / 12 = k / 12 + 1 := by omega
  have e2 : ((k + 12) % 12) = k % 12 := by omega
  rw [e1, e2]
  have h : (k % 12).toNat < 12 := by omega
  generalize (k % 12).toNat = i at h
  generalize k / 12 = y
  unfold dayNumber
  rw [daysToYear_succ]
  have key : ∀ i : Fin 12, 365 ≤ yearDays y + daysOfMonths (y + 1) i.val - daysOfMonths y i.val ∧
      yearDays y + daysOfMonths (y + 1) i.val - daysOfMonths y i.val ≤ 366 := by
    intro i
    obtain ⟨i, hi⟩ := i
    unfold yearDays
    have hm : ∀ y : Int, daysOfMonths y i = if i < 2 then (31 * i : Int) else daysOfMonths 1 i + (if isLeap y then 1 else 0) := by
      intro y
      have : i = 0 ∨ i = 1 ∨ i = 2 ∨ i = 3 ∨ i = 4 ∨ i = 5 ∨ i = 6 ∨ i = 7 ∨ i = 8 ∨ i = 9 ∨ i = 10 ∨ i = 11 := by omega
      rcases this with rfl | rfl | rfl | rfl | rfl | rfl | rfl | rfl | rfl | rfl | rfl | rfl <;>
        simp only [daysOfMonths, monthDays] <;> cases isLeap y <;> decide
    simp only [hm (y + 1), hm y]
    have : ¬ (isLeap y = true ∧ isLeap (y + 1) = true) := by
      unfold isLeap
      simp only [Bool.and_eq_true, decide_eq_true_eq]
      omega
    by_cases h2 : i < 2
    · rw [if_pos h2, if_pos h2]
      cases isLeap y <;> simp only [if_true, Bool.false_eq_true, if_false] <;> omega
    · rw [if_neg h2, if_neg h2]
      revert this
      cases isLeap y <;> cases isLeap (y + 1) <;> simp only [if_true, Bool.false_eq_true, if_false] <;> intro this
      · omega
      · omega
      · omega
      · exact absurd ⟨trivial, trivial⟩ this
  have := key ⟨i, h⟩
  simp only [Nat.add_sub_cancel]
  simp only at this
  omega

theorem monthsLength_bounds (k : Int) (n : Int) (hn : 0 ≤ n) : 28 * n ≤ monthsLength k n ∧ monthsLength k n ≤ 31 * n := by
  obtain ⟨n, rfl⟩ := Int.eq_ofNat_of_zero_le hn
  rw [monthsLength_eq, ← monthsForward_eq]
  induction n with
  | zero => simp [monthsForward]
  | succ n ih =>
    have := ih (by omega)
    have := monthLength_bounds (k + n)
    unfold monthsForward
    omega

theorem monthsLength_years (k : Int) (n : Int) (hn : 0 ≤ n) : 365 * n ≤ monthsLength k (12 * n) ∧ monthsLength k (12 * n) ≤ 366 * n := by
  obtain ⟨n, rfl⟩ := Int.eq_ofNat_of_zero_le hn
  rw [monthsLength_eq]
  induction n with
  | zero => simp
  | succ n ih =>
    have := ih (by omega)
    have := monthStart_year (k + 12 * n)
    rw [show k + 12 * ((n + 1 : Nat) : Int) = k + 12 * n + 12 by omega]
    omega

theorem monthsLength_neg (k n : Int) : monthsLength k (-n) = -monthsLength (k - n) n := by
  rw [monthsLength_eq, monthsLength_eq, show k - n + n = k by omega, show k + -n = k - n by omega]
  omega

theorem monthsLength_add (k n n' : Int) : monthsLength k (n + n') = monthsLength k n + monthsLength (k + n) n' := by
  rw [monthsLength_eq, monthsLength_eq, monthsLength_eq, show k + (n + n') = k + n + n' by omega]
  omega

theorem monthsLength_era (k : Int) : monthsLength k 4800 = 146097 := by
  rw [monthsLength_eq]
  unfold monthStart
  have e1 : (k + 4800) / 12 = k / 12 + 400 := by omega
  have e2 : ((k + 4800) % 12) = k % 12 := by omega
  rw [e1, e2]
  have hd : ∀ m, daysOfMonths (k / 12 + 400) m = daysOfMonths (k / 12) m := by
    intro m
    have hl : isLeap (k / 12 + 400) = isLeap (k / 12) := by
      rw [Bool.eq_iff_iff, isLeap_iff, isLeap_iff]
      omega
    induction m with
    | zero => rfl
    | succ m ih =>
      unfold daysOfMonths
      rw [ih]
      unfold monthDays
      rw [hl]
  unfold dayNumber
  rw [hd, daysToYear_eq, daysToYear_eq]
  omega

end Fundu
