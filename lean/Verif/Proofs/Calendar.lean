import Verif.Spec.Calendar
import Verif.Proofs.Prim
/-! # Lemmas about the calendar -/
namespace Fundu
open Fundu.Spec

theorem isLeap_iff (y : Int) : isLeap y = true ↔ y % 4 = 0 ∧ (y % 100 ≠ 0 ∨ y % 400 = 0) := by
  simp [isLeap]

theorem yearDays_eq (y : Int) :
    yearDays y = 365 + ((y + 4) / 4 - (y + 3) / 4) - ((y + 100) / 100 - (y + 99) / 100)
      + ((y + 400) / 400 - (y + 399) / 400) := by
  unfold yearDays
  by_cases h : isLeap y = true
  · rw [if_pos h]; rw [isLeap_iff] at h; omega
  · rw [if_neg h]; rw [isLeap_iff] at h; omega

theorem daysForward_eq (n : Nat) :
    daysForward n = 365 * n + ((n : Int) + 3) / 4 - (n + 99) / 100 + (n + 399) / 400 := by
  induction n with
  | zero => rfl
  | succ n ih => rw [daysForward, ih, yearDays_eq]; omega

theorem daysBackward_eq (n : Nat) :
    daysBackward n = 365 * n - ((-(n : Int) + 3) / 4 - (-(n : Int) + 99) / 100 + (-(n : Int) + 399) / 400) := by
  induction n with
  | zero => rfl
  | succ n ih => rw [daysBackward, ih, yearDays_eq]; omega

/-- closed form of `daysToYear` -/
theorem daysToYear_eq (y : Int) :
    daysToYear y = 365 * y + (y + 3) / 4 - (y + 99) / 100 + (y + 399) / 400 := by
  unfold daysToYear
  by_cases h : 0 ≤ y
  · rw [if_pos h, daysForward_eq]; omega
  · rw [if_neg h, daysBackward_eq]; omega

theorem daysToYear_succ (y : Int) : daysToYear (y + 1) = daysToYear y + yearDays y := by
  rw [daysToYear_eq, daysToYear_eq, yearDays_eq]; omega

/-- days of the months before `m`, in a year starting on March 1 -/
def marchDays : Nat → Int
  | 1 => 306 | 2 => 337 | 3 => 0 | 4 => 31 | 5 => 61 | 6 => 92 | 7 => 122 | 8 => 153 | 9 => 184
  | 10 => 214 | 11 => 245 | _ => 275

/-- the day number by the algorithm of the code -/
theorem dayNumber_eq (y : Int) (m d : Nat) (h1 : 1 ≤ m) (h2 : m ≤ 12) :
    dayNumber y m d =
      (if m < 3 then 365 * (y - 1) + (y - 1) / 4 - (y - 1) / 100 + (y - 1) / 400
       else 365 * y + y / 4 - y / 100 + y / 400) + d + marchDays m + 1721119 := by
  unfold dayNumber
  rw [daysToYear_eq]
  have hl : monthDays y 2 = if isLeap y then 29 else 28 := rfl
  have : m = 1 ∨ m = 2 ∨ m = 3 ∨ m = 4 ∨ m = 5 ∨ m = 6 ∨ m = 7 ∨ m = 8 ∨ m = 9 ∨ m = 10 ∨ m = 11 ∨ m = 12 := by
    omega
  by_cases h : isLeap y = true
  · have h' := (isLeap_iff y).1 h
    rcases this with h | h | h | h | h | h | h | h | h | h | h | h <;> subst h <;>
      simp [daysOfMonths, monthDays, marchDays, h] <;> omega
  · have h' : ¬ (y % 4 = 0 ∧ (y % 100 ≠ 0 ∨ y % 400 = 0)) := fun h1 => h ((isLeap_iff y).2 h1)
    rcases this with h | h | h | h | h | h | h | h | h | h | h | h <;> subst h <;>
      simp [daysOfMonths, monthDays, marchDays, h] <;> omega

end Fundu
