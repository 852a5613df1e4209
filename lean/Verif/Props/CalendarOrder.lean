import Verif.Spec.CalendarOrder
import Verif.Props.DateTime
/-!
# Property C110: the order of dates

Julian days and `DateTime`s are ordered as their Gregorian dates and times are, and adding a duration, days or years keeps this
order. (Adding months does not, and neither does adding years to dates with different times of day, because the 29th of February can
become the first of March: shown by examples.)
-/
namespace Fundu.Props
open Fundu Fundu.Spec

/-- what is left of a year after its first `m` months is at least the rest of the months one by one -/
private theorem daysOfMonths_mono (y : Int) {m n : Nat} (h : m ≤ n) : daysOfMonths y m ≤ daysOfMonths y n := by
  induction n with
  | zero => rw [Nat.le_zero.1 h]
  | succ n ih =>
    by_cases hm : m = n + 1
    · rw [hm]
    · have := ih (by omega)
      show _ ≤ daysOfMonths y n + monthDays y (n + 1)
      omega

private theorem daysOfMonths_year (y : Int) : daysOfMonths y 12 = yearDays y := by
  unfold yearDays
  cases h : isLeap y <;> simp [daysOfMonths, monthDays, h]

private theorem daysToYear_mono {y y' : Int} (h : y ≤ y') : daysToYear y ≤ daysToYear y' := by
  rw [daysToYear_eq, daysToYear_eq]; omega

/-- a day up to the first one after the month `m` lies not after the first day of the next month -/
private theorem month_end (y : Int) {m d : Nat} (h1 : 1 ≤ m) (h : d ≤ monthDays y m + 1) :
    daysOfMonths y (m - 1) + (d : Int) - 1 ≤ daysOfMonths y m := by
  obtain ⟨k, rfl⟩ : ∃ k, m = k + 1 := ⟨m - 1, by omega⟩
  show daysOfMonths y k + (d : Int) - 1 ≤ daysOfMonths y k + monthDays y (k + 1)
  omega

private theorem daysOfMonths_nonneg (y : Int) (m : Nat) : 0 ≤ daysOfMonths y m :=
  daysOfMonths_mono y (Nat.zero_le m)

/-- earlier dates have smaller day numbers; the first date may be one day behind the end of its month if the second date
is in a later month -/
private theorem dayNumber_lt {y : Int} {m d : Nat} {y' : Int} {m' d' : Nat} (hv : ValidDate y m d) (hv' : ValidDate y' m' d')
    (h : EarlierDate y m d y' m' d') : dayNumber y m d < dayNumber y' m' d' := by
  obtain ⟨a1, a2, a3, a4⟩ := hv
  obtain ⟨b1, b2, b3, b4⟩ := hv'
  have hm : daysOfMonths y (m - 1) + (d : Int) - 1 < daysOfMonths y m := by
    have := month_end y (d := d + 1) a1 (by omega)
    omega
  unfold dayNumber
  rcases h with h | ⟨rfl, h | ⟨rfl, h⟩⟩
  · have k1 := daysOfMonths_mono y a2
    rw [daysOfMonths_year] at k1
    have k2 := daysToYear_mono (show y + 1 ≤ y' by omega)
    rw [daysToYear_succ] at k2
    have k3 := daysOfMonths_nonneg y' (m' - 1)
    omega
  · have k1 := daysOfMonths_mono y (show m ≤ m' - 1 by omega)
    omega
  · omega

private theorem earlier_cases (y : Int) (m d : Nat) (y' : Int) (m' d' : Nat) :
    EarlierDate y m d y' m' d' ∨ (y = y' ∧ m = m' ∧ d = d') ∨ EarlierDate y' m' d' y m d := by
  unfold EarlierDate
  omega

private theorem dayNumber_lt_iff {y : Int} {m d : Nat} {y' : Int} {m' d' : Nat} (hv : ValidDate y m d) (hv' : ValidDate y' m' d') :
    dayNumber y m d < dayNumber y' m' d' ↔ EarlierDate y m d y' m' d' := by
  refine ⟨fun h => ?_, dayNumber_lt hv hv'⟩
  rcases earlier_cases y m d y' m' d' with g | ⟨rfl, rfl, rfl⟩ | g
  · exact g
  · omega
  · have := dayNumber_lt hv' hv g
    omega

/-- C110: the Julian day of an earlier date is less, and only then. -/
theorem C110_from_gregorian (y y' : Int) (m d m' d' : Nat) (hy : IsI64 y) (hy' : IsI64 y') (hv : ValidDate y m d)
    (hv' : ValidDate y' m' d') (jd jd' : Int) (h : JulianDay.fromGregorian y m d = .ok jd)
    (h' : JulianDay.fromGregorian y' m' d' = .ok jd') : jd < jd' ↔ EarlierDate y m d y' m' d' := by
  obtain ⟨-, -, -, -, rfl, -⟩ := fromGregorian_ok hy h
  obtain ⟨-, -, -, -, rfl, -⟩ := fromGregorian_ok hy' h'
  exact dayNumber_lt_iff hv hv'

/-- C110: the date of an earlier Julian day is earlier, and only then. -/
theorem C110_to_gregorian (jd jd' y y' : Int) (m d m' d' : Nat) (h : JulianDay.toGregorian jd = .ok (some (y, m, d)))
    (h' : JulianDay.toGregorian jd' = .ok (some (y', m', d'))) : jd < jd' ↔ EarlierDate y m d y' m' d' := by
  obtain ⟨a1, rfl, -⟩ := C45_to_gregorian jd y m d h
  obtain ⟨b1, rfl, -⟩ := C45_to_gregorian jd' y' m' d' h'
  exact dayNumber_lt_iff a1 b1

private theorem timeOf_lt_iff {h mi s n h' mi' s' n' : Nat} (ht : ValidTime h mi s n) (ht' : ValidTime h' mi' s' n') :
    DateTime.timeOf h mi s n < DateTime.timeOf h' mi' s' n' ↔ EarlierTime h mi s n h' mi' s' n' := by
  obtain ⟨a1, a2, a3, a4⟩ := ht
  obtain ⟨b1, b2, b3, b4⟩ := ht'
  unfold DateTime.timeOf EarlierTime
  omega

private theorem cmp_lt_iff (a b : DateTime) : a.cmp b = .lt ↔ a.days < b.days ∨ (a.days = b.days ∧ a.time < b.time) := by
  unfold DateTime.cmp
  rcases Int.lt_trichotomy a.days b.days with h | h | h
  · rw [compare_lt_iff_lt.2 h]
    exact ⟨fun _ => Or.inl h, fun _ => rfl⟩
  · rw [compare_eq_iff_eq.2 h]
    show compare a.time b.time = .lt ↔ _
    rw [compare_lt_iff_lt]
    omega
  · rw [compare_gt_iff_gt.2 h]
    refine ⟨(fun g => by cases g), fun g => ?_⟩
    omega

/-- C110: `DateTime`s made of dates and times are ordered as the dates are, and on the same day as the times are. -/
theorem C110_date_times (y y' : Int) (m d m' d' h mi s n h' mi' s' n' : Nat) (hy : IsI64 y) (hy' : IsI64 y')
    (hv : ValidDate y m d) (hv' : ValidDate y' m' d') (dt dt' : DateTime)
    (he : DateTime.fromGregorianDateTime y m d h mi s n = .ok dt)
    (he' : DateTime.fromGregorianDateTime y' m' d' h' mi' s' n' = .ok dt') :
    dt.cmp dt' = .lt ↔ EarlierDate y m d y' m' d' ∨ ((y, m, d) = (y', m', d') ∧ EarlierTime h mi s n h' mi' s' n') := by
  by_cases ht : ValidTime h mi s n
  swap
  · rw [fromGregorianDateTime_invalid y m d h mi s n ht] at he; cases he
  by_cases ht' : ValidTime h' mi' s' n'
  swap
  · rw [fromGregorianDateTime_invalid y' m' d' h' mi' s' n' ht'] at he'; cases he'
  rw [fromGregorianDateTime_valid y m d h mi s n ht] at he
  rw [fromGregorianDateTime_valid y' m' d' h' mi' s' n' ht'] at he'
  cases hj : JulianDay.fromGregorian y m d with
  | error p => rw [hj] at he; cases he
  | ok jd =>
    cases hj' : JulianDay.fromGregorian y' m' d' with
    | error p => rw [hj'] at he'; cases he'
    | ok jd' =>
      rw [hj] at he
      rw [hj'] at he'
      cases he
      cases he'
      rw [cmp_lt_iff]
      show jd < jd' ∨ (jd = jd' ∧ DateTime.timeOf h mi s n < DateTime.timeOf h' mi' s' n') ↔ _
      rw [timeOf_lt_iff ht ht', C110_from_gregorian y y' m d m' d' hy hy' hv hv' jd jd' hj hj']
      have heq : jd = jd' ↔ (y, m, d) = (y', m', d') := by
        constructor
        · rintro rfl
          rcases earlier_cases y m d y' m' d' with g | ⟨rfl, rfl, rfl⟩ | g
          · have := (C110_from_gregorian y y' m d m' d' hy hy' hv hv' _ _ hj hj').2 g; omega
          · rfl
          · have := (C110_from_gregorian y' y m' d' m d hy' hy hv' hv _ _ hj' hj).2 g; omega
        · intro g
          cases g
          rw [hj] at hj'
          cases hj'
          rfl
      rw [heq]

private theorem cmp_instant {a b : DateTime} (ha : DateTimeOk a) (hb : DateTimeOk b) :
    (a.cmp b = .lt ↔ instant a < instant b) ∧ (a.cmp b = .gt ↔ instant b < instant a) := by
  rw [(C54_order a b ha hb).1]
  exact ⟨compare_lt_iff_lt, compare_gt_iff_gt⟩

/-- C110: adding a duration keeps the order, and a longer duration leads to a later date. -/
theorem C110_add_duration (a b a' b' : DateTime) (d e : Duration) (ha : DateTimeOk a) (hb : DateTimeOk b) (hd : d.WF) (he : e.WF)
    (h : a.checkedAddDuration d = .ok (some a')) (h' : b.checkedAddDuration e = .ok (some b'))
    (hle : a.cmp b ≠ .gt) (hde : nanos d ≤ nanos e) :
    a'.cmp b' ≠ .gt ∧ (a.cmp b = .lt ∨ nanos d < nanos e → a'.cmp b' = .lt) := by
  obtain ⟨r, r1, r2⟩ := C47_checked_add_duration a d ha hd
  obtain ⟨r', r1', r2'⟩ := C47_checked_add_duration b e hb he
  rw [h] at r1
  cases r1
  rw [h'] at r1'
  cases r1'
  obtain ⟨k1, k2⟩ := (r2 a').1 rfl
  obtain ⟨k1', k2'⟩ := (r2' b').1 rfl
  rw [Ne, (cmp_instant ha hb).2] at hle
  rw [Ne, (cmp_instant k1 k1').2, (cmp_instant k1 k1').1, (cmp_instant ha hb).1]
  omega

/-- only the 29th of February can be missing in another year -/
private theorem monthDays_years (y n : Int) {m : Nat} (h1 : 1 ≤ m) (h2 : m ≤ 12) :
    monthDays y m ≤ monthDays (y + n) m + 1 ∧ (m ≠ 2 → monthDays y m = monthDays (y + n) m) := by
  have : m = 1 ∨ m = 2 ∨ m = 3 ∨ m = 4 ∨ m = 5 ∨ m = 6 ∨ m = 7 ∨ m = 8 ∨ m = 9 ∨ m = 10 ∨ m = 11 ∨ m = 12 := by omega
  rcases this with rfl | rfl | rfl | rfl | rfl | rfl | rfl | rfl | rfl | rfl | rfl | rfl <;>
    refine ⟨?_, fun h => ?_⟩ <;> simp [monthDays] at * <;> (cases isLeap y <;> cases isLeap (y + n) <;> simp)

private theorem dayNumber_years {y : Int} {m d : Nat} {y' : Int} {m' d' : Nat} (n : Int) (hv : ValidDate y m d)
    (hv' : ValidDate y' m' d') (h : dayNumber y m d ≤ dayNumber y' m' d') : dayNumber (y + n) m d ≤ dayNumber (y' + n) m' d' := by
  have hc : (y = y' ∧ m = m' ∧ d = d') ∨ EarlierDate y m d y' m' d' := by
    rcases earlier_cases y m d y' m' d' with g | g | g
    · exact Or.inr g
    · exact Or.inl g
    · have := dayNumber_lt hv' hv g
      omega
  obtain ⟨a1, a2, a3, a4⟩ := hv
  obtain ⟨b1, b2, b3, b4⟩ := hv'
  obtain ⟨c1, c2⟩ := monthDays_years y n a1 a2
  have hm := month_end (y + n) (d := d) a1 (by omega)
  unfold dayNumber
  rcases hc with ⟨rfl, rfl, rfl⟩ | h | ⟨rfl, h | ⟨rfl, h⟩⟩
  · omega
  · have k1 : daysOfMonths (y + n) (m - 1) + (d : Int) - 1 ≤ daysOfMonths (y + n) 12 := by
      have := daysOfMonths_mono (y + n) a2
      omega
    rw [daysOfMonths_year] at k1
    have k2 := daysToYear_mono (show y + n + 1 ≤ y' + n by omega)
    rw [daysToYear_succ] at k2
    have k3 := daysOfMonths_nonneg (y' + n) (m' - 1)
    omega
  · have k1 := daysOfMonths_mono (y + n) (show m ≤ m' - 1 by omega)
    omega
  · omega

theorem gregorian_of_some {a a' : DateTime} {y m d : Int} (h : a.checkedAddGregorian y m d = .ok (some a')) :
    ∃ Y M D, JulianDay.toGregorian a.days = .ok (some (Y, M, D)) := by
  unfold DateTime.checkedAddGregorian at h
  cases hg : JulianDay.toGregorian a.days with
  | error p => rw [hg] at h; cases h
  | ok r =>
    cases r with
    | none => rw [hg] at h; cases h
    | some r => exact ⟨r.1, r.2.1, r.2.2, rfl⟩

/-- C110: adding the same number of years and days keeps the order of the days. -/
theorem C110_add_years (a b a' b' : DateTime) (n k : Int) (ha : DateTimeOk a) (hb : DateTimeOk b) (hn : IsI64 n) (hk : IsI64 k)
    (h : a.checkedAddGregorian n 0 k = .ok (some a')) (h' : b.checkedAddGregorian n 0 k = .ok (some b')) (hle : a.days ≤ b.days) :
    a'.days ≤ b'.days := by
  obtain ⟨Y, M, D, hg⟩ := gregorian_of_some h
  obtain ⟨Y', M', D', hg'⟩ := gregorian_of_some h'
  obtain ⟨v1, v2, -⟩ := C45_to_gregorian _ _ _ _ hg
  obtain ⟨v1', v2', -⟩ := C45_to_gregorian _ _ _ _ hg'
  obtain ⟨e1, e2⟩ := C49_checked_add_gregorian a ha Y M D hg n 0 k hn (by decide) hk (Y + n) M v1.1 v1.2.1 (by omega)
  obtain ⟨e1', e2'⟩ := C49_checked_add_gregorian b hb Y' M' D' hg' n 0 k hn (by decide) hk (Y' + n) M' v1'.1 v1'.2.1 (by omega)
  have key := dayNumber_years n v1 v1' (by rw [v2, v2']; exact hle)
  by_cases q : IsI64 (dayNumber (Y + n) M D) ∧ IsI64 (dayNumber (Y + n) M D + k)
  swap
  · rw [e2 q] at h; cases h
  by_cases q' : IsI64 (dayNumber (Y' + n) M' D') ∧ IsI64 (dayNumber (Y' + n) M' D' + k)
  swap
  · rw [e2' q'] at h'; cases h'
  rw [e1 q] at h
  rw [e1' q'] at h'
  cases h
  cases h'
  show dayNumber (Y + n) M D + k ≤ dayNumber (Y' + n) M' D' + k
  omega

/-! ## Examples -/

/-- 1999-12-31 23:59:59.5 is before 2000-01-01 00:00:00 -/
example : ∃ a b, DateTime.fromGregorianDateTime 1999 12 31 23 59 59 500000000 = .ok a ∧
    DateTime.fromGregorianDateTime 2000 1 1 0 0 0 0 = .ok b ∧ a.cmp b = .lt :=
  ⟨⟨2451544, 86399500000000⟩, ⟨2451545, 0⟩, by decide +kernel, by decide +kernel,
    (C110_date_times 1999 2000 12 31 1 1 23 59 59 500000000 0 0 0 0 (by decide) (by decide) (by decide) (by decide) _ _
      (by decide +kernel) (by decide +kernel)).2 (Or.inl (Or.inl (by decide)))⟩

/-- one year after 2000-02-29 is not after one year after 2000-03-01 -/
example : ∃ a b, (⟨2451604, 0⟩ : DateTime).checkedAddGregorian 1 0 0 = .ok (some a) ∧
    (⟨2451605, 0⟩ : DateTime).checkedAddGregorian 1 0 0 = .ok (some b) ∧ a.days ≤ b.days :=
  ⟨⟨2451970, 0⟩, ⟨2451970, 0⟩, by decide +kernel, by decide +kernel,
    C110_add_years ⟨2451604, 0⟩ ⟨2451605, 0⟩ _ _ 1 0 (by decide) (by decide) (by decide) (by decide) (by decide +kernel)
      (by decide +kernel) (by decide)⟩

/-- with the time of day it is: 2000-02-29 10:00 and 2000-03-01 09:00 change places -/
example : (⟨2451604, 36000000000000⟩ : DateTime).cmp ⟨2451605, 32400000000000⟩ = .lt ∧
    (⟨2451604, 36000000000000⟩ : DateTime).checkedAddGregorian 1 0 0 = .ok (some ⟨2451970, 36000000000000⟩) ∧
    (⟨2451605, 32400000000000⟩ : DateTime).checkedAddGregorian 1 0 0 = .ok (some ⟨2451970, 32400000000000⟩) ∧
    (⟨2451970, 36000000000000⟩ : DateTime).cmp ⟨2451970, 32400000000000⟩ = .gt := by decide +kernel

/-- one month after 2001-01-31 is after one month after 2001-02-01: adding months does not keep the order -/
example : JulianDay.fromGregorian 2001 1 31 = .ok 2451941 ∧ JulianDay.fromGregorian 2001 2 1 = .ok 2451942 ∧
    (⟨2451941, 0⟩ : DateTime).checkedAddGregorian 0 1 0 = .ok (some ⟨2451972, 0⟩) ∧
    (⟨2451942, 0⟩ : DateTime).checkedAddGregorian 0 1 0 = .ok (some ⟨2451970, 0⟩) := by decide +kernel

end Fundu.Props
