import Verif.Proofs.JulianDay
/-!
# Properties C44-C46: Julian days and the proleptic Gregorian calendar

The specification is `Spec/Calendar.lean`: leap rule, days of the months, `nextDay`, and `dayNumber`, which
adds up the days of years and months.
-/
namespace Fundu.Props
open Fundu Fundu.Spec

/-! ## C44 -/

/-- the day number counts days: 1970-01-01 is 2440588 -/
theorem C44_spec_epoch : dayNumber 1970 1 1 = 2440588 := by
  unfold dayNumber; rw [daysToYear_eq]; decide

/-- the day number counts days: the number of the next day is one more -/
theorem C44_spec_next (y : Int) (m d : Nat) (h : ValidDate y m d) :
    ValidDate (nextDay y m d).1 (nextDay y m d).2.1 (nextDay y m d).2.2 ∧
    dayNumber (nextDay y m d).1 (nextDay y m d).2.1 (nextDay y m d).2.2 = dayNumber y m d + 1 :=
  ⟨valid_next y m d h, dayNumber_next y m d h⟩

/-- C44: for every `i64` year, month 1..12 and day 1..31 (also beyond the end of the month: the
days are carried into the next month) `try_from_gregorian` is the day number if it is an `i64`, else
`None`. -/
theorem C44_try_from_gregorian (y : Int) (m d : Nat) (hy : IsI64 y) (h1 : 1 ≤ m) (h2 : m ≤ 12)
    (hd1 : 1 ≤ d) (hd2 : d ≤ 31) :
    (IsI64 (dayNumber y m d) → JulianDay.tryFromGregorian y m d = .ok (some (dayNumber y m d))) ∧
    (¬ IsI64 (dayNumber y m d) → JulianDay.tryFromGregorian y m d = .ok none) := by
  rw [tryFromGregorian_eq y m d hy h1 h2 hd1 hd2]
  unfold checkedI64
  exact ⟨fun h => by rw [if_pos h], fun h => by rw [if_neg h]⟩

/-- C44: other months or days panic. -/
theorem C44_panics (y : Int) (m d : Nat) (h : m < 1 ∨ 12 < m ∨ d < 1 ∨ 31 < d) :
    JulianDay.tryFromGregorian y m d = .error .assert := by
  unfold JulianDay.tryFromGregorian validateRange
  by_cases h1 : m < 1 ∨ 12 < m
  · rw [if_pos h1]; rfl
  · rw [if_neg h1, ok_bind, if_pos (by omega)]; rfl

/-- C44: `from_gregorian` is `try_from_gregorian`, but panics on overflow. -/
theorem C44_from_gregorian (y : Int) (m d : Nat) (hy : IsI64 y) (h1 : 1 ≤ m) (h2 : m ≤ 12)
    (hd1 : 1 ≤ d) (hd2 : d ≤ 31) :
    (IsI64 (dayNumber y m d) → JulianDay.fromGregorian y m d = .ok (dayNumber y m d)) ∧
    (¬ IsI64 (dayNumber y m d) → JulianDay.fromGregorian y m d = .error .overflow) := by
  obtain ⟨e1, e2⟩ := C44_try_from_gregorian y m d hy h1 h2 hd1 hd2
  unfold JulianDay.fromGregorian
  exact ⟨fun h => by rw [e1 h]; rfl, fun h => by rw [e2 h]; rfl⟩

theorem year_isI64 {y : Int} {m d : Nat} (h : ValidDate y m d) (hd : IsI64 (dayNumber y m d)) :
    -9000000000000000000 ≤ y ∧ y ≤ 9000000000000000000 := by
  have hb := marchDays_bound m
  have h31 := (monthDays_le y m).2
  obtain ⟨h1, h2, h3, h4⟩ := h
  have hd' : -9223372036854775808 ≤ dayNumber y m d ∧ dayNumber y m d ≤ 9223372036854775807 := hd
  rw [dayNumber_eq y m d h1 h2] at hd'
  by_cases hm : m < 3
  · rw [if_pos hm] at hd'; omega
  · rw [if_neg hm] at hd'; omega

/-- C44: from each date to the next the Julian day increases by exactly one. -/
theorem C44_next (y : Int) (m d : Nat) (hy : IsI64 y) (h : ValidDate y m d) (jd : Int)
    (he : JulianDay.tryFromGregorian y m d = .ok (some jd)) (hmax : jd < 2 ^ 63 - 1) :
    JulianDay.tryFromGregorian (nextDay y m d).1 (nextDay y m d).2.1 (nextDay y m d).2.2 =
      .ok (some (jd + 1)) := by
  obtain ⟨hv, hn⟩ := C44_spec_next y m d h
  have h31 := (monthDays_le y m).2
  have hv' := hv
  obtain ⟨n1, n2, n3, n4⟩ := hv
  have h31' := (monthDays_le (nextDay y m d).1 (nextDay y m d).2.1).2
  have hvd := h
  obtain ⟨h1, h2, h3, h4⟩ := h
  obtain ⟨e1, e2⟩ := C44_try_from_gregorian y m d hy h1 h2 h3 (by omega)
  have hi : IsI64 (dayNumber y m d) := by
    apply Classical.byContradiction
    intro hc
    rw [e2 hc] at he; cases he
  rw [e1 hi] at he
  cases he
  have hi' : -9223372036854775808 ≤ dayNumber y m d ∧ dayNumber y m d ≤ 9223372036854775807 := hi
  have hi2 : IsI64 (dayNumber (nextDay y m d).1 (nextDay y m d).2.1 (nextDay y m d).2.2) := by
    rw [hn]
    exact ⟨by show -9223372036854775808 ≤ _; omega, by show _ ≤ 9223372036854775807; omega⟩
  have hy2 := year_isI64 hv' hi2
  rw [(C44_try_from_gregorian _ _ _ ⟨by show -9223372036854775808 ≤ _; omega, by show _ ≤ 9223372036854775807; omega⟩ n1 n2 n3 (by omega)).1 hi2, hn]

/-- 2000-02-29 is a date, 1900-02-29 is not; the last day of a year is followed by the first of the next -/
example : ValidDate 2000 2 29 ∧ ¬ ValidDate 1900 2 29 ∧ ValidDate (-4) 2 29 ∧
    nextDay 1999 12 31 = (2000, 1, 1) ∧ nextDay 1900 2 28 = (1900, 3, 1) := by decide

example : (JulianDay.tryFromGregorian 1970 1 1).toOption = some (some 2440588) ∧
    (JulianDay.tryFromGregorian (-4713) 11 24).toOption = some (some 0) ∧
    (JulianDay.tryFromGregorian 25252734927768525 1 1).toOption = some none := by decide +kernel

/-! ## C45 -/

/-- C45: the date of a Julian day is a valid date with this day number, so `from_gregorian` gives the day
back. -/
theorem C45_to_gregorian (jd y : Int) (m d : Nat) (h : JulianDay.toGregorian jd = .ok (some (y, m, d))) :
    ValidDate y m d ∧ dayNumber y m d = jd ∧ JulianDay.tryFromGregorian y m d = .ok (some jd) := by
  by_cases hr : -92231826450597304 ≤ jd ∧ jd ≤ 92231826454039543
  · obtain ⟨y', m', d', e1, e2, e3, e4, e5⟩ := toGregorian_in jd hr.1 hr.2
    rw [e1] at h
    cases h
    refine ⟨e2, e3, ?_⟩
    have h31 := (monthDays_le y m).2
    obtain ⟨h1, h2, h3, h4⟩ := e2
    rw [(C44_try_from_gregorian y m d ⟨by show -9223372036854775808 ≤ _; omega, by show _ ≤ 9223372036854775807; omega⟩ h1 h2 h3 (by omega)).1 (by rw [e3]; exact ⟨by show -9223372036854775808 ≤ _; omega, by show _ ≤ 9223372036854775807; omega⟩), e3]
  · by_cases hp : jd = -92233720366826639
    · subst hp; rw [toGregorian_panic] at h; cases h
    · rw [toGregorian_out jd (by omega) hp] at h; cases h

/-- C45: `to_gregorian` inverts `from_gregorian` for every valid date whose day is in the range of
`to_gregorian`. -/
theorem C45_inverse (y : Int) (m d : Nat) (hy : IsI64 y) (h : ValidDate y m d) (jd : Int)
    (he : JulianDay.tryFromGregorian y m d = .ok (some jd))
    (h1 : -92231826450597304 ≤ jd) (h2 : jd ≤ 92231826454039543) :
    JulianDay.toGregorian jd = .ok (some (y, m, d)) := by
  obtain ⟨y', m', d', e1, e2, e3, e4, e5⟩ := toGregorian_in jd h1 h2
  have h31 := (monthDays_le y m).2
  have hv := h
  obtain ⟨v1, v2, v3, v4⟩ := h
  obtain ⟨k1, k2⟩ := C44_try_from_gregorian y m d hy v1 v2 v3 (by omega)
  have hi : IsI64 (dayNumber y m d) := by
    apply Classical.byContradiction
    intro hc
    rw [k2 hc] at he; cases he
  rw [k1 hi] at he
  cases he
  obtain ⟨a, b, c⟩ := dayNumber_injective e2 hv e3
  subst a; subst b; subst c
  exact e1

/-- the range covers all dates of the years ± 252 522 163 911 149 -/
theorem C45_range (y : Int) (m d : Nat) (h : ValidDate y m d) (h1 : -252522163911149 ≤ y)
    (h2 : y ≤ 252522163911149) :
    -92231826450597304 ≤ dayNumber y m d ∧ dayNumber y m d ≤ 92231826454039543 := by
  have hb := marchDays_bound m
  have h31 := (monthDays_le y m).2
  obtain ⟨v1, v2, v3, v4⟩ := h
  rw [dayNumber_eq y m d v1 v2]
  by_cases hm : m < 3
  · rw [if_pos hm]; omega
  · rw [if_neg hm]; omega

example : (JulianDay.toGregorian 2451604).toOption = some (some (2000, 2, 29)) ∧
    (JulianDay.toGregorian (-1)).toOption = some (some (-4713, 11, 23)) ∧
    (JulianDay.toGregorian 92231826454039543).toOption = some (some (252522163911150, 10, 7)) := by
  decide +kernel

/-! ## C46 -/

/-- C46: `to_gregorian` is `None` for all days outside of its range, except for a single day, where
`zero * 100 - 25` overflows: there it panics. -/
theorem C46_to_gregorian (jd : Int) :
    (JulianDay.toGregorian jd = .ok none ↔
      (jd < -92231826450597304 ∨ 92231826454039543 < jd) ∧ jd ≠ -92233720366826639) ∧
    ((∃ p, JulianDay.toGregorian jd = .error p) ↔ jd = -92233720366826639) := by
  by_cases hr : -92231826450597304 ≤ jd ∧ jd ≤ 92231826454039543
  · obtain ⟨y', m', d', e1, e2, e3, e4, e5⟩ := toGregorian_in jd hr.1 hr.2
    rw [e1]
    refine ⟨⟨fun h => by simp at h, fun h => by omega⟩, ⟨fun ⟨_, h⟩ => by simp at h, fun h => by omega⟩⟩
  · by_cases hp : jd = -92233720366826639
    · subst hp
      rw [toGregorian_panic]
      refine ⟨⟨fun h => by simp at h, fun h => absurd rfl h.2⟩, ⟨fun _ => rfl, fun _ => ⟨_, rfl⟩⟩⟩
    · rw [toGregorian_out jd (by omega) hp]
      refine ⟨⟨fun _ => ⟨by omega, hp⟩, fun _ => rfl⟩, ⟨fun ⟨_, h⟩ => by simp at h, fun h => absurd h hp⟩⟩

/-- the neighbours of the panicking day are fine -/
example : (JulianDay.toGregorian (-92233720366826639)).toOption = none ∧
    (JulianDay.toGregorian (-92233720366826638)).toOption = some none ∧
    (JulianDay.toGregorian (-92233720366826640)).toOption = some none := by decide +kernel

end Fundu.Props
