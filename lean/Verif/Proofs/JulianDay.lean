import Verif.Proofs.Calendar
import Verif.Proofs.Util
/-! # Julian days: the code computes the day number of the calendar -/
namespace Fundu
open Fundu.Spec

theorem checkedI64_eq (x : Int) :
    checkedI64 x = if -9223372036854775808 ≤ x ∧ x ≤ 9223372036854775807 then some x else none := rfl

theorem checkedI64_none {x : Int} (h : x < -9223372036854775808 ∨ 9223372036854775807 < x) :
    checkedI64 x = none := by rw [checkedI64_eq, if_neg (by omega)]

theorem monthIndex (m : Nat) (h1 : 1 ≤ m) (h2 : m ≤ 12) :
    ∃ p : Nat, index DAYS_IN_PREVIOUS_MONTH (m - 1) = .ok p ∧ (p : Int) = marchDays m ∧ p ≤ 337 := by
  have : m = 1 ∨ m = 2 ∨ m = 3 ∨ m = 4 ∨ m = 5 ∨ m = 6 ∨ m = 7 ∨ m = 8 ∨ m = 9 ∨ m = 10 ∨ m = 11 ∨ m = 12 := by
    omega
  rcases this with h | h | h | h | h | h | h | h | h | h | h | h <;> subst h <;>
    exact ⟨_, rfl, rfl, by decide⟩

theorem marchDays_bound (m : Nat) : 0 ≤ marchDays m ∧ marchDays m ≤ 337 := by
  unfold marchDays
  split <;> decide

theorem dayOffset_eq (Y : Int) (m d : Nat) (hY1 : -9223372036854775808 ≤ Y) (hY2 : Y ≤ 9223372036854775807)
    (h1 : 1 ≤ m) (h2 : m ≤ 12) (hd : d ≤ 31) :
    JulianDay.dayOffset Y m d =
      .ok ((d : Int) + marchDays m + Y / 4 - Y / 100 + Y / 400 + 1721119) := by
  obtain ⟨p, hp, hpm, hple⟩ := monthIndex m h1 h2
  unfold JulianDay.dayOffset subUsize
  rw [if_pos h1, ok_bind, hp, ok_bind, arithI64_ok (by omega) (by omega), ok_bind,
    floorDiv_pos hY1 hY2 (by omega) (by omega), ok_bind, arithI64_ok (by omega) (by omega), ok_bind,
    floorDiv_pos hY1 hY2 (by omega) (by omega), ok_bind, arithI64_ok (by omega) (by omega), ok_bind,
    floorDiv_pos hY1 hY2 (by omega) (by omega), ok_bind, arithI64_ok (by omega) (by omega), ok_bind]
  show arithI64 (_ + 1721119) = _
  rw [arithI64_ok (by omega) (by omega), hpm]

theorem dayOf_eq (Y : Int) (m d : Nat) (hY1 : -9223372036854775808 ≤ Y) (hY2 : Y ≤ 9223372036854775807)
    (h1 : 1 ≤ m) (h2 : m ≤ 12) (hd : d ≤ 31) :
    JulianDay.dayOf Y m d =
      .ok (checkedI64 (365 * Y + Y / 4 - Y / 100 + Y / 400 + d + marchDays m + 1721119)) := by
  have hb := marchDays_bound m
  have hc : Y * 365 = 365 * Y := Int.mul_comm _ _
  unfold JulianDay.dayOf
  rw [hc]
  by_cases h : -9223372036854775808 ≤ 365 * Y ∧ 365 * Y ≤ 9223372036854775807
  · rw [checkedI64_some h.1 h.2]
    show (do let a ← JulianDay.dayOffset Y m d; pure (checkedI64 (365 * Y + a))) = _
    rw [dayOffset_eq Y m d hY1 hY2 h1 h2 hd, ok_bind, ok_pure]
    congr 2
    omega
  · rw [checkedI64_none (by omega), checkedI64_none (by omega)]

/-- `try_from_gregorian` computes the day number, or `None` if it is not an `i64` -/
theorem tryFromGregorian_eq (y : Int) (m d : Nat) (hy : IsI64 y) (h1 : 1 ≤ m) (h2 : m ≤ 12)
    (hd1 : 1 ≤ d) (hd2 : d ≤ 31) :
    JulianDay.tryFromGregorian y m d = .ok (checkedI64 (dayNumber y m d)) := by
  have hy' : -9223372036854775808 ≤ y ∧ y ≤ 9223372036854775807 := hy
  have hb := marchDays_bound m
  rw [dayNumber_eq y m d h1 h2]
  unfold JulianDay.tryFromGregorian validateRange JulianDay.marchYear
  rw [if_neg (by omega), ok_bind, if_neg (by omega), ok_bind]
  by_cases hm : m < 3
  · rw [if_pos hm, if_pos hm]
    by_cases hmin : y = -9223372036854775808
    · subst hmin
      rw [checkedI64_none (by omega), checkedI64_none (by omega)]; rfl
    · rw [checkedI64_some (by omega) (by omega)]
      show JulianDay.dayOf (y - 1) m d = _
      rw [dayOf_eq (y - 1) m d (by omega) (by omega) h1 h2 hd2]
  · rw [if_neg hm, if_neg hm]
    show JulianDay.dayOf y m d = _
    rw [dayOf_eq y m d (by omega) (by omega) h1 h2 hd2]

/-! ## to_gregorian -/

/-- the facts about one entry of the table `ORDINAL_TO_MONTH` -/
def ordinalOk (o : Nat) : Bool :=
  match index ORDINAL_TO_MONTH (o - 1) with
  | .error _ => false
  | .ok m =>
    match index DAYS_IN_PREVIOUS_MONTH (m - 1) with
    | .error _ => false
    | .ok p => decide (1 ≤ m ∧ m ≤ 12 ∧ p + 1 ≤ o ∧
        (o - p ≤ monthDays 1 m ∨ (m = 2 ∧ o = 366)) ∧ (o = 366 → m = 2 ∧ o - p = 29))

theorem ordinalOk_all : ∀ o, o < 366 → ordinalOk (o + 1) = true := by decide +kernel

theorem monthDays_le (y : Int) (m : Nat) : monthDays 1 m ≤ monthDays y m ∧ monthDays y m ≤ 31 := by
  unfold monthDays
  have : isLeap 1 = false := by decide
  split <;> simp [this] <;> split <;> omega

/-- a day of the year starting on March 1: month and day -/
theorem ordinal_table (o : Nat) (h1 : 1 ≤ o) (h2 : o ≤ 366) :
    ∃ m p : Nat, index ORDINAL_TO_MONTH (o - 1) = .ok m ∧ 1 ≤ m ∧ m ≤ 12 ∧
      index DAYS_IN_PREVIOUS_MONTH (m - 1) = .ok p ∧ p + 1 ≤ o ∧
      (o - p ≤ monthDays 1 m ∨ (m = 2 ∧ o = 366)) ∧ (o = 366 → m = 2 ∧ o - p = 29) := by
  have h := ordinalOk_all (o - 1) (by omega)
  have e : o - 1 + 1 = o := by omega
  rw [e] at h
  unfold ordinalOk at h
  cases hm : index ORDINAL_TO_MONTH (o - 1) with
  | error _ => rw [hm] at h; cases h
  | ok m =>
    rw [hm] at h
    simp only at h
    cases hp : index DAYS_IN_PREVIOUS_MONTH (m - 1) with
    | error _ => rw [hp] at h; cases h
    | ok p =>
      rw [hp] at h
      simp only at h
      have h := of_decide_eq_true h
      exact ⟨m, p, rfl, h.1, h.2.1, hp, h.2.2.1, h.2.2.2.1, h.2.2.2.2⟩

theorem ofOrdinal_eq (Y : Int) (o : Nat) (h1 : 1 ≤ o) (h2 : o ≤ 366)
    (hY1 : -9223372036854775808 ≤ Y) (hY2 : Y < 9223372036854775807)
    (hleap : o = 366 → isLeap (Y + 1) = true) :
    ∃ y m d, JulianDay.ofOrdinal Y o = .ok (some (y, m, d)) ∧ ValidDate y m d ∧ Y ≤ y ∧ y ≤ Y + 1 ∧
      dayNumber y m d = 365 * Y + Y / 4 - Y / 100 + Y / 400 + o + 1721119 := by
  obtain ⟨m, p, hm, hm1, hm2, hp, hpo, hd, h366⟩ := ordinal_table o h1 h2
  obtain ⟨p', hp', hpm, hple⟩ := monthIndex m hm1 hm2
  have : p = p' := by rw [hp] at hp'; cases hp'; rfl
  subst this
  have hmd : o - p ≤ monthDays (Y + 1) m ∨ (¬ m < 3) := by
    by_cases hm3 : m < 3
    · left
      rcases hd with hd | ⟨rfl, ho⟩
      · have := (monthDays_le (Y + 1) m).1; omega
      · have := h366 ho
        have hl := hleap ho
        show _ ≤ if isLeap (Y + 1) then 29 else 28
        rw [if_pos hl]; omega
    · right; exact hm3
  have hmd' : ¬ m < 3 → o - p ≤ monthDays Y m := by
    intro hm3
    rcases hd with hd | ⟨rfl, ho⟩
    · have := (monthDays_le Y m).1; omega
    · omega
  have h31 : o - p ≤ 31 := by
    rcases hmd with h | h
    · have := (monthDays_le (Y + 1) m).2; omega
    · have := (monthDays_le Y m).2; have := hmd' h; omega
  unfold JulianDay.ofOrdinal subUsize tryFromUnsigned
  rw [if_pos h1, ok_bind, hm, ok_bind, if_pos hm1, ok_bind, hp, ok_bind, if_pos (by omega), ok_bind,
    if_pos (by omega), ok_bind, Int.toNat_natCast]
  by_cases hm3 : m < 3
  · rw [if_pos hm3, arithI64_ok (by omega) (by omega)]
    refine ⟨Y + 1, m, o - p, rfl, ⟨hm1, hm2, by omega, ?_⟩, by omega, by omega, ?_⟩
    · rcases hmd with h | h
      · exact h
      · exact absurd hm3 h
    · rw [dayNumber_eq _ _ _ hm1 hm2, if_pos hm3, ← hpm]
      have : Y + 1 - 1 = Y := by omega
      rw [this]
      omega
  · rw [if_neg hm3]
    refine ⟨Y, m, o - p, rfl, ⟨hm1, hm2, by omega, hmd' hm3⟩, by omega, by omega, ?_⟩
    rw [dayNumber_eq _ _ _ hm1 hm2, if_neg hm3, ← hpm]
    omega

/-- the arithmetic of `to_gregorian` on the days since March 1 of the year 0: the year starting on March
1 and the day of this year -/
theorem march_arith (z : Int) (fc dc Y : Int) (hfc : fc = (100 * z - 25) / 3652425) (hdc : dc = fc - fc / 4)
    (hY : Y = (100 * dc + (100 * z - 25)) / 36525) :
    1 ≤ dc + z - 365 * Y - Y / 4 ∧ dc + z - 365 * Y - Y / 4 ≤ 366 ∧ dc = Y / 100 - Y / 400 ∧
    (dc + z - 365 * Y - Y / 4 = 366 → isLeap (Y + 1) = true) := by
  rw [isLeap_iff]
  -- reduce to a single cycle of 400 years
  obtain ⟨q, r, hz, hr1, hr2⟩ : ∃ q r : Int, z = 146097 * q + r ∧ 1 ≤ r ∧ r ≤ 146097 :=
    ⟨(z - 1) / 146097, (z - 1) % 146097 + 1, by omega, by omega, by omega⟩
  obtain ⟨s, hs⟩ : ∃ s : Int, s = (100 * r - 25) / 3652425 := ⟨_, rfl⟩
  have hs0 : 0 ≤ s ∧ s ≤ 3 := by omega
  have hfc' : fc = 4 * q + s := by omega
  have hdc' : dc = 3 * q + s := by omega
  obtain ⟨t, ht⟩ : ∃ t : Int, t = (100 * s + 100 * r - 25) / 36525 := ⟨_, rfl⟩
  have hY' : Y = 400 * q + t := by omega
  have ht' : t / 100 = s ∧ 0 ≤ t ∧ t ≤ 399 := by omega
  have : Y / 4 = 100 * q + t / 4 := by omega
  have : Y / 100 = 4 * q + t / 100 := by omega
  have : Y / 400 = q := by omega
  refine ⟨by omega, by omega, by omega, fun h => ?_⟩
  have h' : s + r - 365 * t - t / 4 = 366 := by omega
  have hmod : t % 4 = 3 := by
    obtain ⟨k, j, hk, hj⟩ : ∃ k j : Int, t = 4 * k + j ∧ t / 4 = k := ⟨t / 4, t % 4, by omega, rfl⟩
    omega
  have hlast : t % 100 = 99 → s = 3 := by
    intro h99
    have e1 : t = 100 * s + 99 := by omega
    have e2 : t / 4 = 25 * s + 24 := by omega
    omega
  refine ⟨by omega, ?_⟩
  by_cases h99 : t % 100 = 99
  · right
    have := hlast h99
    omega
  · left; omega

theorem ofYear_eq (z dc Y : Int) (hz1 : -92234000000000000 ≤ z) (hz2 : z ≤ 92234000000000000)
    (hfc : dc = (100 * z - 25) / 3652425 - (100 * z - 25) / 3652425 / 4)
    (hY : Y = (100 * dc + (100 * z - 25)) / 36525) :
    ∃ y m d, JulianDay.ofYear z dc Y = .ok (some (y, m, d)) ∧ ValidDate y m d ∧ Y ≤ y ∧ y ≤ Y + 1 ∧
      dayNumber y m d = z + 1721119 := by
  obtain ⟨h1, h2, h3, h4⟩ := march_arith z _ dc Y rfl hfc hY
  have hdc : -26000000000000 ≤ dc ∧ dc ≤ 26000000000000 := by omega
  have hYb : -260000000000000 ≤ Y ∧ Y ≤ 260000000000000 := by omega
  clear hfc hY
  obtain ⟨o, ho⟩ := Int.eq_ofNat_of_zero_le (show 0 ≤ dc + z - 365 * Y - Y / 4 by omega)
  obtain ⟨y, m, d, e1, e2, e3, e4, e5⟩ := ofOrdinal_eq Y o (by omega) (by omega) (by omega) (by omega)
    (fun h => h4 (by omega))
  refine ⟨y, m, d, ?_, e2, e3, e4, ?_⟩
  · unfold JulianDay.ofYear
    rw [arithI64_ok (by omega) (by omega), ok_bind, arithI64_ok (by omega) (by omega), ok_bind,
      arithI64_ok (by omega) (by omega), ok_bind, floorDiv_pos (by omega) (by omega) (by omega) (by omega),
      ok_bind, arithI64_ok (by omega) (by omega), ok_bind, ho]
    unfold tryFromUnsigned
    rw [if_pos (by omega), ok_bind, Int.toNat_natCast]
    exact e1
  · rw [e5]; omega

theorem ofHundredfold_eq (z : Int) (h1 : -92233720368547757 ≤ z) (h2 : z ≤ 92233720368547758) :
    (-92231826452318423 ≤ z ∧ z ≤ 92231826452318424 →
      ∃ y m d, JulianDay.ofHundredfold z (z * 100) = .ok (some (y, m, d)) ∧ ValidDate y m d ∧
        dayNumber y m d = z + 1721119 ∧ -260000000000000 ≤ y ∧ y ≤ 260000000000000) ∧
    (¬ (-92231826452318423 ≤ z ∧ z ≤ 92231826452318424) →
      JulianDay.ofHundredfold z (z * 100) = .ok none) := by
  have e : z * 100 - 25 = 100 * z - 25 := by omega
  obtain ⟨fc, hfc⟩ : ∃ fc, fc = (100 * z - 25) / 3652425 := ⟨_, rfl⟩
  obtain ⟨dc, hdc⟩ : ∃ dc, dc = fc - fc / 4 := ⟨_, rfl⟩
  have hd : -20000000000000 ≤ dc ∧ dc ≤ 20000000000000 := by omega
  unfold JulianDay.ofHundredfold
  rw [e, arithI64_ok (by omega) (by omega), ok_bind, floorDiv_pos (by omega) (by omega) (by omega) (by omega),
    ok_bind, ← hfc, floorDiv_pos (by omega) (by omega) (by omega) (by omega), ok_bind, ← hdc,
    arithI64_ok (by omega) (by omega), ok_bind, arithI64_ok (by omega) (by omega), ok_bind]
  constructor
  · rintro ⟨h3, h4⟩
    rw [checkedI64_some (by omega) (by omega)]
    show ∃ y m d, (do let a ← floorDiv (100 * dc + (100 * z - 25)) 36525; JulianDay.ofYear z dc a) = _ ∧ _
    rw [floorDiv_pos (by omega) (by omega) (by omega) (by omega), ok_bind]
    obtain ⟨y, m, d, k1, k2, k3, k4, k5⟩ := ofYear_eq z dc _ (by omega) (by omega) (by rw [hdc, hfc]) rfl
    refine ⟨y, m, d, k1, k2, k5, ?_, ?_⟩ <;> omega
  · intro h3
    have h4 : 100 * dc + (100 * z - 25) < -9223372036854775808 ∨
        9223372036854775807 < 100 * dc + (100 * z - 25) := by
      by_cases hneg : z ≤ -92231826452318424
      · left
        have : fc ≤ -2525221639112 := by omega
        have : dc ≤ -1893916229334 := by omega
        omega
      · right
        have : 2525221639111 ≤ fc := by omega
        have : 1893916229334 ≤ dc := by omega
        omega
    rw [checkedI64_none h4]
    rfl

/-- the days `to_gregorian` can convert -/
theorem toGregorian_in (jd : Int) (h1 : -92231826450597304 ≤ jd) (h2 : jd ≤ 92231826454039543) :
    ∃ y m d, JulianDay.toGregorian jd = .ok (some (y, m, d)) ∧ ValidDate y m d ∧ dayNumber y m d = jd ∧
      -260000000000000 ≤ y ∧ y ≤ 260000000000000 := by
  have hb : JD_BASE = 1721119 := rfl
  obtain ⟨y, m, d, e1, e2, e3, e4, e5⟩ := (ofHundredfold_eq (jd - 1721119) (by omega) (by omega)).1
    (by omega)
  refine ⟨y, m, d, ?_, e2, by omega, e4, e5⟩
  unfold JulianDay.toGregorian
  rw [hb, checkedI64_some (by omega) (by omega)]
  show (match checkedI64 ((jd - 1721119) * 100) with
    | none => Except.ok none
    | some h => JulianDay.ofHundredfold (jd - 1721119) h) = _
  rw [checkedI64_some (by omega) (by omega)]
  exact e1

theorem toGregorian_out (jd : Int) (h : jd < -92231826450597304 ∨ 92231826454039543 < jd)
    (hp : jd ≠ -92233720366826639) : JulianDay.toGregorian jd = .ok none := by
  have hb : JD_BASE = 1721119 := rfl
  unfold JulianDay.toGregorian
  rw [hb]
  by_cases h1 : -9223372036854775808 ≤ jd - 1721119 ∧ jd - 1721119 ≤ 9223372036854775807
  · rw [checkedI64_some h1.1 h1.2]
    show (match checkedI64 ((jd - 1721119) * 100) with
      | none => Except.ok none
      | some h => JulianDay.ofHundredfold (jd - 1721119) h) = _
    by_cases h2 : -92233720368547757 ≤ jd - 1721119 ∧ jd - 1721119 ≤ 92233720368547758
    · rw [checkedI64_some (by omega) (by omega)]
      exact (ofHundredfold_eq (jd - 1721119) h2.1 h2.2).2 (by omega)
    · rw [checkedI64_none (by omega)]
  · rw [checkedI64_none (by omega)]

theorem toGregorian_panic : JulianDay.toGregorian (-92233720366826639) = .error .overflow := by
  have hb : JD_BASE = 1721119 := rfl
  unfold JulianDay.toGregorian
  rw [hb, checkedI64_some (by omega) (by omega)]
  show (match checkedI64 ((-92233720366826639 - 1721119) * 100) with
    | none => Except.ok none
    | some h => JulianDay.ofHundredfold (-92233720366826639 - 1721119) h) = _
  rw [checkedI64_some (by omega) (by omega)]
  show JulianDay.ofHundredfold _ _ = _
  unfold JulianDay.ofHundredfold arithI64
  rw [if_neg (by decide)]
  rfl

/-! ## Dates are in bijection with days -/

theorem daysOfMonths_mono (y : Int) {a b : Nat} (h : a ≤ b) : daysOfMonths y a ≤ daysOfMonths y b := by
  induction b with
  | zero => have : a = 0 := by omega
            subst this; exact Int.le_refl _
  | succ b ih =>
    by_cases hab : a = b + 1
    · subst hab; exact Int.le_refl _
    · have := ih (by omega)
      rw [daysOfMonths]
      omega

theorem daysOfMonths_year (y : Int) : daysOfMonths y 12 = yearDays y := by
  unfold yearDays
  by_cases h : isLeap y = true <;> simp [daysOfMonths, monthDays, h]

theorem valid_bounds {y : Int} {m d : Nat} (h : ValidDate y m d) :
    0 ≤ daysOfMonths y (m - 1) ∧ daysOfMonths y (m - 1) + d ≤ daysOfMonths y m ∧
      daysOfMonths y m ≤ yearDays y := by
  obtain ⟨h1, h2, h3, h4⟩ := h
  refine ⟨daysOfMonths_mono y (Nat.zero_le (m - 1)), ?_, ?_⟩
  · obtain ⟨k, rfl⟩ : ∃ k, m = k + 1 := ⟨m - 1, by omega⟩
    rw [Nat.add_sub_cancel, daysOfMonths]
    omega
  · rw [← daysOfMonths_year]; exact daysOfMonths_mono y h2

theorem daysToYear_mono (y : Int) (n : Nat) : daysToYear y ≤ daysToYear (y + n) := by
  induction n with
  | zero => rw [Int.natCast_zero, Int.add_zero]; exact Int.le_refl _
  | succ n ih =>
    have : y + ((n + 1 : Nat) : Int) = y + n + 1 := by omega
    rw [this, daysToYear_succ]
    have : 0 ≤ yearDays (y + n) := by unfold yearDays; split <;> decide
    omega

theorem dayNumber_injective {y y' : Int} {m m' d d' : Nat} (h : ValidDate y m d) (h' : ValidDate y' m' d')
    (he : dayNumber y m d = dayNumber y' m' d') : y = y' ∧ m = m' ∧ d = d' := by
  have b := valid_bounds h
  have b' := valid_bounds h'
  obtain ⟨h1, h2, h3, h4⟩ := h
  obtain ⟨h1', h2', h3', h4'⟩ := h'
  unfold dayNumber at he
  have s := daysToYear_succ y
  have s' := daysToYear_succ y'
  have hy : y = y' := by
    rcases Int.lt_trichotomy y y' with hlt | hlt | hlt
    · have := daysToYear_mono (y + 1) (y' - (y + 1)).toNat
      rw [show y + 1 + (((y' - (y + 1)).toNat : Nat) : Int) = y' by omega] at this
      omega
    · exact hlt
    · have := daysToYear_mono (y' + 1) (y - (y' + 1)).toNat
      rw [show y' + 1 + (((y - (y' + 1)).toNat : Nat) : Int) = y by omega] at this
      omega
  subst hy
  have hm : m = m' := by
    rcases Nat.lt_trichotomy m m' with hlt | hlt | hlt
    · have := daysOfMonths_mono y (show m ≤ m' - 1 by omega); omega
    · exact hlt
    · have := daysOfMonths_mono y (show m' ≤ m - 1 by omega); omega
  subst hm
  exact ⟨rfl, rfl, by omega⟩

theorem dayNumber_next (y : Int) (m d : Nat) (h : ValidDate y m d) :
    dayNumber (nextDay y m d).1 (nextDay y m d).2.1 (nextDay y m d).2.2 = dayNumber y m d + 1 := by
  obtain ⟨h1, h2, h3, h4⟩ := h
  unfold nextDay
  by_cases hd : d < monthDays y m
  · rw [if_pos hd]; unfold dayNumber; simp only; omega
  · rw [if_neg hd]
    obtain ⟨k, rfl⟩ : ∃ k, m = k + 1 := ⟨m - 1, by omega⟩
    by_cases hm : k + 1 < 12
    · rw [if_pos hm]; unfold dayNumber; simp only [Nat.add_sub_cancel]; rw [daysOfMonths]; omega
    · rw [if_neg hm]
      have hk : k = 11 := by omega
      subst hk
      unfold dayNumber
      simp only [Nat.add_sub_cancel, daysToYear_succ, ← daysOfMonths_year]
      have e : daysOfMonths y 12 = daysOfMonths y 11 + monthDays y 12 := rfl
      have e0 : daysOfMonths (y + 1) (1 - 1) = 0 := rfl
      rw [e, e0]
      have : d = monthDays y 12 := by
        have h5 : d ≤ monthDays y 12 := h4
        have h6 : ¬ d < monthDays y 12 := hd
        omega
      omega

theorem valid_next (y : Int) (m d : Nat) (h : ValidDate y m d) :
    ValidDate (nextDay y m d).1 (nextDay y m d).2.1 (nextDay y m d).2.2 := by
  have key : ∀ (y : Int) (m : Nat), 1 ≤ m → m ≤ 12 → 1 ≤ monthDays y m := by
    intro y m h1 h2
    have : monthDays 1 m ≤ monthDays y m := (monthDays_le y m).1
    have h3 : ∀ m : Fin 13, 1 ≤ m.1 → 1 ≤ monthDays 1 m.1 := by decide
    have := h3 ⟨m, by omega⟩ h1
    simp only at this
    omega
  obtain ⟨h1, h2, h3, h4⟩ := h
  unfold nextDay
  by_cases hd : d < monthDays y m
  · rw [if_pos hd]; exact ⟨h1, h2, Nat.le_add_left 1 d, hd⟩
  · rw [if_neg hd]
    by_cases hm : m < 12
    · rw [if_pos hm]; exact ⟨Nat.le_add_left 1 m, hm, Nat.le_refl 1, key y (m + 1) (by omega) (by omega)⟩
    · rw [if_neg hm]
      exact ⟨Nat.le_refl 1, (by decide : 1 ≤ 12), Nat.le_refl 1, key (y + 1) 1 (by omega) (by omega)⟩

end Fundu
