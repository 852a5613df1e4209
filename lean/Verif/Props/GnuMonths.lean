import Verif.Proofs.Months
import Verif.Props.Gnu
/-!
# C95: how long months and years are

The specification is `Spec/Months`.
-/
namespace Fundu.Props
open Fundu Fundu.Spec

theorem parseWithDate_wf {s : Bytes} (hs : IsText s) {now : DateTime} {date : Option DateTime} (hd : DateTimeOk (date.getD now)) {y m : Int}
    {d d' : Duration} (h : Gnu.parseFuzzy s = .ok (y, m, d)) (hym : ¬ (y = 0 ∧ m = 0)) (h' : Gnu.parseWithDate now s date = .ok d') : d'.WF := by
  obtain ⟨h1, h2⟩ := C43_otherwise_overflow s hs now date hd y m d h hym
  by_cases he : (instant (date.getD now) + nanos d) / dayNanos = -92233720366826639
  · obtain ⟨p, hp⟩ := h2 he
    rw [hp] at h'; cases h'
  · rcases h1 he with ⟨d'', g1, g2⟩ | g1
    · rw [h'] at g1; cases g1; exact g2
    · rw [h'] at g1; cases g1

theorem relativeDate_length {date : DateTime} {t : GnuTotal} {x : Int} (h : RelativeDate date t x) :
    ∃ (Y : Int) (M D : Nat), ValidDate Y M D ∧ dayNumber Y M D = (instant date + t.nanoseconds) / dayNanos ∧
      x = t.nanoseconds + monthsLength (12 * Y + M - 1) (12 * t.years + t.months) * dayNanos := by
  obtain ⟨Y, M, D, Y', M', h1, h2, h3, h4, h5, h6⟩ := h
  refine ⟨Y, M, D, h1, h2, ?_⟩
  rw [monthsLength_eq]
  rw [dayNumber_start Y M D h1.1 h1.2.1] at h2
  rw [dayNumber_start Y' M' D h3 h4] at h6
  rw [show 12 * Y + (M : Int) - 1 + (12 * t.years + t.months) = 12 * Y' + M' - 1 by omega]
  have hdiv := Int.emod_add_ediv_mul (instant date + t.nanoseconds) dayNanos
  rw [← h2] at hdiv
  have e : (monthStart (12 * Y' + M' - 1) - monthStart (12 * Y + M - 1)) * dayNanos =
    (monthStart (12 * Y' + M' - 1) + ((D : Int) - 1)) * dayNanos - (monthStart (12 * Y + M - 1) + ((D : Int) - 1)) * dayNanos := by
      rw [← Int.sub_mul]; congr 1; omega
  rw [e]
  omega

/-- some months from the date on -/
theorem month_exists {s : Bytes} (hs : IsText s) {now : DateTime} {date : Option DateTime} (hd : DateTimeOk (date.getD now)) {y m : Int}
    {d d' : Duration} (h : Gnu.parseFuzzy s = .ok (y, m, d)) (h' : Gnu.parseWithDate now s date = .ok d') (hym : ¬ (y = 0 ∧ m = 0)) :
    ∃ (Y : Int) (M D : Nat), ValidDate Y M D ∧ dayNumber Y M D = (instant (date.getD now) + nanos d) / dayNanos ∧
      nanos d' = nanos d + monthsLength (12 * Y + M - 1) (12 * y + m) * dayNanos := by
  obtain ⟨-, h2, -⟩ := (C43_relative_date s hs now date hd y m d h hym (nanos d')).1 ⟨d', h', parseWithDate_wf hs hd h hym h', rfl⟩
  exact relativeDate_length h2

/-- C95: `n` months (12 for each year) are as long as the calendar says: the lengths of `n` successive months, beginning with the month of the date
which is reached by the exact part (for negative `n`: the months before it). The day of the month has no influence. -/
theorem C95_exact (s : Bytes) (hs : IsText s) (now : DateTime) (date : Option DateTime) (hd : DateTimeOk (date.getD now)) (y m : Int)
    (d d' : Duration) (h : Gnu.parseFuzzy s = .ok (y, m, d)) (h' : Gnu.parseWithDate now s date = .ok d') (Y : Int) (M D : Nat)
    (hv : ValidDate Y M D) (hn : dayNumber Y M D = (instant (date.getD now) + nanos d) / dayNanos) :
    nanos d' = nanos d + monthsLength (12 * Y + M - 1) (12 * y + m) * dayNanos := by
  by_cases hym : y = 0 ∧ m = 0
  · obtain ⟨rfl, rfl⟩ := hym
    rw [(C42_date_irrelevant s d h now date).1] at h'
    cases h'
    have : monthsLength (12 * Y + M - 1) (12 * 0 + 0) = 0 := by rw [monthsLength_eq]; simp
    rw [this]; omega
  · obtain ⟨Y', M', D', h1, h2, h3⟩ := month_exists hs hd h h' hym
    obtain ⟨rfl, rfl, rfl⟩ := dayNumber_injective h1 hv (h2.trans hn.symm)
    exact h3

/-- C95: a month has 28 to 31 days, whatever the date is. -/
theorem C95_months (s : Bytes) (hs : IsText s) (now : DateTime) (date : Option DateTime) (hd : DateTimeOk (date.getD now)) (y m : Int)
    (d d' : Duration) (h : Gnu.parseFuzzy s = .ok (y, m, d)) (h' : Gnu.parseWithDate now s date = .ok d') :
    (0 ≤ 12 * y + m → nanos d + 28 * (12 * y + m) * dayNanos ≤ nanos d' ∧ nanos d' ≤ nanos d + 31 * (12 * y + m) * dayNanos) ∧
    (12 * y + m ≤ 0 → nanos d + 31 * (12 * y + m) * dayNanos ≤ nanos d' ∧ nanos d' ≤ nanos d + 28 * (12 * y + m) * dayNanos) := by
  have hpos : (0 : Int) ≤ dayNanos := by decide
  by_cases hym : y = 0 ∧ m = 0
  · obtain ⟨rfl, rfl⟩ := hym
    rw [(C42_date_irrelevant s d h now date).1] at h'
    cases h'
    simp
  · obtain ⟨Y, M, D, -, -, h3⟩ := month_exists hs hd h h' hym
    rw [h3]
    constructor
    · intro hn
      obtain ⟨b1, b2⟩ := monthsLength_bounds (12 * Y + M - 1) (12 * y + m) hn
      have c1 := Int.mul_le_mul_of_nonneg_right b1 hpos
      have c2 := Int.mul_le_mul_of_nonneg_right b2 hpos
      omega
    · intro hn
      obtain ⟨b1, b2⟩ := monthsLength_bounds (12 * Y + M - 1 - -(12 * y + m)) (-(12 * y + m)) (by omega)
      have e := monthsLength_neg (12 * Y + M - 1) (-(12 * y + m))
      rw [Int.neg_neg] at e
      have b1' : 31 * (12 * y + m) ≤ monthsLength (12 * Y + M - 1) (12 * y + m) := by omega
      have b2' : monthsLength (12 * Y + M - 1) (12 * y + m) ≤ 28 * (12 * y + m) := by omega
      have c1 := Int.mul_le_mul_of_nonneg_right b1' hpos
      have c2 := Int.mul_le_mul_of_nonneg_right b2' hpos
      omega

/-- C95: a year has 365 or 366 days, whatever the date is, and 400 years have 146097 days. -/
theorem C95_years (s : Bytes) (hs : IsText s) (now : DateTime) (date : Option DateTime) (hd : DateTimeOk (date.getD now)) (y m n : Int)
    (d d' : Duration) (h : Gnu.parseFuzzy s = .ok (y, m, d)) (h' : Gnu.parseWithDate now s date = .ok d') (hn : 12 * y + m = 12 * n) :
    (0 ≤ n → nanos d + 365 * n * dayNanos ≤ nanos d' ∧ nanos d' ≤ nanos d + 366 * n * dayNanos) ∧
    (n ≤ 0 → nanos d + 366 * n * dayNanos ≤ nanos d' ∧ nanos d' ≤ nanos d + 365 * n * dayNanos) ∧
    (n = 400 → nanos d' = nanos d + 146097 * dayNanos) ∧ (n = -400 → nanos d' = nanos d - 146097 * dayNanos) := by
  have hpos : (0 : Int) ≤ dayNanos := by decide
  by_cases hym : y = 0 ∧ m = 0
  · obtain ⟨rfl, rfl⟩ := hym
    rw [(C42_date_irrelevant s d h now date).1] at h'
    cases h'
    obtain rfl : n = 0 := by omega
    simp
  · obtain ⟨Y, M, D, -, -, h3⟩ := month_exists hs hd h h' hym
    rw [hn] at h3
    rw [h3]
    have e := monthsLength_neg (12 * Y + M - 1) (12 * -n)
    rw [show -(12 * -n) = 12 * n by omega] at e
    refine ⟨?_, ?_, ?_, ?_⟩
    · intro hn
      obtain ⟨b1, b2⟩ := monthsLength_years (12 * Y + M - 1) n hn
      have c1 := Int.mul_le_mul_of_nonneg_right b1 hpos
      have c2 := Int.mul_le_mul_of_nonneg_right b2 hpos
      omega
    · intro hn
      obtain ⟨b1, b2⟩ := monthsLength_years (12 * Y + M - 1 - 12 * -n) (-n) (by omega)
      have b1' : 366 * n ≤ monthsLength (12 * Y + M - 1) (12 * n) := by omega
      have b2' : monthsLength (12 * Y + M - 1) (12 * n) ≤ 365 * n := by omega
      have c1 := Int.mul_le_mul_of_nonneg_right b1' hpos
      have c2 := Int.mul_le_mul_of_nonneg_right b2' hpos
      omega
    · rintro rfl
      have := monthsLength_era (12 * Y + M - 1)
      rw [show (12 * 400 : Int) = 4800 from rfl, this]
    · rintro rfl
      have := monthsLength_era (12 * Y + M - 1 - 12 * -(-400))
      rw [show (12 * -(-400) : Int) = 4800 from rfl] at e this
      rw [this] at e
      rw [e]
      omega

/-- C95: for the same date and the same exact part more months are longer, by at least 28 days for each month. -/
theorem C95_monotone (s s' : Bytes) (hs : IsText s) (hs' : IsText s') (now : DateTime) (date : Option DateTime) (hd : DateTimeOk (date.getD now))
    (y m y' m' : Int) (d d' r r' : Duration) (h : Gnu.parseFuzzy s = .ok (y, m, d)) (h' : Gnu.parseFuzzy s' = .ok (y', m', d'))
    (hd' : nanos d = nanos d') (hr : Gnu.parseWithDate now s date = .ok r) (hr' : Gnu.parseWithDate now s' date = .ok r')
    (hn : 12 * y + m ≤ 12 * y' + m') : nanos r + 28 * ((12 * y' + m') - (12 * y + m)) * dayNanos ≤ nanos r' := by
  have hpos : (0 : Int) ≤ dayNanos := by decide
  have key : ∀ (Y : Int) (M D : Nat), ValidDate Y M D → dayNumber Y M D = (instant (date.getD now) + nanos d) / dayNanos →
      nanos r + 28 * ((12 * y' + m') - (12 * y + m)) * dayNanos ≤ nanos r' := by
    intro Y M D hv hday
    have e1 := C95_exact s hs now date hd y m d r h hr Y M D hv hday
    have e2 := C95_exact s' hs' now date hd y' m' d' r' h' hr' Y M D hv (by rw [← hd']; exact hday)
    have e3 := monthsLength_add (12 * Y + M - 1) (12 * y + m) ((12 * y' + m') - (12 * y + m))
    rw [show 12 * y + m + ((12 * y' + m') - (12 * y + m)) = 12 * y' + m' by omega] at e3
    obtain ⟨b1, -⟩ := monthsLength_bounds (12 * Y + M - 1 + (12 * y + m)) ((12 * y' + m') - (12 * y + m)) (by omega)
    have c1 := Int.mul_le_mul_of_nonneg_right b1 hpos
    rw [e1, e2, e3, Int.add_mul]
    omega
  by_cases hym : y = 0 ∧ m = 0
  · by_cases hym' : y' = 0 ∧ m' = 0
    · obtain ⟨rfl, rfl⟩ := hym
      obtain ⟨rfl, rfl⟩ := hym'
      rw [(C42_date_irrelevant s d h now date).1] at hr
      rw [(C42_date_irrelevant s' d' h' now date).1] at hr'
      cases hr
      cases hr'
      rw [hd']
      simp
    · obtain ⟨Y, M, D, h1, h2, -⟩ := month_exists hs' hd h' hr' hym'
      exact key Y M D h1 (by rw [hd']; exact h2)
  · obtain ⟨Y, M, D, h1, h2, -⟩ := month_exists hs hd h hr hym
    exact key Y M D h1 h2

theorem monthStart_era (k j : Int) : monthStart (k + 4800 * j) = monthStart k + 146097 * j := by
  have step : ∀ k, monthStart (k + 4800) = monthStart k + 146097 := by
    intro k
    have e := monthsLength_era k
    rw [monthsLength_eq] at e
    omega
  induction j using Int.induction_on with
  | zero => simp
  | succ i ih =>
    have e := step (k + 4800 * i)
    rw [show k + 4800 * ((i : Int) + 1) = k + 4800 * i + 4800 by omega, e]
    omega
  | pred i ih =>
    have e := step (k + 4800 * (-(i : Int) - 1))
    rw [show k + 4800 * (-(i : Int) - 1) + 4800 = k + 4800 * -(i : Int) by omega, ih] at e
    omega

/-- C95: the day of the month has no influence, and the calendar repeats after 400 years: two dates from which the exact part leads to the same month, or
to the same month of years which differ by a multiple of 400, have the same result. -/
theorem C95_same_month (s : Bytes) (hs : IsText s) (now now' : DateTime) (date date' : Option DateTime) (hd : DateTimeOk (date.getD now))
    (hd' : DateTimeOk (date'.getD now')) (y m : Int) (d r r' : Duration) (h : Gnu.parseFuzzy s = .ok (y, m, d))
    (hr : Gnu.parseWithDate now s date = .ok r) (hr' : Gnu.parseWithDate now' s date' = .ok r')
    (Y j : Int) (M D D' : Nat) (hv : ValidDate Y M D) (hn : dayNumber Y M D = (instant (date.getD now) + nanos d) / dayNanos)
    (hv' : ValidDate (Y + 400 * j) M D') (hn' : dayNumber (Y + 400 * j) M D' = (instant (date'.getD now') + nanos d) / dayNanos) :
    nanos r' = nanos r := by
  rw [C95_exact s hs now date hd y m d r h hr Y M D hv hn, C95_exact s hs now' date' hd' y m d r' h hr' _ M D' hv' hn']
  have e : monthsLength (12 * (Y + 400 * j) + M - 1) (12 * y + m) = monthsLength (12 * Y + M - 1) (12 * y + m) := by
    rw [monthsLength_eq, monthsLength_eq, show 12 * (Y + 400 * j) + (M : Int) - 1 + (12 * y + m) = 12 * Y + M - 1 + (12 * y + m) + 4800 * j by omega,
      show 12 * (Y + 400 * j) + (M : Int) - 1 = 12 * Y + M - 1 + 4800 * j by omega, monthStart_era, monthStart_era]
    omega
  rw [e]

/-- C95: the same text has the same result for dates which are a multiple of 400 years (146097 days) apart. -/
theorem C95_repeats (s : Bytes) (hs : IsText s) (now now' : DateTime) (date date' : Option DateTime) (hd : DateTimeOk (date.getD now))
    (hd' : DateTimeOk (date'.getD now')) (j : Int) (hday : (date'.getD now').days = (date.getD now).days + 146097 * j)
    (htime : (date'.getD now').time = (date.getD now).time) (r r' : Duration)
    (hr : Gnu.parseWithDate now s date = .ok r) (hr' : Gnu.parseWithDate now' s date' = .ok r') : nanos r' = nanos r := by
  obtain ⟨⟨y, m, d⟩, h⟩ : ∃ x, Gnu.parseFuzzy s = .ok x := by
    unfold Gnu.parseWithDate Gnu.RelativeTimeParser.parseWithDate at hr
    rw [show Gnu.PARSER.parseFuzzy s = Gnu.parseFuzzy s from rfl] at hr
    cases h : Gnu.parseFuzzy s with
    | ok x => exact ⟨x, rfl⟩
    | error e => rw [h] at hr; cases hr
  by_cases hym : y = 0 ∧ m = 0
  · obtain ⟨rfl, rfl⟩ := hym
    rw [(C42_date_irrelevant s d h now date).1] at hr
    rw [(C42_date_irrelevant s d h now' date').1] at hr'
    cases hr
    cases hr'
    rfl
  · obtain ⟨Y, M, D, h1, h2, -⟩ := month_exists hs hd h hr hym
    refine C95_same_month s hs now now' date date' hd hd' y m d r r' h hr hr' Y j M D D h1 h2 ⟨h1.1, h1.2.1, h1.2.2.1, ?_⟩ ?_
    · have e : isLeap (Y + 400 * j) = isLeap Y := by
        unfold isLeap
        rw [show (Y + 400 * j) % 4 = Y % 4 by omega, show (Y + 400 * j) % 100 = Y % 100 by omega, show (Y + 400 * j) % 400 = Y % 400 by omega]
      have e2 : monthDays (Y + 400 * j) M = monthDays Y M := by unfold monthDays; rw [e]
      rw [e2]
      exact h1.2.2.2
    · have e : instant (date'.getD now') + nanos d = instant (date.getD now) + nanos d + 146097 * j * dayNanos := by
        unfold instant
        rw [hday, htime, Int.add_mul]
        omega
      rw [e, Int.add_mul_ediv_right _ _ (by decide), ← h2, dayNumber_start _ _ _ h1.1 h1.2.1, dayNumber_start _ _ _ h1.1 h1.2.1,
        show 12 * (Y + 400 * j) + (M : Int) - 1 = 12 * Y + M - 1 + 4800 * j by omega, monthStart_era]
      omega

/-- C95: `DateTime::checked_add_gregorian` moves the day by the lengths of the months. -/
theorem C95_add_gregorian (dt : DateTime) (hdt : DateTimeOk dt) (Y : Int) (M D : Nat) (hg : dt.toGregorianDate = .ok (some (Y, M, D)))
    (y m d : Int) (hy : IsI64 y) (hm : IsI64 m) (hd : IsI64 d) (dt' : DateTime) (h : dt.checkedAddGregorian y m d = .ok (some dt')) :
    dt'.days = dt.days + monthsLength (12 * Y + M - 1) (12 * y + m) + d ∧ dt'.time = dt.time := by
  obtain ⟨hv, hn, -⟩ := C45_to_gregorian _ _ _ _ hg
  obtain ⟨h1, h2⟩ := C49_checked_add_gregorian dt hdt Y M D hg y m d hy hm hd ((12 * Y + M - 1 + (12 * y + m)) / 12)
    (((12 * Y + M - 1 + (12 * y + m)) % 12).toNat + 1) (by omega) (by omega) (by omega)
  rw [dayNumber_start _ _ _ (by omega) (by omega)] at h1 h2
  rw [dayNumber_start _ _ _ hv.1 hv.2.1] at hn
  rw [show 12 * ((12 * Y + (M : Int) - 1 + (12 * y + m)) / 12) + (((12 * Y + (M : Int) - 1 + (12 * y + m)) % 12).toNat + 1 : Nat) - 1 =
    12 * Y + M - 1 + (12 * y + m) by omega] at h1 h2
  by_cases hf : IsI64 (monthStart (12 * Y + M - 1 + (12 * y + m)) + ((D : Int) - 1)) ∧
      IsI64 (monthStart (12 * Y + M - 1 + (12 * y + m)) + ((D : Int) - 1) + d)
  · rw [h1 hf] at h
    cases h
    refine ⟨?_, rfl⟩
    rw [monthsLength_eq]
    show monthStart (12 * Y + M - 1 + (12 * y + m)) + ((D : Int) - 1) + d = _
    omega
  · rw [h2 hf] at h
    cases h

/-! ## Cases which meet the hypotheses -/

/-- from January 31 2000 on: one month (31 days, the length of January), two months (60 days), -1 month (31 days, the length of December) -/
example : Gnu.parseWithDate ⟨0, 0⟩ (b! "1 month") (some ⟨2451575, 5⟩) = .ok ⟨false, ⟨31 * 86400, 0⟩⟩ ∧
    Gnu.parseWithDate ⟨0, 0⟩ (b! "2 months") (some ⟨2451575, 5⟩) = .ok ⟨false, ⟨60 * 86400, 0⟩⟩ ∧
    Gnu.parseWithDate ⟨0, 0⟩ (b! "last month") (some ⟨2451575, 5⟩) = .ok ⟨true, ⟨31 * 86400, 0⟩⟩ ∧
    monthsLength (12 * 2000 + 1 - 1) 1 = 31 ∧ monthsLength (12 * 2000 + 1 - 1) 2 = 60 ∧ monthsLength (12 * 2000 + 1 - 1) (-1) = -31 := by
  decide +kernel

/-- A longer exact part can lead to an earlier date: January 31 2001 plus one month is March 3, one day and one month later is March 1. -/
example : Gnu.parseWithDate ⟨0, 0⟩ (b! "1 month") (some ⟨2451941, 0⟩) = .ok ⟨false, ⟨31 * 86400, 0⟩⟩ ∧
    Gnu.parseWithDate ⟨0, 0⟩ (b! "1 day 1 month") (some ⟨2451941, 0⟩) = .ok ⟨false, ⟨29 * 86400, 0⟩⟩ := by
  decide +kernel

/-- January 31 2000 and January 1 2400 -/
example : Gnu.parseWithDate ⟨0, 0⟩ (b! "13 months 5min") (some ⟨2451575, 5⟩) = Gnu.parseWithDate ⟨0, 0⟩ (b! "13 months 5min") (some ⟨2451545 + 146097, 7⟩) ∧
    (∃ r, Gnu.parseWithDate ⟨0, 0⟩ (b! "13 months 5min") (some ⟨2451575, 5⟩) = .ok r) ∧
    dayNumber 2000 1 31 = 2451575 ∧ dayNumber 2400 1 1 = 2451545 + 146097 := by
  refine ⟨by decide +kernel, ⟨⟨false, ⟨397 * 86400 + 300, 0⟩⟩, by decide +kernel⟩, by decide +kernel, by decide +kernel⟩

end Fundu.Props
