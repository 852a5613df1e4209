import Verif.Props.GnuMonths
import Verif.Props.CalendarOrder
/-!
# C110, C95: how far adding months can change the order of dates
-/
namespace Fundu.Props
open Fundu Fundu.Spec

theorem monthStart_lt {k k' : Int} (h : k < k') : monthStart (k + 1) ≤ monthStart k' := by
  have := (monthsLength_bounds (k + 1) (k' - (k + 1)) (by omega)).1
  rw [monthsLength_eq, show k + 1 + (k' - (k + 1)) = k' by omega] at this
  omega

/-- moved by the same number of months, the day numbers of two dates change their order by at most two days -/
theorem months_order {Y Y' : Int} {M D M' D' : Nat} (h1 : ValidDate Y M D) (h2 : ValidDate Y' M' D') (n : Int)
    (hle : dayNumber Y M D ≤ dayNumber Y' M' D') :
    dayNumber Y M D + monthsLength (12 * Y + M - 1) n ≤ dayNumber Y' M' D' + monthsLength (12 * Y' + M' - 1) n + 2 ∧
      (12 * Y + M = 12 * Y' + M' →
        dayNumber Y M D + monthsLength (12 * Y + M - 1) n ≤ dayNumber Y' M' D' + monthsLength (12 * Y' + M' - 1) n) := by
  have len : ∀ {y : Int} {m d : Nat}, ValidDate y m d → (d : Int) ≤ monthLength (12 * y + m - 1) := by
    intro y m d hv
    have h := hv.2.2.2
    unfold monthLength
    rw [show (12 * y + (m : Int) - 1) / 12 = y by have := hv.1; have := hv.2.1; omega,
      show ((12 * y + (m : Int) - 1) % 12).toNat + 1 = m by have := hv.1; have := hv.2.1; omega]
    exact_mod_cast h
  have l1 := len h1
  have l2 := len h2
  have b1 := monthLength_bounds (12 * Y + M - 1)
  have b3 := monthLength_bounds (12 * Y + M - 1 + n)
  have s1 := monthStart_succ (12 * Y + M - 1)
  have s2 := monthStart_succ (12 * Y' + M' - 1)
  have s3 := monthStart_succ (12 * Y + M - 1 + n)
  have p1 := h1.2.2.1
  have p2 := h2.2.2.1
  rw [dayNumber_start Y M D h1.1 h1.2.1, dayNumber_start Y' M' D' h2.1 h2.2.1] at hle ⊢
  rw [monthsLength_eq, monthsLength_eq]
  refine ⟨?_, fun e => ?_⟩
  · rcases lt_trichotomy (12 * Y + (M : Int)) (12 * Y' + M') with h | h | h
    · have := monthStart_lt (k := 12 * Y + M - 1 + n) (k' := 12 * Y' + M' - 1 + n) (by omega)
      omega
    · rw [h] at hle ⊢
      omega
    · have := monthStart_lt (k := 12 * Y' + M' - 1) (k' := 12 * Y + M - 1) (by omega)
      omega
  · rw [e] at hle ⊢
    omega

/-- C110: adding the same years, months and days changes the order of the days by at most two days, and not at all for dates of the
same month. -/
theorem C110_add_months (a b a' b' : DateTime) (n m k : Int) (ha : DateTimeOk a) (hb : DateTimeOk b) (hn : IsI64 n) (hm : IsI64 m) (hk : IsI64 k)
    (h : a.checkedAddGregorian n m k = .ok (some a')) (h' : b.checkedAddGregorian n m k = .ok (some b')) (hle : a.days ≤ b.days) :
    a'.days ≤ b'.days + 2 ∧
      ∀ (Y : Int) (M D D' : Nat), a.toGregorianDate = .ok (some (Y, M, D)) → b.toGregorianDate = .ok (some (Y, M, D')) → a'.days ≤ b'.days := by
  obtain ⟨Y, M, D, hg⟩ := gregorian_of_some h
  obtain ⟨Y', M', D', hg'⟩ := gregorian_of_some h'
  obtain ⟨v1, v2, -⟩ := C45_to_gregorian _ _ _ _ hg
  obtain ⟨v1', v2', -⟩ := C45_to_gregorian _ _ _ _ hg'
  have e := (C95_add_gregorian a ha Y M D hg n m k hn hm hk a' h).1
  have e' := (C95_add_gregorian b hb Y' M' D' hg' n m k hn hm hk b' h').1
  have key := months_order v1 v1' (12 * n + m) (by rw [v2, v2']; exact hle)
  rw [v2, v2'] at key
  refine ⟨by omega, fun y q d d' k1 k2 => ?_⟩
  change JulianDay.toGregorian a.days = _ at k1
  change JulianDay.toGregorian b.days = _ at k2
  rw [hg] at k1
  rw [hg'] at k2
  cases k1
  cases k2
  have := key.2 rfl
  omega

/-- C95: for a later date the same text leads to a later instant, or to one which is less than three days earlier. -/
theorem C95_later_date (s : Bytes) (hs : IsText s) (now now' : DateTime) (date date' : Option DateTime) (hd : DateTimeOk (date.getD now))
    (hd' : DateTimeOk (date'.getD now')) (r r' : Duration)
    (hr : Gnu.parseWithDate now s date = .ok r) (hr' : Gnu.parseWithDate now' s date' = .ok r')
    (hle : instant (date.getD now) ≤ instant (date'.getD now')) :
    instant (date.getD now) + nanos r < instant (date'.getD now') + nanos r' + 3 * dayNanos := by
  obtain ⟨⟨y, m, d⟩, h⟩ : ∃ x, Gnu.parseFuzzy s = .ok x := by
    unfold Gnu.parseWithDate Gnu.RelativeTimeParser.parseWithDate at hr
    rw [show Gnu.PARSER.parseFuzzy s = Gnu.parseFuzzy s from rfl] at hr
    cases h : Gnu.parseFuzzy s with
    | ok x => exact ⟨x, rfl⟩
    | error e => rw [h] at hr; cases hr
  by_cases hym : y = 0 ∧ m = 0
  · obtain ⟨rfl, rfl⟩ := hym
    rw [(C42_date_irrelevant s d h now date).1] at hr
    rw [(C42_date_irrelevant s d h now' date').1] at hr'
    cases hr
    cases hr'
    unfold dayNanos
    omega
  · obtain ⟨Y, M, D, h1, h2, -⟩ := month_exists hs hd h hr hym
    obtain ⟨Y', M', D', h1', h2', -⟩ := month_exists hs hd' h hr' hym
    have e := C95_exact s hs now date hd y m d r h hr Y M D h1 h2
    have e' := C95_exact s hs now' date' hd' y m d r' h hr' Y' M' D' h1' h2'
    have key := (months_order h1 h1' (12 * y + m) (by rw [h2, h2']; exact Int.ediv_le_ediv (by decide) (by omega))).1
    rw [h2, h2'] at key
    rw [e, e']
    generalize monthsLength (12 * Y + M - 1) (12 * y + m) = a at *
    generalize monthsLength (12 * Y' + M' - 1) (12 * y + m) = b at *
    unfold dayNanos at *
    omega

/-! ## Examples -/

/-- the bound of two days is reached: 2001-01-31 and 2001-02-01, one month later -/
example : ∃ a b, (⟨2451941, 0⟩ : DateTime).checkedAddGregorian 0 1 0 = .ok (some a) ∧
    (⟨2451942, 0⟩ : DateTime).checkedAddGregorian 0 1 0 = .ok (some b) ∧ a.days = b.days + 2 ∧ a.days ≤ b.days + 2 :=
  ⟨⟨2451972, 0⟩, ⟨2451970, 0⟩, by decide +kernel, by decide +kernel, by decide,
    (C110_add_months ⟨2451941, 0⟩ ⟨2451942, 0⟩ _ _ 0 1 0 (by decide) (by decide) (by decide) (by decide) (by decide) (by decide +kernel)
      (by decide +kernel) (by decide)).1⟩

/-- `1month` for 2001-01-31 23:00 and for 2001-02-01 00:00: the instants are two days and 23 hours in the wrong order -/
example : ∃ r r' : Duration, Gnu.parseWithDate ⟨0, 0⟩ (b! "1month") (some ⟨2451941, 82800000000000⟩) = .ok r ∧
    Gnu.parseWithDate ⟨0, 0⟩ (b! "1month") (some ⟨2451942, 0⟩) = .ok r' ∧
    instant ⟨2451941, 82800000000000⟩ + nanos r = instant ⟨2451942, 0⟩ + nanos r' + 2 * dayNanos + 82800000000000 :=
  ⟨⟨false, ⟨2678400, 0⟩⟩, ⟨false, ⟨2419200, 0⟩⟩, by decide +kernel, by decide +kernel, by decide⟩

end Fundu.Props
