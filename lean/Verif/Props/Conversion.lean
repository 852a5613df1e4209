import Verif.Proofs.Prim
import Verif.Props.Time
/-!
# Properties C07-C09: conversions to and from `std`, `time` and `chrono` durations
-/
namespace Fundu.Props
open Fundu Fundu.Spec

/-! ## C07 -/

/-- C07: the conversion to `std::time::Duration` is exact for non-negative lengths and an error
(`NegativeDuration`) exactly for negative ones. -/
theorem C07_to_std (d : Duration) (h : d.WF) :
    (0 ≤ nanos d → ∃ s, d.toStd = .ok s ∧ s.WF ∧ stdNanos s = nanos d) ∧
    (nanos d < 0 → d.toStd = .error .negativeDuration) := by
  obtain ⟨n, s, ns⟩ := d
  cases n
  · refine ⟨fun _ => ⟨⟨s, ns⟩, by simp [Duration.toStd], h, by simp [nanos, stdNanos]⟩, fun h => ?_⟩
    simp only [nanos, Bool.false_eq_true, if_false] at h; omega
  · refine ⟨fun h0 => ⟨⟨s, ns⟩, ?_, h, ?_⟩, fun h0 => ?_⟩
    · simp only [nanos, if_true] at h0
      have h1 : s = 0 := by omega
      have h2 : ns = 0 := by omega
      simp [Duration.toStd, Duration.isZero, StdDuration.isZero, h1, h2]
    · simp only [nanos, if_true, stdNanos] at h0 ⊢; omega
    · have : ¬ (s = 0 ∧ ns = 0) := by simp only [nanos, if_true] at h0; omega
      simp [Duration.toStd, Duration.isZero, StdDuration.isZero, this]

/-- C07: from `std::time::Duration` and back is the identity, and `From` is exact. -/
theorem C07_std_round_trip (s : StdDuration) :
    (Duration.ofStd s).toStd = .ok s ∧ nanos (Duration.ofStd s) = stdNanos s := by
  simp [Duration.ofStd, Duration.toStd, nanos, stdNanos]

/-- C07: saturating conversion to `std::time::Duration`: exact or zero, never `unreachable!()`. -/
theorem C07_saturating_to_std (d : Duration) (h : d.WF) :
    ∃ s, d.saturatingToStd = .ok s ∧ s.WF ∧ stdNanos s = max 0 (nanos d) := by
  obtain ⟨h1, h2⟩ := C07_to_std d h
  by_cases h0 : 0 ≤ nanos d
  · obtain ⟨s, e, hw, hs⟩ := h1 h0
    exact ⟨s, by simp [Duration.saturatingToStd, e], hw, by omega⟩
  · refine ⟨StdDuration.ZERO, by simp [Duration.saturatingToStd, h2 (by omega)], by decide, ?_⟩
    have : stdNanos StdDuration.ZERO = 0 := by decide
    omega

example : (⟨true, 0, 0⟩ : Duration).toStd = .ok ⟨0, 0⟩ ∧
    (⟨true, 0, 1⟩ : Duration).toStd = .error .negativeDuration ∧
    Duration.MIN.saturatingToStd = .ok ⟨0, 0⟩ := by decide

/-! ## C08 -/

/-- the lengths a `time::Duration` can have are those whose whole seconds fit `i64` -/
def FitsTime (x : Int) : Prop := timeNanos TimeDuration.MIN ≤ x ∧ x ≤ timeNanos TimeDuration.MAX

/-- C08: these are the bounds: whole seconds of an `i64` and up to 999999999 nanoseconds with the same sign. -/
theorem C08_range (x : Int) : FitsTime x ↔ -(2 ^ 63 * 10 ^ 9 + 999999999) ≤ x ∧ x ≤ (2 ^ 63 - 1) * 10 ^ 9 + 999999999 := Iff.rfl

theorem timeDuration_new {s n : Int} (h : TimeDuration.WF ⟨s, n⟩) :
    TimeDuration.new s n = .ok ⟨s, n⟩ := by
  obtain ⟨h1, h2, h3, h4, h5⟩ := h
  have t0 : n.tdiv 1000000000 = 0 := by
    rcases Int.le_total 0 n with h | h
    · rw [Int.tdiv_eq_ediv_of_nonneg h]; simp only at *; omega
    · obtain ⟨m, rfl⟩ : ∃ m, n = -m := ⟨-n, by omega⟩
      rw [Int.neg_tdiv, Int.tdiv_eq_ediv_of_nonneg (by omega)]; simp only at *; omega
  have m0 : n.tmod 1000000000 = n := by
    have := Int.mul_tdiv_add_tmod n 1000000000
    rw [t0] at this; omega
  have a0 : arithI64 (s + 0) = .ok s := by rw [Int.add_zero]; exact if_pos h1
  simp only at h2 h3 h4 h5
  simp only [TimeDuration.new, t0, m0, a0, ok_bind]
  rw [if_neg (by omega), if_neg (by omega)]
  rfl

/-- C08: the conversion to `time::Duration` never panics; it is exact if the length fits, else the
overflow error matching the sign. -/
theorem C08_to_time (d : Duration) (h : d.WF) :
    ∃ r, d.toTime = .ok r ∧
      (FitsTime (nanos d) → ∃ t, r = .ok t ∧ t.WF ∧ timeNanos t = nanos d) ∧
      (nanos d < timeNanos TimeDuration.MIN → r = .error .negativeOverflow) ∧
      (timeNanos TimeDuration.MAX < nanos d → r = .error .positiveOverflow) := by
  obtain ⟨n, s, ns⟩ := d
  obtain ⟨h1, h2⟩ := h
  simp only [U64_MAX] at h1 h2
  have e1 : timeNanos TimeDuration.MIN = -9223372036854775808999999999 := by decide
  have e2 : timeNanos TimeDuration.MAX = 9223372036854775807999999999 := by decide
  have e3 : I64_MIN.natAbs = 9223372036854775808 := by decide
  have e4 : I64_MAX.toNat = 9223372036854775807 := by decide
  have e5 : asI32 ns = ns := asI32_eq (by omega) (by omega)
  have e6 : arithI32 (-(ns : Int)) = .ok (-(ns : Int)) := arithI32_ok (by omega) (by omega)
  simp only [FitsTime, e1, e2]
  cases n
  · by_cases hs : s > 9223372036854775807
    · refine ⟨.error .positiveOverflow, ?_, fun h => ?_, fun h => ?_, fun _ => rfl⟩
      · simp only [Duration.toTime, Bool.false_eq_true, if_false, e4]; rw [if_pos hs]
      all_goals simp only [nanos, Bool.false_eq_true, if_false] at h; omega
    · have hn := timeDuration_new (s := s) (n := ns)
        ⟨⟨by simp only [I64_MIN]; omega, by simp only [I64_MAX]; omega⟩, by simp only; omega,
          by simp only; omega, by simp only; omega, by simp only; omega⟩
      have e7 : asI64 s = s := asI64_eq (by omega) (by omega)
      refine ⟨.ok ⟨s, ns⟩, ?_, fun _ => ⟨_, rfl, ?_, by simp [timeNanos, nanos]⟩, fun h => ?_, fun h => ?_⟩
      · simp only [Duration.toTime, Bool.false_eq_true, if_false, e4]
        rw [if_neg hs]
        simp only [e5, e7, hn, ok_bind, ok_pure]
      · exact ⟨⟨by simp only [I64_MIN]; omega, by simp only [I64_MAX]; omega⟩, by simp only; omega,
          by simp only; omega, by simp only; omega, by simp only; omega⟩
      all_goals exfalso; simp only [nanos, Bool.false_eq_true, if_false] at h; omega
  · by_cases hs : s > 9223372036854775808
    · refine ⟨.error .negativeOverflow, ?_, fun h => ?_, fun _ => rfl, fun h => ?_⟩
      · simp only [Duration.toTime, if_true, e3]; rw [if_pos hs]
      all_goals simp only [nanos, if_true] at h; omega
    · have hn := timeDuration_new (s := -s) (n := -ns)
        ⟨⟨by simp only [I64_MIN]; omega, by simp only [I64_MAX]; omega⟩, by simp only; omega,
          by simp only; omega, by simp only; omega, by simp only; omega⟩
      have e7 : asI64 (((18446744073709551616 - s) % 18446744073709551616 : Nat) : Int) = -s := by
        unfold asI64; omega
      refine ⟨.ok ⟨-s, -ns⟩, ?_, fun _ => ⟨_, rfl, ?_, ?_⟩, fun h => ?_, fun h => ?_⟩
      · simp only [Duration.toTime, if_true, e3]
        rw [if_neg hs]
        simp only [e5, e6, e7, ok_bind, hn, ok_pure]
      · exact ⟨⟨by simp only [I64_MIN]; omega, by simp only [I64_MAX]; omega⟩, by simp only; omega,
          by simp only; omega, by simp only; omega, by simp only; omega⟩
      · simp only [timeNanos, nanos, if_true]; omega
      all_goals exfalso; simp only [nanos, if_true] at h; omega

/-- C08: `From<time::Duration>` never panics and is exact. -/
theorem C08_of_time (t : TimeDuration) (h : t.WF) :
    ∃ d, Duration.ofTime t = .ok d ∧ d.WF ∧ nanos d = timeNanos t := by
  obtain ⟨s, n⟩ := t
  obtain ⟨⟨h1, h1'⟩, h2, h3, h4, h5⟩ := h
  simp only [I64_MIN, I64_MAX] at *
  refine ⟨⟨(⟨s, n⟩ : TimeDuration).isNegative, s.natAbs, n.natAbs⟩, ?_, ⟨?_, ?_⟩, ?_⟩
  · simp only [Duration.ofTime, StdDuration.new]
    rw [if_pos (by omega)]; rfl
  · simp only [U64_MAX]; omega
  · simp only; omega
  · simp only [nanos, timeNanos, TimeDuration.isNegative]
    by_cases ha : s < 0 <;> by_cases hb : n < 0 <;> simp [ha, hb] <;> omega

/-- C08: `From` then `TryFrom` is the identity on every `time::Duration`. -/
theorem C08_time_round_trip (t : TimeDuration) (h : t.WF) :
    ∃ d, Duration.ofTime t = .ok d ∧ d.toTime = .ok (.ok t) := by
  obtain ⟨d, hd, hw, hn⟩ := C08_of_time t h
  obtain ⟨r, hr, h1, _, _⟩ := C08_to_time d hw
  have hfit : FitsTime (nanos d) := by
    rw [hn]
    obtain ⟨⟨a, a'⟩, b, c, e, f⟩ := h
    have e1 : timeNanos TimeDuration.MIN = -9223372036854775808999999999 := by decide
    have e2 : timeNanos TimeDuration.MAX = 9223372036854775807999999999 := by decide
    rw [FitsTime, e1, e2]
    simp only [timeNanos, I64_MIN, I64_MAX] at *
    omega
  obtain ⟨t', rfl, hw', hn'⟩ := h1 hfit
  refine ⟨d, hd, ?_⟩
  rw [hr]
  have : t' = t := by
    rw [hn] at hn'
    obtain ⟨s, n⟩ := t
    obtain ⟨s', n'⟩ := t'
    obtain ⟨_, b, c, e, f⟩ := h
    obtain ⟨_, b', c', e', f'⟩ := hw'
    simp only [timeNanos] at *
    have : s = s' := by omega
    have : n = n' := by omega
    subst_vars; rfl
  rw [this]

/-- C08: saturating conversion to `time::Duration` clamps and never hits `unreachable!()`. -/
theorem C08_saturating_to_time (d : Duration) (h : d.WF) :
    ∃ t, d.saturatingToTime = .ok t ∧ t.WF ∧
      timeNanos t = max (timeNanos TimeDuration.MIN) (min (timeNanos TimeDuration.MAX) (nanos d)) := by
  obtain ⟨r, hr, h1, h2, h3⟩ := C08_to_time d h
  have lt : timeNanos TimeDuration.MIN < timeNanos TimeDuration.MAX := by decide
  by_cases ha : nanos d < timeNanos TimeDuration.MIN
  · refine ⟨TimeDuration.MIN, ?_, by decide, by omega⟩
    simp only [Duration.saturatingToTime, hr, h2 ha, ok_bind, ok_pure]
  · by_cases hb : timeNanos TimeDuration.MAX < nanos d
    · refine ⟨TimeDuration.MAX, ?_, by decide, by omega⟩
      simp only [Duration.saturatingToTime, hr, h3 hb, ok_bind, ok_pure]
    · obtain ⟨t, rfl, hw, ht⟩ := h1 ⟨by omega, by omega⟩
      refine ⟨t, ?_, hw, by omega⟩
      simp only [Duration.saturatingToTime, hr, ok_bind, ok_pure]

example : (⟨true, 9223372036854775808, 5⟩ : Duration).toTime = .ok (.ok ⟨-9223372036854775808, -5⟩) ∧
    (⟨false, 9223372036854775808, 0⟩ : Duration).toTime = .ok (.error .positiveOverflow) ∧
    (⟨-3, -7⟩ : TimeDuration).WF := by decide

/-! ## C09 -/

/-- C09: the bounds are `i64::MAX` milliseconds on both sides. -/
theorem C09_range : chronoNanos ChronoDuration.MIN = -((2 ^ 63 - 1) * 10 ^ 6) ∧ chronoNanos ChronoDuration.MAX = (2 ^ 63 - 1) * 10 ^ 6 := by
  decide

theorem chronoMin : chronoNanos ChronoDuration.MIN = -9223372036854775807000000 := by decide
theorem chronoMax : chronoNanos ChronoDuration.MAX = 9223372036854775807000000 := by decide

theorem chrono_le_iff {a b : ChronoDuration} (a1 : 0 ≤ a.nanos) (a2 : a.nanos < 1000000000)
    (b1 : 0 ≤ b.nanos) (b2 : b.nanos < 1000000000) :
    ChronoDuration.le a b ↔ chronoNanos a ≤ chronoNanos b := by
  simp only [ChronoDuration.le, chronoNanos]; omega

/-- the well-formed chrono durations are those in `[min_value, max_value]` -/
theorem chrono_wf_iff (c : ChronoDuration) : c.WF ↔ 0 ≤ c.nanos ∧ c.nanos < 1000000000 ∧
    chronoNanos ChronoDuration.MIN ≤ chronoNanos c ∧
    chronoNanos c ≤ chronoNanos ChronoDuration.MAX := by
  unfold ChronoDuration.WF
  constructor
  · rintro ⟨h1, h2, h3, h4⟩
    exact ⟨h1, h2, (chrono_le_iff (by decide) (by decide) h1 h2).1 h3,
      (chrono_le_iff h1 h2 (by decide) (by decide)).1 h4⟩
  · rintro ⟨h1, h2, h3, h4⟩
    exact ⟨h1, h2, (chrono_le_iff (by decide) (by decide) h1 h2).2 h3,
      (chrono_le_iff h1 h2 (by decide) (by decide)).2 h4⟩

theorem chrono_checkedAdd {a b : ChronoDuration} (a1 : 0 ≤ a.nanos) (a2 : a.nanos < 1000000000)
    (b1 : 0 ≤ b.nanos) (b2 : b.nanos < 1000000000) (s1 : -10000000000000000 ≤ a.secs)
    (s2 : a.secs ≤ 10000000000000000) (s3 : -10 ≤ b.secs) (s4 : b.secs ≤ 10) :
    (chronoNanos ChronoDuration.MIN ≤ chronoNanos a + chronoNanos b ∧
      chronoNanos a + chronoNanos b ≤ chronoNanos ChronoDuration.MAX →
      ∃ c, a.checkedAdd b = some c ∧ c.WF ∧ chronoNanos c = chronoNanos a + chronoNanos b) ∧
    (¬ (chronoNanos ChronoDuration.MIN ≤ chronoNanos a + chronoNanos b ∧
      chronoNanos a + chronoNanos b ≤ chronoNanos ChronoDuration.MAX) → a.checkedAdd b = none) := by
  obtain ⟨as, an⟩ := a
  obtain ⟨bs, bn⟩ := b
  simp only at *
  have c1 : checkedI64 (as + bs) = some (as + bs) := checkedI64_some (by omega) (by omega)
  have c2 : checkedI64 (as + bs + 1) = some (as + bs + 1) := checkedI64_some (by omega) (by omega)
  have key : ∃ c : ChronoDuration, 0 ≤ c.nanos ∧ c.nanos < 1000000000 ∧
      chronoNanos c = chronoNanos ⟨as, an⟩ + chronoNanos ⟨bs, bn⟩ ∧
      (⟨as, an⟩ : ChronoDuration).checkedAdd ⟨bs, bn⟩ =
        if ChronoDuration.le ChronoDuration.MIN c ∧ ChronoDuration.le c ChronoDuration.MAX
        then some c else none := by
    by_cases h : 1000000000 ≤ an + bn
    · refine ⟨⟨as + bs + 1, an + bn - 1000000000⟩, by simp only; omega, by simp only; omega, ?_, ?_⟩
      · simp only [chronoNanos]; omega
      · simp only [ChronoDuration.checkedAdd, c1, c2, h, if_true, bind, Option.bind]
    · refine ⟨⟨as + bs, an + bn⟩, by simp only; omega, by simp only; omega, ?_, ?_⟩
      · simp only [chronoNanos]; omega
      · simp only [ChronoDuration.checkedAdd, c1, h, if_false, bind, Option.bind]
  obtain ⟨c, n1, n2, hc, he⟩ := key
  rw [he, ← hc]
  simp only [chrono_le_iff (a := ChronoDuration.MIN) (b := c) (by decide) (by decide) n1 n2,
    chrono_le_iff (b := ChronoDuration.MAX) n1 n2 (by decide) (by decide)]
  refine ⟨fun h => ⟨c, if_pos h, ?_, rfl⟩, fun h => if_neg h⟩
  exact (chrono_wf_iff c).2 ⟨n1, n2, h.1, h.2⟩

theorem chrono_ofSeconds {s : Int} (h1 : -9223372036854775 ≤ s) (h2 : s ≤ 9223372036854775) :
    ChronoDuration.ofSeconds s = .ok ⟨s, 0⟩ := by
  unfold ChronoDuration.ofSeconds
  apply if_pos
  rw [chrono_le_iff (by decide) (by decide) (by simp) (by simp),
    chrono_le_iff (by simp) (by simp) (by decide) (by decide), chronoMin, chronoMax]
  simp only [chronoNanos]; omega

/-- C09: the conversion to `chrono::Duration` never panics; it is exact if the length lies in
`[min_value, max_value]`, else the overflow error matching the sign. -/
theorem C09_to_chrono (d : Duration) (h : d.WF) :
    ∃ r, d.toChrono = .ok r ∧
      (chronoNanos ChronoDuration.MIN ≤ nanos d ∧ nanos d ≤ chronoNanos ChronoDuration.MAX →
        ∃ c, r = .ok c ∧ c.WF ∧ chronoNanos c = nanos d) ∧
      (nanos d < chronoNanos ChronoDuration.MIN → r = .error .negativeOverflow) ∧
      (chronoNanos ChronoDuration.MAX < nanos d → r = .error .positiveOverflow) := by
  obtain ⟨n, s, ns⟩ := d
  obtain ⟨h1, h2⟩ := h
  simp only [U64_MAX] at h1 h2
  have e3 : ChronoDuration.MIN.numSeconds.natAbs = 9223372036854775 := by decide
  have e4 : ChronoDuration.MAX.numSeconds.natAbs = 9223372036854775 := by decide
  have e6 : arithI64 (-(ns : Int)) = .ok (-(ns : Int)) := arithI64_ok (by omega) (by omega)
  cases n
  · by_cases hs : s > 9223372036854775
    · refine ⟨.error .positiveOverflow, ?_, fun h => ?_, fun h => ?_, fun _ => rfl⟩
      · simp only [Duration.toChrono, Bool.false_eq_true, if_false, e4]; rw [if_pos hs]
      all_goals simp only [nanos, Bool.false_eq_true, if_false, chronoMin, chronoMax] at h; omega
    · have e7 : asI64 s = s := asI64_eq (by omega) (by omega)
      have hsec := chrono_ofSeconds (s := s) (by omega) (by omega)
      have hadd := chrono_checkedAdd (a := ⟨s, 0⟩) (b := ChronoDuration.ofNanoseconds ns)
        (by simp) (by simp) (by simp only [ChronoDuration.ofNanoseconds]; omega)
        (by simp only [ChronoDuration.ofNanoseconds]; omega) (by simp only; omega)
        (by simp only; omega) (by simp only [ChronoDuration.ofNanoseconds]; omega)
        (by simp only [ChronoDuration.ofNanoseconds]; omega)
      have hval : chronoNanos ⟨s, 0⟩ + chronoNanos (ChronoDuration.ofNanoseconds ns)
          = nanos ⟨false, s, ns⟩ := by
        simp only [chronoNanos, ChronoDuration.ofNanoseconds, nanos, Bool.false_eq_true, if_false]
        omega
      rw [hval] at hadd
      by_cases hr : chronoNanos ChronoDuration.MIN ≤ nanos ⟨false, s, ns⟩ ∧
          nanos ⟨false, s, ns⟩ ≤ chronoNanos ChronoDuration.MAX
      · obtain ⟨c, hc, hw, hn⟩ := hadd.1 hr
        refine ⟨.ok c, ?_, fun _ => ⟨c, rfl, hw, hn⟩, fun h => ?_, fun h => ?_⟩
        · simp only [Duration.toChrono, Bool.false_eq_true, if_false, e4]
          rw [if_neg hs]
          simp only [e7, hsec, ok_bind, hc, ok_pure]
        all_goals exfalso; omega
      · refine ⟨.error .positiveOverflow, ?_, fun h => absurd h hr, fun h => ?_, fun h => rfl⟩
        · simp only [Duration.toChrono, Bool.false_eq_true, if_false, e4]
          rw [if_neg hs]
          simp only [e7, hsec, ok_bind, hadd.2 hr, ok_pure]
        · exfalso
          simp only [nanos, Bool.false_eq_true, if_false, chronoMin] at h; omega
  · by_cases hs : s > 9223372036854775
    · refine ⟨.error .negativeOverflow, ?_, fun h => ?_, fun _ => rfl, fun h => ?_⟩
      · simp only [Duration.toChrono, if_true, e3]; rw [if_pos hs]
      all_goals simp only [nanos, if_true, chronoMin, chronoMax] at h; omega
    · have e7 : asI64 s = s := asI64_eq (by omega) (by omega)
      have e8 : arithI64 (-(s : Int)) = .ok (-(s : Int)) := arithI64_ok (by omega) (by omega)
      have hsec := chrono_ofSeconds (s := -s) (by omega) (by omega)
      have hadd := chrono_checkedAdd (a := ⟨-s, 0⟩) (b := ChronoDuration.ofNanoseconds (-ns))
        (by simp) (by simp) (by simp only [ChronoDuration.ofNanoseconds]; omega)
        (by simp only [ChronoDuration.ofNanoseconds]; omega) (by simp only; omega)
        (by simp only; omega) (by simp only [ChronoDuration.ofNanoseconds]; omega)
        (by simp only [ChronoDuration.ofNanoseconds]; omega)
      have hval : chronoNanos ⟨-s, 0⟩ + chronoNanos (ChronoDuration.ofNanoseconds (-ns))
          = nanos ⟨true, s, ns⟩ := by
        simp only [chronoNanos, ChronoDuration.ofNanoseconds, nanos, if_true]
        omega
      rw [hval] at hadd
      by_cases hr : chronoNanos ChronoDuration.MIN ≤ nanos ⟨true, s, ns⟩ ∧
          nanos ⟨true, s, ns⟩ ≤ chronoNanos ChronoDuration.MAX
      · obtain ⟨c, hc, hw, hn⟩ := hadd.1 hr
        refine ⟨.ok c, ?_, fun _ => ⟨c, rfl, hw, hn⟩, fun h => ?_, fun h => ?_⟩
        · simp only [Duration.toChrono, if_true, e3]
          rw [if_neg hs]
          simp only [e6, e7, e8, hsec, ok_bind, hc, ok_pure]
        all_goals exfalso; omega
      · refine ⟨.error .negativeOverflow, ?_, fun h => absurd h hr, fun h => rfl, fun h => ?_⟩
        · simp only [Duration.toChrono, if_true, e3]
          rw [if_neg hs]
          simp only [e6, e7, e8, hsec, ok_bind, hadd.2 hr, ok_pure]
        · exfalso
          simp only [nanos, if_true, chronoMax] at h; omega

/-- C09: `From<chrono::Duration>` never panics and is exact. -/
theorem C09_of_chrono (c : ChronoDuration) (h : c.WF) :
    ∃ d, Duration.ofChrono c = .ok d ∧ d.WF ∧ nanos d = chronoNanos c := by
  rw [chrono_wf_iff] at h
  rw [chronoMin, chronoMax] at h
  obtain ⟨s, n⟩ := c
  simp only [chronoNanos] at h
  by_cases hs : s < 0
  · by_cases hn : n = 0
    · refine ⟨⟨true, s.natAbs, 0⟩, ?_, ⟨by simp only [U64_MAX]; omega, by simp⟩, ?_⟩
      · have : ¬ ((s.natAbs : Int) < 0) := by omega
        simp only [Duration.ofChrono, ChronoDuration.toStd, hs, if_true, ChronoDuration.abs, hn,
          ne_eq, not_true_eq_false, and_false, if_false, this, unwrap, ok_bind]
        rfl
      · simp only [nanos, if_true, chronoNanos]; omega
    · refine ⟨⟨true, (s + 1).natAbs, (1000000000 - n).toNat⟩, ?_,
        ⟨by simp only [U64_MAX]; omega, by simp only; omega⟩, ?_⟩
      · have : ¬ (((s + 1).natAbs : Int) < 0) := by omega
        simp only [Duration.ofChrono, ChronoDuration.toStd, hs, if_true, ChronoDuration.abs, hn,
          ne_eq, not_false_eq_true, and_self, this, if_false, unwrap, ok_bind]
        rfl
      · simp only [nanos, if_true, chronoNanos]; omega
  · refine ⟨⟨false, s.toNat, n.toNat⟩, ?_, ⟨by simp only [U64_MAX]; omega, by simp only; omega⟩, ?_⟩
    · simp only [Duration.ofChrono, ChronoDuration.toStd, hs, if_false]
    · simp only [nanos, Bool.false_eq_true, if_false, chronoNanos]; omega

/-- C09: `From` then `TryFrom` is the identity on every `chrono::Duration`. -/
theorem C09_chrono_round_trip (c : ChronoDuration) (h : c.WF) :
    ∃ d, Duration.ofChrono c = .ok d ∧ d.toChrono = .ok (.ok c) := by
  obtain ⟨d, hd, hw, hn⟩ := C09_of_chrono c h
  obtain ⟨r, hr, h1, _, _⟩ := C09_to_chrono d hw
  rw [chrono_wf_iff] at h
  obtain ⟨c', rfl, hw', hn'⟩ := h1 (by rw [hn]; exact ⟨h.2.2.1, h.2.2.2⟩)
  refine ⟨d, hd, ?_⟩
  rw [hr]
  rw [chrono_wf_iff] at hw'
  have : c' = c := by
    rw [hn] at hn'
    obtain ⟨s, n⟩ := c
    obtain ⟨s', n'⟩ := c'
    obtain ⟨a, b, _⟩ := h
    obtain ⟨a', b', _⟩ := hw'
    simp only [chronoNanos] at *
    have : s = s' := by omega
    have : n = n' := by omega
    subst_vars; rfl
  rw [this]

/-- C09: saturating conversion to `chrono::Duration` clamps and never hits `unreachable!()`. -/
theorem C09_saturating_to_chrono (d : Duration) (h : d.WF) :
    ∃ c, d.saturatingToChrono = .ok c ∧ c.WF ∧ chronoNanos c =
      max (chronoNanos ChronoDuration.MIN) (min (chronoNanos ChronoDuration.MAX) (nanos d)) := by
  obtain ⟨r, hr, h1, h2, h3⟩ := C09_to_chrono d h
  have lt : chronoNanos ChronoDuration.MIN < chronoNanos ChronoDuration.MAX := by decide
  by_cases ha : nanos d < chronoNanos ChronoDuration.MIN
  · refine ⟨ChronoDuration.MIN, ?_, by decide, by omega⟩
    simp only [Duration.saturatingToChrono, hr, h2 ha, ok_bind, ok_pure]
  · by_cases hb : chronoNanos ChronoDuration.MAX < nanos d
    · refine ⟨ChronoDuration.MAX, ?_, by decide, by omega⟩
      simp only [Duration.saturatingToChrono, hr, h3 hb, ok_bind, ok_pure]
    · obtain ⟨t, rfl, hw, ht⟩ := h1 ⟨by omega, by omega⟩
      refine ⟨t, ?_, hw, by omega⟩
      simp only [Duration.saturatingToChrono, hr, ok_bind, ok_pure]

example : (⟨true, 9223372036854775, 807000000⟩ : Duration).toChrono = .ok (.ok ChronoDuration.MIN) ∧
    (⟨true, 9223372036854775, 807000001⟩ : Duration).toChrono = .ok (.error .negativeOverflow) ∧
    (⟨-3, 7⟩ : ChronoDuration).WF ∧
    Duration.ofChrono ⟨-3, 7⟩ = .ok ⟨true, 2, 999999993⟩ := by decide

end Fundu.Props
