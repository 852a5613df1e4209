import Verif.Proofs.Prim
import Verif.Props.Time
import Mathlib.Tactic.Ring
import Mathlib.Tactic.NormNum
/-!
# Properties C04, C05: accessors and extraction
-/
namespace Fundu.Props
open Fundu Fundu.Spec

/-! ## C04 -/

theorem tdiv_nanos (s n k : Nat) (hn : n < 1000000000) :
    ((s : Int) * 1000000000 + n).tdiv ((k : Int) * 1000000000) = ((s / k : Nat) : Int) := by
  have h1 : ((s : Int) * 1000000000 + n).tdiv ((k : Int) * 1000000000)
      = ((s * 1000000000 + n) / (k * 1000000000) : Nat) := by
    rw [Int.tdiv_eq_ediv_of_nonneg (by omega)]; push_cast; rfl
  rw [h1]
  congr 1
  rw [Nat.mul_comm k, ← Nat.div_div_eq_div_mul]
  congr 1
  omega

theorem asWhole_eq (d : Duration) (h : d.WF) (k : Nat) (hk : 1 < k) :
    d.asWhole k = .ok ((nanos d).tdiv ((k : Int) * 1000000000)) := by
  obtain ⟨h1, h2⟩ := h
  have hb : d.inner.secs / k ≤ 9223372036854775807 := by
    have : d.inner.secs / k ≤ d.inner.secs / 2 := Nat.div_le_div_left hk (by omega)
    simp only [U64_MAX] at *; omega
  have hw : asI64 ((d.inner.secs / k : Nat) : Int) = ((d.inner.secs / k : Nat) : Int) := by
    have hb' : ((d.inner.secs / k : Nat) : Int) ≤ 9223372036854775807 := by exact_mod_cast hb
    exact asI64_eq (Int.le_trans (by decide) (Int.natCast_nonneg _)) hb'
  have ht := tdiv_nanos d.inner.secs d.inner.nanos k h2
  simp only [Duration.asWhole, Fundu.assert, hk, decide_true, if_true, hw, nanos]
  cases d.isNegative
  · simp only [Bool.false_eq_true, if_false, ht]; rfl
  · simp only [if_true, Int.neg_tdiv, ht]
    have hb' : ((d.inner.secs / k : Nat) : Int) ≤ 9223372036854775807 := by exact_mod_cast hb
    have h0 := Int.natCast_nonneg (d.inner.secs / k)
    generalize ((d.inner.secs / k : Nat) : Int) = x at *
    rw [arithI64_ok (by omega) (by omega)]; rfl

/-- C04: `as_weeks`, `as_days`, `as_hours`, `as_minutes` are the length divided by the unit, rounded
toward zero, and never overflow. -/
theorem C04_as_whole_units (d : Duration) (h : d.WF) :
    d.asWeeks = .ok ((nanos d).tdiv (7 * 24 * 3600 * 10 ^ 9)) ∧
    d.asDays = .ok ((nanos d).tdiv (24 * 3600 * 10 ^ 9)) ∧
    d.asHours = .ok ((nanos d).tdiv (3600 * 10 ^ 9)) ∧
    d.asMinutes = .ok ((nanos d).tdiv (60 * 10 ^ 9)) :=
  ⟨by rw [show (7 * 24 * 3600 * 10 ^ 9 : Int) = ((86400 * 7 : Nat) : Int) * 1000000000 by norm_num]
      exact asWhole_eq d h _ (by decide),
   by rw [show (24 * 3600 * 10 ^ 9 : Int) = ((86400 : Nat) : Int) * 1000000000 by norm_num]
      exact asWhole_eq d h _ (by decide),
   by rw [show (3600 * 10 ^ 9 : Int) = ((3600 : Nat) : Int) * 1000000000 by norm_num]
      exact asWhole_eq d h _ (by decide),
   by rw [show (60 * 10 ^ 9 : Int) = ((60 : Nat) : Int) * 1000000000 by norm_num]
      exact asWhole_eq d h _ (by decide)⟩

theorem asSeconds_eq (d : Duration) (h : d.WF) :
    d.asSeconds = .ok (if d.isNegative then -(d.inner.secs : Int) else d.inner.secs) := by
  obtain ⟨h1, h2⟩ := h
  simp only [U64_MAX] at h1
  simp only [Duration.asSeconds]
  rw [arithI128_ok (by omega) (by omega)]
  cases d.isNegative <;> rfl

theorem subsecNanos_eq (d : Duration) (h : d.WF) :
    d.subsecNanos = .ok (if d.isNegative then -(d.inner.nanos : Int) else d.inner.nanos) := by
  obtain ⟨h1, h2⟩ := h
  have : asI32 d.inner.nanos = d.inner.nanos := asI32_eq (by omega) (by omega)
  simp only [Duration.subsecNanos, this]
  rw [arithI32_ok (by omega) (by omega)]
  cases d.isNegative <;> rfl

/-- C04: the `subsec_*` accessors are the sub-second part of the length, rounded toward zero. -/
theorem C04_subsec (d : Duration) (h : d.WF) :
    d.subsecNanos = .ok ((nanos d).tmod (10 ^ 9)) ∧
    d.subsecMicros = .ok (((nanos d).tmod (10 ^ 9)).tdiv 1000) ∧
    d.subsecMillis = .ok (((nanos d).tmod (10 ^ 9)).tdiv (10 ^ 6)) := by
  have hn : d.subsecNanos = .ok ((nanos d).tmod (10 ^ 9)) := by
    rw [subsecNanos_eq d h]
    obtain ⟨h1, h2⟩ := h
    have key : (((d.inner.secs : Int) * 1000000000 + d.inner.nanos).tmod 1000000000)
        = d.inner.nanos := by
      rw [Int.tmod_eq_emod_of_nonneg (by omega)]; omega
    have h9 : (10 : Int) ^ 9 = 1000000000 := by norm_num
    simp only [nanos, h9]
    cases d.isNegative
    · simp [key]
    · simp only [if_true, Int.neg_tmod, key]
  refine ⟨hn, ?_, ?_⟩
  · simp only [Duration.subsecMicros, hn]; rfl
  · simp only [Duration.subsecMillis, hn]; rfl

theorem tdiv_bound {n : Int} {k : Nat} (h1 : -1000000000 < n) (h2 : n < 1000000000) :
    -1000000000 < n.tdiv k ∧ n.tdiv k < 1000000000 := by
  have := Int.natAbs_tdiv_le_natAbs n k
  omega

theorem arith2 {a b : Int} (h1 : -10000000000000000000000000000000 ≤ a)
    (h2 : a ≤ 10000000000000000000000000000000) (h3 : -1000000000 < b) (h4 : b < 1000000000) :
    (arithI128 a).bind (fun x => arithI128 (x + b)) = .ok (a + b) := by
  rw [arithI128_ok (by omega) (by omega)]
  exact arithI128_ok (by omega) (by omega)

theorem asMillis_of {d : Duration} {s n : Int} (hs : d.asSeconds = .ok s) (hn : d.subsecNanos = .ok n)
    (s1 : -18446744073709551615 ≤ s) (s2 : s ≤ 18446744073709551615) (n1 : -1000000000 < n)
    (n2 : n < 1000000000) : d.asMillis = .ok (s * 1000 + n.tdiv 1000000) := by
  obtain ⟨b1, b2⟩ := tdiv_bound (k := 1000000) n1 n2
  have := arith2 (a := s * 1000) (b := n.tdiv 1000000) (by omega) (by omega) b1 b2
  rw [← this]
  simp only [Duration.asMillis, Duration.subsecMillis, hs, hn, bind, Except.bind, pure, Except.pure]

theorem asMicros_of {d : Duration} {s n : Int} (hs : d.asSeconds = .ok s) (hn : d.subsecNanos = .ok n)
    (s1 : -18446744073709551615 ≤ s) (s2 : s ≤ 18446744073709551615) (n1 : -1000000000 < n)
    (n2 : n < 1000000000) : d.asMicros = .ok (s * 1000000 + n.tdiv 1000) := by
  obtain ⟨b1, b2⟩ := tdiv_bound (k := 1000) n1 n2
  have := arith2 (a := s * 1000000) (b := n.tdiv 1000) (by omega) (by omega) b1 b2
  rw [← this]
  simp only [Duration.asMicros, Duration.subsecMicros, hs, hn, bind, Except.bind, pure, Except.pure]

theorem asNanos_of {d : Duration} {s n : Int} (hs : d.asSeconds = .ok s) (hn : d.subsecNanos = .ok n)
    (s1 : -18446744073709551615 ≤ s) (s2 : s ≤ 18446744073709551615) (n1 : -1000000000 < n)
    (n2 : n < 1000000000) : d.asNanos = .ok (s * 1000000000 + n) := by
  have := arith2 (a := s * 1000000000) (b := n) (by omega) (by omega) n1 n2
  rw [← this]
  simp only [Duration.asNanos, hs, hn, bind, Except.bind]

/-- C04: `as_seconds`, `as_millis`, `as_micros`, `as_nanos` are the length divided by the unit, rounded
toward zero, and never overflow. -/
theorem C04_as_seconds_millis_micros_nanos (d : Duration) (h : d.WF) :
    d.asSeconds = .ok ((nanos d).tdiv (10 ^ 9)) ∧
    d.asMillis = .ok ((nanos d).tdiv (10 ^ 6)) ∧
    d.asMicros = .ok ((nanos d).tdiv (10 ^ 3)) ∧
    d.asNanos = .ok (nanos d) := by
  have hs := asSeconds_eq d h
  have hn := subsecNanos_eq d h
  obtain ⟨h1, h2⟩ := h
  simp only [U64_MAX] at h1
  have aux : ∀ k m : Int, 0 < k → k * m = 1000000000 →
      ((d.inner.secs : Int) * 1000000000 + d.inner.nanos).tdiv k
        = (d.inner.secs : Int) * m + (d.inner.nanos : Int).tdiv k := by
    intro k m hk hkm
    rw [Int.tdiv_eq_ediv_of_nonneg (by omega), Int.tdiv_eq_ediv_of_nonneg (by omega)]
    have : (d.inner.secs : Int) * 1000000000 + d.inner.nanos
        = d.inner.nanos + (k : Int) * (d.inner.secs * m) := by
      rw [← hkm]; ring
    rw [this, Int.add_mul_ediv_left _ _ (by omega), Int.add_comm]
  have a9 := aux 1000000000 1 (by omega) (by omega)
  have a6 := aux 1000000 1000 (by omega) (by omega)
  have a3 := aux 1000 1000000 (by omega) (by omega)
  have z9 : (d.inner.nanos : Int).tdiv 1000000000 = 0 := by
    rw [Int.tdiv_eq_ediv_of_nonneg (by omega)]; omega
  have e9 : (10 : Int) ^ 9 = 1000000000 := by norm_num
  have e6 : (10 : Int) ^ 6 = 1000000 := by norm_num
  have e3 : (10 : Int) ^ 3 = 1000 := by norm_num
  refine ⟨?_, ?_, ?_, ?_⟩
  · rw [hs, nanos, e9]
    cases d.isNegative
    · simp only [Bool.false_eq_true, if_false, a9, z9]; simp
    · simp only [if_true, Int.neg_tdiv, a9, z9]; simp
  · rw [asMillis_of hs hn (by split <;> omega) (by split <;> omega) (by split <;> omega)
      (by split <;> omega), e6, nanos]
    cases d.isNegative
    · simp only [Bool.false_eq_true, if_false, a6]
    · simp only [if_true, Int.neg_tdiv, a6]; simp only [Int.neg_mul, Int.neg_add]
  · rw [asMicros_of hs hn (by split <;> omega) (by split <;> omega) (by split <;> omega)
      (by split <;> omega), e3, nanos]
    cases d.isNegative
    · simp only [Bool.false_eq_true, if_false, a3]
    · simp only [if_true, Int.neg_tdiv, a3]; simp only [Int.neg_mul, Int.neg_add]
  · rw [asNanos_of hs hn (by split <;> omega) (by split <;> omega) (by split <;> omega)
      (by split <;> omega), nanos]
    cases d.isNegative
    · simp only [Bool.false_eq_true, if_false]
    · simp only [if_true, Int.neg_mul, Int.neg_add]

example : Duration.MIN.asWeeks = .ok (-30500568904943) ∧
    Duration.MIN.asNanos = .ok (-18446744073709551615999999999) ∧
    (⟨true, 1, 999999999⟩ : Duration).asMillis = .ok (-1999) := by decide

/-! ## C05 -/

theorem extractI64_spec (d : Duration) (h : d.WF) (k : Nat) (hk : 1 < k) :
    ∃ n r, d.extractI64 k = .ok (n, r) ∧ r.WF ∧
      n = (nanos d).tdiv ((k : Int) * 1000000000) ∧
      nanos d = n * ((k : Int) * 1000000000) + nanos r ∧
      |nanos r| < (k : Int) * 1000000000 ∧ r.isNegative = d.isNegative := by
  obtain ⟨h1, h2⟩ := h
  have hb : d.inner.secs / k ≤ 9223372036854775807 := by
    have : d.inner.secs / k ≤ d.inner.secs / 2 := Nat.div_le_div_left hk (by omega)
    simp only [U64_MAX] at *; omega
  have hbi : ((d.inner.secs / k : Nat) : Int) ≤ 9223372036854775807 := by exact_mod_cast hb
  have hm : d.inner.secs % k < k := Nat.mod_lt _ (by omega)
  have hmle : d.inner.secs % k ≤ d.inner.secs := Nat.mod_le _ _
  have hdm : k * (d.inner.secs / k) + d.inner.secs % k = d.inner.secs := Nat.div_add_mod _ _
  have ht := tdiv_nanos d.inner.secs d.inner.nanos k h2
  have hc : checkedI64 ((d.inner.secs / k : Nat) : Int) = some ((d.inner.secs / k : Nat) : Int) := by
    exact checkedI64_some (Int.le_trans (by decide) (Int.natCast_nonneg _)) hbi
  have hn : nanos d = (if d.isNegative then -1 else 1) *
      ((k : Int) * ((d.inner.secs / k : Nat) : Int) + ((d.inner.secs % k : Nat) : Int)) * 1000000000
        + (if d.isNegative then -1 else 1) * d.inner.nanos := by
    have : (d.inner.secs : Int) = (k : Int) * ((d.inner.secs / k : Nat) : Int)
        + ((d.inner.secs % k : Nat) : Int) := by exact_mod_cast hdm.symm
    simp only [nanos]
    rw [← this]
    split <;> ring
  have hkm : ((d.inner.secs % k : Nat) : Int) + 1 ≤ k := by exact_mod_cast hm
  by_cases h0 : 0 < d.inner.secs / k
  · refine ⟨if d.isNegative then -((d.inner.secs / k : Nat) : Int) else ((d.inner.secs / k : Nat) : Int),
      ⟨d.isNegative, d.inner.secs % k, d.inner.nanos⟩, ?_, ⟨?_, h2⟩, ?_, ?_, ?_, rfl⟩
    · have hpos : (0 : Int) < ((d.inner.secs / k : Nat) : Int) := by exact_mod_cast h0
      simp only [Duration.extractI64, Fundu.assert, hk, decide_true, if_true, hc, unwrap,
        StdDuration.new, h2, bind, Except.bind, pure, Except.pure]
      rw [if_pos hpos]
      cases hs : d.isNegative
      · rfl
      · simp only [if_true]
        rw [arithI64_ok (Int.le_trans (by decide) (Int.neg_le_neg hbi)) (by omega)]
    · simp only; omega
    · simp only [nanos]
      cases d.isNegative
      · simp only [Bool.false_eq_true, if_false, ht]
      · simp only [if_true, Int.neg_tdiv, ht]
    · rw [hn]
      simp only [nanos]
      cases d.isNegative
      · simp only [Bool.false_eq_true, if_false]; ring
      · simp only [if_true]; ring
    · simp only [nanos]
      cases d.isNegative
      · simp only [Bool.false_eq_true, if_false]
        rw [abs_of_nonneg (by omega)]; omega
      · simp only [if_true]
        rw [abs_neg, abs_of_nonneg (by omega)]; omega
  · have hz : d.inner.secs / k = 0 := Nat.eq_zero_of_not_pos h0
    refine ⟨0, d, ?_, ⟨h1, h2⟩, ?_, by rw [Int.zero_mul, Int.zero_add], ?_, rfl⟩
    · rw [hz] at hc
      simp only [Duration.extractI64, Fundu.assert, hk, decide_true, if_true, unwrap, bind,
        Except.bind, hz, hc]
      rfl
    · rw [hz] at ht
      simp only [nanos]
      cases d.isNegative
      · simp only [Bool.false_eq_true, if_false, ht]; rfl
      · simp only [if_true, Int.neg_tdiv, ht]; rfl
    · have : d.inner.secs = d.inner.secs % k := by rw [hz] at hdm; omega
      rw [← this] at hkm
      simp only [nanos]
      cases d.isNegative
      · simp only [Bool.false_eq_true, if_false]
        rw [abs_of_nonneg (by omega)]; omega
      · simp only [if_true]
        rw [abs_neg, abs_of_nonneg (by omega)]; omega

/-- what `extract_*` promises for a unit of `unit` nanoseconds: the truncated quotient is returned, the
remainder (same sign) stays, nothing is lost -/
def ExtractSpec (extract : Duration → Except Panic (Int × Duration)) (unit : Int) : Prop :=
  ∀ d : Duration, d.WF → ∃ n r, extract d = .ok (n, r) ∧ r.WF ∧ n = (nanos d).tdiv unit ∧
    nanos d = n * unit + nanos r ∧ |nanos r| < unit ∧ r.isNegative = d.isNegative

/-- C05: `extract_weeks/days/hours/minutes/seconds`. -/
theorem C05_extract :
    ExtractSpec Duration.extractWeeks (7 * 24 * 3600 * 10 ^ 9) ∧
    ExtractSpec Duration.extractDays (24 * 3600 * 10 ^ 9) ∧
    ExtractSpec Duration.extractHours (3600 * 10 ^ 9) ∧
    ExtractSpec Duration.extractMinutes (60 * 10 ^ 9) ∧
    ExtractSpec Duration.extractSeconds (10 ^ 9) := by
  refine ⟨fun d h => ?_, fun d h => ?_, fun d h => ?_, fun d h => ?_, fun d h => ?_⟩
  · rw [show (7 * 24 * 3600 * 10 ^ 9 : Int) = ((86400 * 7 : Nat) : Int) * 1000000000 by norm_num]
    exact extractI64_spec d h _ (by decide)
  · rw [show (24 * 3600 * 10 ^ 9 : Int) = ((86400 : Nat) : Int) * 1000000000 by norm_num]
    exact extractI64_spec d h _ (by decide)
  · rw [show (3600 * 10 ^ 9 : Int) = ((3600 : Nat) : Int) * 1000000000 by norm_num]
    exact extractI64_spec d h _ (by decide)
  · rw [show (60 * 10 ^ 9 : Int) = ((60 : Nat) : Int) * 1000000000 by norm_num]
    exact extractI64_spec d h _ (by decide)
  have hs := asSeconds_eq d h
  have hs' := (C04_as_seconds_millis_micros_nanos d h).1
  rw [hs] at hs'
  have hs'' := Except.ok.inj hs'
  obtain ⟨h1, h2⟩ := h
  rw [← hs'']
  have e9 : (10 : Int) ^ 9 = 1000000000 := by norm_num
  rw [e9]
  by_cases h0 : d.inner.secs = 0
  · refine ⟨_, d, ?_, ⟨h1, h2⟩, rfl, ?_, ?_, rfl⟩
    · simp [Duration.extractSeconds, hs, h0, bind, Except.bind, pure, Except.pure]
    · simp [h0]
    · simp only [nanos, h0]
      cases d.isNegative
      · simp only [Bool.false_eq_true, if_false]
        rw [abs_of_nonneg (by omega)]; omega
      · simp only [if_true]
        rw [abs_neg, abs_of_nonneg (by omega)]; omega
  · refine ⟨_, ⟨d.isNegative, 0, d.inner.nanos⟩, ?_, ⟨by simp, h2⟩, rfl, ?_, ?_, rfl⟩
    · have : ¬ ((if d.isNegative then -(d.inner.secs : Int) else d.inner.secs) = 0) := by
        split <;> omega
      simp only [Duration.extractSeconds, hs, StdDuration.new, h2, if_true, bind, Except.bind, pure,
        Except.pure, this, if_false]
    · simp only [nanos]
      cases d.isNegative
      · simp
      · simp; omega
    · simp only [nanos]
      cases d.isNegative
      · simp only [Bool.false_eq_true, if_false]
        rw [abs_of_nonneg (by omega)]; omega
      · simp only [if_true]
        rw [abs_neg, abs_of_nonneg (by omega)]; omega

theorem tdiv_abs_lt (x u m : Int) (hu : 0 < u) (h : |x| < m * u) : |x.tdiv u| < m := by
  rw [abs_lt] at h
  rcases Int.le_total 0 x with hx | hx
  · rw [Int.tdiv_eq_ediv_of_nonneg hx, abs_of_nonneg (Int.ediv_nonneg hx hu.le)]
    exact Int.ediv_lt_of_lt_mul hu h.2
  · obtain ⟨y, rfl⟩ : ∃ y, x = -y := ⟨-x, by omega⟩
    rw [Int.neg_tdiv, abs_neg, Int.tdiv_eq_ediv_of_nonneg (by omega),
      abs_of_nonneg (Int.ediv_nonneg (by omega) hu.le)]
    exact Int.ediv_lt_of_lt_mul hu (by omega)

/-- C05: extracting weeks, days, hours, minutes and seconds in turn loses nothing. -/
theorem C05_extract_chain (d : Duration) (h : d.WF) :
    ∃ w dy hr mi se d1 d2 d3 d4 d5, d.extractWeeks = .ok (w, d1) ∧ d1.extractDays = .ok (dy, d2) ∧
      d2.extractHours = .ok (hr, d3) ∧ d3.extractMinutes = .ok (mi, d4) ∧
      d4.extractSeconds = .ok (se, d5) ∧
      nanos d = (((((w * 7 + dy) * 24 + hr) * 60 + mi) * 60) + se) * 10 ^ 9 + nanos d5 ∧
      |dy| < 7 ∧ |hr| < 24 ∧ |mi| < 60 ∧ |se| < 60 ∧ |nanos d5| < 10 ^ 9 := by
  obtain ⟨e1, e2, e3, e4, e5⟩ := C05_extract
  obtain ⟨w, d1, w1, w2, w3, w4, w5, w6⟩ := e1 d h
  obtain ⟨dy, d2, x1, x2, x3, x4, x5, x6⟩ := e2 d1 w2
  obtain ⟨hr, d3, y1, y2, y3, y4, y5, y6⟩ := e3 d2 x2
  obtain ⟨mi, d4, z1, z2, z3, z4, z5, z6⟩ := e4 d3 y2
  obtain ⟨se, d5, v1, v2, v3, v4, v5, v6⟩ := e5 d4 z2
  refine ⟨w, dy, hr, mi, se, d1, d2, d3, d4, d5, w1, x1, y1, z1, v1, by omega, ?_, ?_, ?_, ?_, v5⟩
  · rw [x3]; exact tdiv_abs_lt _ _ _ (by norm_num) (by norm_num at w5 ⊢; exact w5)
  · rw [y3]; exact tdiv_abs_lt _ _ _ (by norm_num) (by norm_num at x5 ⊢; exact x5)
  · rw [z3]; exact tdiv_abs_lt _ _ _ (by norm_num) (by norm_num at y5 ⊢; exact y5)
  · rw [v3]; exact tdiv_abs_lt _ _ _ (by norm_num) (by norm_num at z5 ⊢; exact z5)

example : Duration.MIN.extractWeeks = .ok (-30500568904943, ⟨true, 25215, 999999999⟩) := by decide

/-- the calls of a chain of extractions: fundu-core/src/time.rs:894 and the four methods after it -/
inductive Extraction | weeks | days | hours | minutes | seconds

/-- one call on a duration -/
def Extraction.call : Extraction → Duration → Except Panic (Int × Duration)
  | .weeks => Duration.extractWeeks
  | .days => Duration.extractDays
  | .hours => Duration.extractHours
  | .minutes => Duration.extractMinutes
  | .seconds => Duration.extractSeconds

/-- the unit in nanoseconds -/
def Extraction.unit : Extraction → Int
  | .weeks => 7 * 24 * 3600 * 10 ^ 9
  | .days => 24 * 3600 * 10 ^ 9
  | .hours => 3600 * 10 ^ 9
  | .minutes => 60 * 10 ^ 9
  | .seconds => 10 ^ 9

/-- the calls one after the other on the same (mutable) duration: the numbers they return and what is left -/
def callAll : List Extraction → Duration → Except Panic (List Int × Duration)
  | [], d => .ok ([], d)
  | x :: xs, d => do
    let (n, d) ← x.call d
    let (ns, d) ← callAll xs d
    return (n :: ns, d)

theorem extraction_spec (x : Extraction) : ExtractSpec x.call x.unit := by
  obtain ⟨e1, e2, e3, e4, e5⟩ := C05_extract
  cases x
  · exact e1
  · exact e2
  · exact e3
  · exact e4
  · exact e5

/-- C05: extractions in any order and number lose nothing: the numbers with their units and the rest make up the duration; the rest is
smaller than each of the units, no longer than the duration, and has its sign as all of the numbers have. -/
theorem C05_any_chain (xs : List Extraction) (d : Duration) (h : d.WF) :
    ∃ ns r, callAll xs d = .ok (ns, r) ∧ r.WF ∧ ns.length = xs.length ∧
      nanos d = (List.zipWith (fun (x : Extraction) n => n * x.unit) xs ns).sum + nanos r ∧
      (∀ x ∈ xs, |nanos r| < x.unit) ∧ |nanos r| ≤ |nanos d| ∧ r.isNegative = d.isNegative ∧
      (∀ n ∈ ns, (0 ≤ nanos d → 0 ≤ n) ∧ (nanos d ≤ 0 → n ≤ 0)) ∧ (0 ≤ nanos d → 0 ≤ nanos r) ∧ (nanos d ≤ 0 → nanos r ≤ 0) := by
  induction xs generalizing d with
  | nil => exact ⟨[], d, rfl, h, rfl, by simp, by simp, le_refl _, rfl, by simp, id, id⟩
  | cons x xs ih =>
    obtain ⟨n, d1, e, w, hn, hsum, hlt, hneg⟩ := extraction_spec x d h
    have hu : 0 < x.unit := by cases x <;> decide
    have s1 : (0 ≤ nanos d → 0 ≤ n) ∧ (nanos d ≤ 0 → n ≤ 0) := by
      rw [hn]
      refine ⟨fun k => Int.tdiv_nonneg k hu.le, fun k => ?_⟩
      have := Int.tdiv_nonneg (a := -nanos d) (b := x.unit) (by omega) hu.le
      rw [Int.neg_tdiv] at this
      omega
    have hr : nanos d1 = (nanos d).tmod x.unit := by
      have := Int.tmod_add_mul_tdiv (nanos d) x.unit
      rw [← hn, mul_comm] at this
      omega
    have s2 : (0 ≤ nanos d → 0 ≤ nanos d1) ∧ (nanos d ≤ 0 → nanos d1 ≤ 0) := by
      rw [hr]
      refine ⟨fun k => Int.tmod_nonneg _ k, fun k => ?_⟩
      have := Int.tmod_nonneg (a := -nanos d) x.unit (by omega)
      rw [Int.neg_tmod] at this
      omega
    have s3 : |nanos d1| ≤ |nanos d| := by
      rcases le_total 0 (nanos d) with k | k
      · have a := s2.1 k
        have b := mul_nonneg (s1.1 k) hu.le
        rw [abs_of_nonneg k, abs_of_nonneg a]
        omega
      · have a := s2.2 k
        have b := mul_nonneg (neg_nonneg.2 (s1.2 k)) hu.le
        rw [neg_mul] at b
        rw [abs_of_nonpos k, abs_of_nonpos a]
        omega
    obtain ⟨ns, r, g1, g2, g3, g4, g5, g6, g7, g8, g9, g10⟩ := ih d1 w
    refine ⟨n :: ns, r, ?_, g2, by simp [g3], ?_, ?_, g6.trans s3, g7.trans hneg, ?_, fun k => g9 (s2.1 k), fun k => g10 (s2.2 k)⟩
    · unfold callAll
      rw [e]
      show (callAll xs d1 >>= fun p => pure (n :: p.1, p.2)) = _
      rw [g1]
      rfl
    · simp only [List.zipWith_cons_cons, List.sum_cons]
      omega
    · intro y hy
      rcases List.mem_cons.1 hy with rfl | hy
      · exact lt_of_le_of_lt g6 hlt
      · exact g5 y hy
    · intro y hy
      rcases List.mem_cons.1 hy with rfl | hy
      · exact s1
      · exact ⟨fun k => (g8 y hy).1 (s2.1 k), fun k => (g8 y hy).2 (s2.2 k)⟩

example : callAll [.hours, .weeks, .minutes, .hours] ⟨true, ⟨7384, 5⟩⟩ = .ok ([-2, 0, -3, 0], ⟨true, ⟨4, 5⟩⟩) := by decide

end Fundu.Props
