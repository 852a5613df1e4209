import Verif.Spec.Time
import Verif.Proofs.Prim
import Mathlib.Algebra.Order.Group.Unbundled.Abs
import Mathlib.Algebra.Order.Group.Int
/-!
# Properties C01-C03: comparing, adding, subtracting, negating durations
-/
namespace Fundu.Props
open Fundu Fundu.Spec

theorem StdDuration_cmp_eq (a b : StdDuration) (ha : a.WF) (hb : b.WF) :
    a.cmp b = compare (stdNanos a) (stdNanos b) := by
  obtain ⟨ha1, ha2⟩ := ha
  obtain ⟨hb1, hb2⟩ := hb
  simp only [StdDuration.cmp, stdNanos, Ordering.then, compareOfLessAndEq, compare]
  grind

/-! ## C01 -/

/-- C01: `==` is equality of the signed lengths (so `-0 == 0`). -/
theorem C01_eq_iff (a b : Duration) (ha : a.WF) (hb : b.WF) :
    a.eq b = true ↔ nanos a = nanos b := by
  obtain ⟨an, as, ans⟩ := a
  obtain ⟨bn, bs, bns⟩ := b
  obtain ⟨ha1, ha2⟩ := ha
  obtain ⟨hb1, hb2⟩ := hb
  simp only [U64_MAX] at *
  cases an <;> cases bn <;>
    simp [Duration.eq, Duration.isZero, StdDuration.isZero, nanos] <;> omega

/-- C01: `cmp` is the order of the signed lengths; so `<`, `<=`, ... form a total order. -/
theorem C01_cmp (a b : Duration) (ha : a.WF) (hb : b.WF) :
    a.cmp b = compare (nanos a) (nanos b) := by
  have hab := StdDuration_cmp_eq a.inner b.inner ha hb
  have hba := StdDuration_cmp_eq b.inner a.inner hb ha
  obtain ⟨an, as, ans⟩ := a
  obtain ⟨bn, bs, bns⟩ := b
  obtain ⟨ha1, ha2⟩ := ha
  obtain ⟨hb1, hb2⟩ := hb
  simp only at *
  cases an <;> cases bn <;>
    simp only [Duration.cmp, hab, hba, nanos, stdNanos, compare, compareOfLessAndEq, Duration.isZero,
      StdDuration.isZero] <;> grind

/-- C01: equal durations feed equal data to a hasher, and only equal ones do. -/
theorem C01_hash (a b : Duration) : a.eq b = true ↔ a.hashData = b.hashData := by
  obtain ⟨an, as, ans⟩ := a
  obtain ⟨bn, bs, bns⟩ := b
  cases an <;> cases bn <;>
    simp [Duration.eq, Duration.hashData, Duration.isZero, StdDuration.isZero] <;> grind

example : (⟨true, 0, 0⟩ : Duration).eq Duration.ZERO = true ∧
    (⟨true, 1, 5⟩ : Duration).cmp ⟨false, 1, 5⟩ = .lt := by decide

/-! ## C02 -/

theorem StdDuration_checkedAdd_eq (a b : StdDuration) :
    a.checkedAdd b =
      if a.nanos + b.nanos < 1000000000 then
        if a.secs + b.secs ≤ U64_MAX then some ⟨a.secs + b.secs, a.nanos + b.nanos⟩ else none
      else if a.secs + b.secs + 1 ≤ U64_MAX then
        some ⟨a.secs + b.secs + 1, a.nanos + b.nanos - 1000000000⟩
      else none := by
  unfold StdDuration.checkedAdd checkedU64
  by_cases h1 : a.secs + b.secs ≤ U64_MAX
  · simp only [h1, if_true]
    split
    · rfl
    · by_cases h2 : a.secs + b.secs + 1 ≤ U64_MAX <;> simp [h2]
  · have : ¬ a.secs + b.secs + 1 ≤ U64_MAX := by omega
    simp [h1, this]

theorem StdDuration_checkedAdd_some (a b d : StdDuration) (ha : a.WF) (hb : b.WF)
    (h : a.checkedAdd b = some d) : d.WF ∧ stdNanos d = stdNanos a + stdNanos b := by
  obtain ⟨ha1, ha2⟩ := ha
  obtain ⟨hb1, hb2⟩ := hb
  rw [StdDuration_checkedAdd_eq] at h
  split at h <;> split at h <;> simp at h <;> subst h <;> simp only [U64_MAX] at * <;>
    refine ⟨⟨?_, ?_⟩, ?_⟩ <;> simp [stdNanos, U64_MAX] <;> omega

theorem StdDuration_checkedAdd_none (a b : StdDuration)
    (h : a.checkedAdd b = none) : maxNanos < stdNanos a + stdNanos b := by
  rw [StdDuration_checkedAdd_eq] at h
  split at h <;> split at h <;> simp at h <;>
    simp only [U64_MAX, stdNanos, maxNanos] at * <;> omega

theorem StdDuration_sub (a b : StdDuration) (ha : a.WF) (hb : b.WF) (h : stdNanos b ≤ stdNanos a) :
    ∃ d, a.sub b = .ok d ∧ d.WF ∧ stdNanos d = stdNanos a - stdNanos b := by
  obtain ⟨ha1, ha2⟩ := ha
  obtain ⟨hb1, hb2⟩ := hb
  simp only [StdDuration.sub, StdDuration.checkedSub, stdNanos, U64_MAX] at *
  have h1 : ¬ a.secs < b.secs := by omega
  by_cases h2 : b.nanos ≤ a.nanos
  · refine ⟨⟨a.secs - b.secs, a.nanos - b.nanos⟩, by simp [h1, h2], ⟨?_, ?_⟩, ?_⟩ <;>
      simp only [U64_MAX] <;> omega
  · have h3 : ¬ a.secs - b.secs = 0 := by omega
    refine ⟨⟨a.secs - b.secs - 1, a.nanos + 1000000000 - b.nanos⟩, by simp only [h1, h2, h3, if_false],
      ⟨?_, ?_⟩, ?_⟩ <;> simp only [U64_MAX] <;> omega

theorem nanos_eq (d : Duration) :
    nanos d = if d.isNegative then -stdNanos d.inner else stdNanos d.inner := rfl

theorem stdNanos_nonneg (d : StdDuration) : 0 ≤ stdNanos d := by unfold stdNanos; omega

theorem stdNanos_le (d : StdDuration) (h : d.WF) : stdNanos d ≤ maxNanos := by
  obtain ⟨h1, h2⟩ := h
  simp only [stdNanos, maxNanos, U64_MAX] at *; omega

/-- every duration stands for a representable number of nanoseconds -/
theorem nanos_representable (d : Duration) (h : d.WF) : Representable (nanos d) := by
  have h1 := stdNanos_nonneg d.inner
  have h2 := stdNanos_le d.inner h
  rw [nanos_eq, Representable]; split <;> omega

/-- C02: `checked_add` never panics; it is exactly the sum if that is representable, else `None`. -/
theorem C02_checked_add (a b : Duration) (ha : a.WF) (hb : b.WF) :
    ∃ r, a.checkedAdd b = .ok r ∧
      (Representable (nanos a + nanos b) → ∃ d, r = some d ∧ d.WF ∧ nanos d = nanos a + nanos b) ∧
      (¬ Representable (nanos a + nanos b) → r = none) := by
  have hcmp := StdDuration_cmp_eq a.inner b.inner ha hb
  have hs := StdDuration_checkedAdd_some a.inner b.inner
  have hn := StdDuration_checkedAdd_none a.inner b.inner
  have hab := StdDuration_sub a.inner b.inner ha hb
  have hba := StdDuration_sub b.inner a.inner hb ha
  have a0 := stdNanos_nonneg a.inner
  have b0 := stdNanos_nonneg b.inner
  have a1 := stdNanos_le a.inner ha
  have b1 := stdNanos_le b.inner hb
  have same : ∀ s : Bool, a.isNegative = s → b.isNegative = s →
      a.checkedAdd b = .ok ((a.inner.checkedAdd b.inner).map (Duration.fromStd s)) →
      ∃ r, a.checkedAdd b = .ok r ∧
      (Representable (nanos a + nanos b) → ∃ d, r = some d ∧ d.WF ∧ nanos d = nanos a + nanos b) ∧
      (¬ Representable (nanos a + nanos b) → r = none) := by
    intro s h1 h2 h
    refine ⟨_, h, ?_⟩
    cases hc : a.inner.checkedAdd b.inner with
    | none =>
      have := hn hc
      refine ⟨fun h => ?_, fun _ => rfl⟩
      exfalso
      simp only [nanos_eq, h1, h2, Representable] at h
      cases s <;> simp at h <;> omega
    | some d =>
      obtain ⟨hd, he⟩ := hs d ha hb hc
      have hle := stdNanos_le d hd
      refine ⟨fun _ => ⟨_, rfl, hd, ?_⟩, fun h => ?_⟩
      · simp only [nanos_eq, h1, h2, Duration.fromStd]
        cases s <;> simp <;> omega
      · exfalso
        simp only [nanos_eq, h1, h2, Representable] at h
        cases s <;> simp at h <;> omega
  have key : ∀ x y : Int, compare x y = if x < y then Ordering.lt else if x = y then .eq else .gt := by
    intro x y; simp only [compare, compareOfLessAndEq]
  cases ha' : a.isNegative <;> cases hb' : b.isNegative
  · exact same false ha' hb' (by simp [Duration.checkedAdd, ha', hb'])
  all_goals first | exact same true ha' hb' (by simp [Duration.checkedAdd, ha', hb']) | skip
  all_goals
    have hr : Representable (nanos a + nanos b) := by
      simp only [nanos_eq, ha', hb', Representable]; simp; omega
    rcases Int.lt_trichotomy (stdNanos a.inner) (stdNanos b.inner) with h | h | h
    · have hc : a.inner.cmp b.inner = .lt := by rw [hcmp, key, if_pos h]
      obtain ⟨d, h1, h2, h3⟩ := hba (by omega)
      refine ⟨some ⟨b.isNegative, d⟩, ?_, fun _ => ⟨_, rfl, h2, ?_⟩, fun h => absurd hr h⟩
      · simp only [Duration.checkedAdd, ha', hb', hc, h1, Duration.fromStd]; rfl
      · simp only [nanos_eq, ha', hb']; simp; omega
    · have hc : a.inner.cmp b.inner = .eq := by rw [hcmp, key, if_neg (by omega), if_pos h]
      refine ⟨some Duration.ZERO, ?_, fun _ => ⟨_, rfl, by decide, ?_⟩, fun h => absurd hr h⟩
      · simp only [Duration.checkedAdd, ha', hb', hc]
      · have hz : nanos Duration.ZERO = 0 := by decide
        simp only [hz, nanos_eq a, nanos_eq b, ha', hb']; simp; omega
    · have hc : a.inner.cmp b.inner = .gt := by rw [hcmp, key, if_neg (by omega), if_neg (by omega)]
      obtain ⟨d, h1, h2, h3⟩ := hab (by omega)
      refine ⟨some ⟨a.isNegative, d⟩, ?_, fun _ => ⟨_, rfl, h2, ?_⟩, fun h => absurd hr h⟩
      · simp only [Duration.checkedAdd, ha', hb', hc, h1, Duration.fromStd]; rfl
      · simp only [nanos_eq, ha', hb']; simp; omega

/-- negation negates the signed length -/
theorem nanos_neg (d : Duration) : nanos d.neg = -nanos d := by
  simp only [nanos_eq, Duration.neg]; cases d.isNegative <;> simp

theorem neg_wf (d : Duration) (h : d.WF) : d.neg.WF := h

/-- C02: `checked_sub` never panics; it is exactly the difference if representable, else `None`. -/
theorem C02_checked_sub (a b : Duration) (ha : a.WF) (hb : b.WF) :
    ∃ r, a.checkedSub b = .ok r ∧
      (Representable (nanos a - nanos b) → ∃ d, r = some d ∧ d.WF ∧ nanos d = nanos a - nanos b) ∧
      (¬ Representable (nanos a - nanos b) → r = none) := by
  have := C02_checked_add a b.neg ha (neg_wf b hb)
  rw [nanos_neg, ← Int.sub_eq_add_neg] at this
  exact this

/-- C02: `saturating_add` never panics and is the nearest representable value to the sum. -/
theorem C02_saturating_add (a b : Duration) (ha : a.WF) (hb : b.WF) :
    ∃ d, a.saturatingAdd b = .ok d ∧ d.WF ∧ nanos d = clamp (nanos a + nanos b) := by
  obtain ⟨r, hr, h1, h2⟩ := C02_checked_add a b ha hb
  have ra := nanos_representable a ha
  have rb := nanos_representable b hb
  by_cases h : Representable (nanos a + nanos b)
  · obtain ⟨d, rfl, hd, he⟩ := h1 h
    refine ⟨d, by simp [Duration.saturatingAdd, hr]; rfl, hd, ?_⟩
    simp only [Representable, clamp] at *; omega
  · have := h2 h
    subst this
    have hmin : nanos Duration.MIN = -maxNanos := by decide
    have hmax : nanos Duration.MAX = maxNanos := by decide
    have a0 := stdNanos_nonneg a.inner
    cases hs : a.isNegative
    · clear h1 h2
      refine ⟨Duration.MAX, by simp [Duration.saturatingAdd, hr, hs]; rfl, by decide, ?_⟩
      have : nanos a = stdNanos a.inner := by simp [nanos_eq, hs]
      simp only [Representable, clamp, hmax] at *; omega
    · clear h1 h2
      refine ⟨Duration.MIN, by simp [Duration.saturatingAdd, hr, hs]; rfl, by decide, ?_⟩
      have : nanos a = -stdNanos a.inner := by simp [nanos_eq, hs]
      simp only [Representable, clamp, hmin] at *; omega

/-- C02: `saturating_sub` never panics and is the nearest representable value to the difference. -/
theorem C02_saturating_sub (a b : Duration) (ha : a.WF) (hb : b.WF) :
    ∃ d, a.saturatingSub b = .ok d ∧ d.WF ∧ nanos d = clamp (nanos a - nanos b) := by
  have := C02_saturating_add a b.neg ha (neg_wf b hb)
  rw [nanos_neg, ← Int.sub_eq_add_neg] at this
  exact this

/-- C02: `a + b` is exact, and panics exactly when the sum is not representable. -/
theorem C02_add (a b : Duration) (ha : a.WF) (hb : b.WF) :
    (Representable (nanos a + nanos b) →
      ∃ d, a.add b = .ok d ∧ d.WF ∧ nanos d = nanos a + nanos b) ∧
    (¬ Representable (nanos a + nanos b) → a.add b = .error .unwrap) := by
  obtain ⟨r, hr, h1, h2⟩ := C02_checked_add a b ha hb
  refine ⟨fun h => ?_, fun h => ?_⟩
  · obtain ⟨d, rfl, hd, he⟩ := h1 h
    exact ⟨d, by simp [Duration.add, hr, bind, Except.bind, unwrap], hd, he⟩
  · simp [Duration.add, hr, h2 h, bind, Except.bind, unwrap]

/-- C02: `a - b` is exact, and panics exactly when the difference is not representable. -/
theorem C02_sub (a b : Duration) (ha : a.WF) (hb : b.WF) :
    (Representable (nanos a - nanos b) →
      ∃ d, a.sub b = .ok d ∧ d.WF ∧ nanos d = nanos a - nanos b) ∧
    (¬ Representable (nanos a - nanos b) → a.sub b = .error .unwrap) := by
  have := C02_add a b.neg ha (neg_wf b hb)
  rw [nanos_neg, ← Int.sub_eq_add_neg] at this
  exact this

example : Duration.MAX.checkedAdd ⟨false, 0, 1⟩ = .ok none ∧
    (⟨true, 1, 999999999⟩ : Duration).add ⟨true, 2, 1⟩ = .ok ⟨true, 4, 0⟩ ∧
    Duration.MIN.saturatingSub ⟨false, 7, 0⟩ = .ok Duration.MIN ∧
    (⟨false, 3, 1⟩ : Duration).sub ⟨false, 5, 2⟩ = .ok ⟨true, 2, 1⟩ := by decide

/-! ## C03 -/

/-- C03: double negation is the identity; negation negates; `d + (-d)` is zero and never overflows. -/
theorem C03_neg (d : Duration) (h : d.WF) :
    d.neg.neg = d ∧ nanos d.neg = -nanos d ∧ d.neg.WF ∧
    ∃ z, d.add d.neg = .ok z ∧ nanos z = 0 := by
  refine ⟨by cases d; simp [Duration.neg], nanos_neg d, h, ?_⟩
  have := (C02_add d d.neg h h).1
  rw [nanos_neg] at this
  obtain ⟨z, h1, _, h2⟩ := this (by simp only [Representable, maxNanos]; omega)
  exact ⟨z, h1, by omega⟩

/-- C03: `abs` is the non-negative duration of the same magnitude. -/
theorem C03_abs (d : Duration) (h : d.WF) :
    nanos d.abs = |nanos d| ∧ d.abs.isNegative = false ∧ d.abs.WF := by
  have h0 := stdNanos_nonneg d.inner
  refine ⟨?_, rfl, h⟩
  have : nanos d.abs = stdNanos d.inner := by simp [nanos_eq, Duration.abs, Duration.fromStd]
  rw [this, nanos_eq]
  split
  · rw [abs_neg, abs_of_nonneg h0]
  · rw [abs_of_nonneg h0]

/-- C03: the range is symmetric. -/
theorem C03_min_max : Duration.MAX.neg = Duration.MIN ∧ Duration.MIN.neg = Duration.MAX ∧
    nanos Duration.MAX = maxNanos ∧ nanos Duration.MIN = -maxNanos := by decide

example : (⟨true, 3, 4⟩ : Duration).WF ∧ (⟨true, 3, 4⟩ : Duration).abs = ⟨false, 3, 4⟩ := by decide

end Fundu.Props
