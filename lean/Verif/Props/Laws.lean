import Verif.Props.Operators
import Verif.Props.Conversion
import Verif.Props.ExactResults
/-!
# Property C112: the laws of calculating with durations

Durations are calculated with as with numbers: sums do not depend on the order, what was added can be
subtracted again, equal durations give equal results, and the order is kept by sums and conversions.
-/
namespace Fundu.Props
open Fundu Fundu.Spec

/-- a duration is its length and its mark -/
theorem duration_same {d d' : Duration} (h : d.WF) (h' : d'.WF) (hn : nanos d = nanos d') (hs : d.isNegative = d'.isNegative) :
    d = d' := by
  obtain ⟨s, a, n⟩ := d
  obtain ⟨s', a', n'⟩ := d'
  simp only at hs
  subst hs
  have h1 : n < 1000000000 := h.2
  have h2 : n' < 1000000000 := h'.2
  have key : a = a' ∧ n = n' := by
    unfold nanos at hn
    cases s
    · simp only [Bool.false_eq_true, if_false, stdNanos] at hn
      omega
    · simp only [if_true, stdNanos] at hn
      omega
  rw [key.1, key.2]

/-- the result of `checked_add` in one line -/
theorem checkedAdd_some {a b d : Duration} (ha : a.WF) (hb : b.WF) (h : a.checkedAdd b = .ok (some d)) :
    d.WF ∧ nanos d = nanos a + nanos b ∧ Representable (nanos a + nanos b) := by
  obtain ⟨r, e, y, n⟩ := C02_checked_add a b ha hb
  have er : r = some d := by
    rw [h] at e
    injection e with e
    exact e.symm
  by_cases hr : Representable (nanos a + nanos b)
  · obtain ⟨d', e', w, v⟩ := y hr
    rw [er] at e'
    injection e' with e'
    subst e'
    exact ⟨w, v, hr⟩
  · rw [n hr] at er
    cases er

theorem checkedSub_some {a b d : Duration} (ha : a.WF) (hb : b.WF) (h : a.checkedSub b = .ok (some d)) :
    d.WF ∧ nanos d = nanos a - nanos b ∧ Representable (nanos a - nanos b) := by
  obtain ⟨r, e, y, n⟩ := C02_checked_sub a b ha hb
  have er : r = some d := by
    rw [h] at e
    injection e with e
    exact e.symm
  by_cases hr : Representable (nanos a - nanos b)
  · obtain ⟨d', e', w, v⟩ := y hr
    rw [er] at e'
    injection e' with e'
    subst e'
    exact ⟨w, v, hr⟩
  · rw [n hr] at er
    cases er

theorem checkedAdd_exists {a b : Duration} (ha : a.WF) (hb : b.WF) (h : Representable (nanos a + nanos b)) :
    ∃ d, a.checkedAdd b = .ok (some d) := by
  obtain ⟨r, e, y, -⟩ := C02_checked_add a b ha hb
  obtain ⟨d, e', -, -⟩ := y h
  exact ⟨d, by rw [e, e']⟩

theorem checkedAdd_none {a b : Duration} (ha : a.WF) (hb : b.WF) (h : ¬ Representable (nanos a + nanos b)) :
    a.checkedAdd b = .ok none := by
  obtain ⟨r, e, -, n⟩ := C02_checked_add a b ha hb
  rw [e, n h]

theorem checkedSub_exists {a b : Duration} (ha : a.WF) (hb : b.WF) (h : Representable (nanos a - nanos b)) :
    ∃ d, a.checkedSub b = .ok (some d) := by
  obtain ⟨r, e, y, -⟩ := C02_checked_sub a b ha hb
  obtain ⟨d, e', -, -⟩ := y h
  exact ⟨d, by rw [e, e']⟩

theorem checkedSub_none {a b : Duration} (ha : a.WF) (hb : b.WF) (h : ¬ Representable (nanos a - nanos b)) :
    a.checkedSub b = .ok none := by
  obtain ⟨r, e, -, n⟩ := C02_checked_sub a b ha hb
  rw [e, n h]

/-- C112: `a + b` and `b + a` are the same value (also whether a zero is marked as negative), or both overflow. -/
theorem C112_commutative (a b : Duration) (ha : a.WF) (hb : b.WF) :
    a.checkedAdd b = b.checkedAdd a ∧ a.add b = b.add a := by
  have key : a.checkedAdd b = b.checkedAdd a := by
    by_cases hr : Representable (nanos a + nanos b)
    · have hr' : Representable (nanos b + nanos a) := by rw [Int.add_comm]; exact hr
      obtain ⟨d, e⟩ := checkedAdd_exists ha hb hr
      obtain ⟨d', e'⟩ := checkedAdd_exists hb ha hr'
      obtain ⟨w, v, -⟩ := checkedAdd_some ha hb e
      obtain ⟨w', v', -⟩ := checkedAdd_some hb ha e'
      have vv : nanos d = nanos d' := by rw [v, v', Int.add_comm]
      have ss : d.isNegative = d'.isNegative := by
        rw [Bool.eq_iff_iff, C02_sign a b d ha hb e, C02_sign b a d' hb ha e', vv]
        exact or_congr Iff.rfl ⟨fun h => ⟨h.2, h.1⟩, fun h => ⟨h.2, h.1⟩⟩
      rw [e, e', duration_same w w' vv ss]
    · have hr' : ¬ Representable (nanos b + nanos a) := by rw [Int.add_comm]; exact hr
      rw [checkedAdd_none ha hb hr, checkedAdd_none hb ha hr']
  exact ⟨key, by unfold Duration.add; rw [key]⟩

/-- C112: if `a + b` and `b + c` can be calculated, `(a + b) + c` and `a + (b + c)` are the same value, or both overflow. -/
theorem C112_associative (a b c x y : Duration) (ha : a.WF) (hb : b.WF) (hc : c.WF)
    (hx : a.checkedAdd b = .ok (some x)) (hy : b.checkedAdd c = .ok (some y)) : x.checkedAdd c = a.checkedAdd y := by
  obtain ⟨wx, vx, -⟩ := checkedAdd_some ha hb hx
  obtain ⟨wy, vy, -⟩ := checkedAdd_some hb hc hy
  have hv : nanos x + nanos c = nanos a + nanos y := by omega
  by_cases hr : Representable (nanos x + nanos c)
  · obtain ⟨d, e⟩ := checkedAdd_exists wx hc hr
    obtain ⟨d', e'⟩ := checkedAdd_exists ha wy (hv ▸ hr)
    obtain ⟨w, v, -⟩ := checkedAdd_some wx hc e
    obtain ⟨w', v', -⟩ := checkedAdd_some ha wy e'
    have vv : nanos d = nanos d' := by omega
    have ss : d.isNegative = d'.isNegative := by
      rw [Bool.eq_iff_iff, C02_sign x c d wx hc e, C02_sign a y d' ha wy e', vv, C02_sign a b x ha hb hx,
        C02_sign b c y hb hc hy]
      have na : ∀ {z : Duration}, z.isNegative = true → nanos z ≤ 0 := fun {z} h => by
        unfold nanos
        rw [if_pos h]
        omega
      constructor
      · rintro (h | ⟨h | h, h3⟩)
        · exact Or.inl h
        · have := na h3
          exact Or.inl (by omega)
        · exact Or.inr ⟨h.1, Or.inr ⟨h.2, h3⟩⟩
      · rintro (h | ⟨h1, h | h⟩)
        · exact Or.inl h
        · have := na h1
          exact Or.inl (by omega)
        · exact Or.inr ⟨Or.inr ⟨h1, h.1⟩, h.2⟩
    rw [e, e', duration_same w w' vv ss]
  · rw [checkedAdd_none wx hc hr, checkedAdd_none ha wy (hv ▸ hr)]

/-- C112: what was added can be subtracted again, what was subtracted can be added again. -/
theorem C112_inverse (a b x : Duration) (ha : a.WF) (hb : b.WF) :
    (a.checkedAdd b = .ok (some x) → ∃ d, x.checkedSub b = .ok (some d) ∧ d.eq a = true) ∧
    (a.checkedSub b = .ok (some x) → ∃ d, x.checkedAdd b = .ok (some d) ∧ d.eq a = true) := by
  constructor
  · intro h
    obtain ⟨w, v, -⟩ := checkedAdd_some ha hb h
    have hv : nanos x - nanos b = nanos a := by omega
    obtain ⟨d, e⟩ := checkedSub_exists w hb (hv ▸ nanos_representable a ha)
    obtain ⟨wd, vd, -⟩ := checkedSub_some w hb e
    exact ⟨d, e, (C01_eq_iff d a wd ha).2 (by omega)⟩
  · intro h
    obtain ⟨w, v, -⟩ := checkedSub_some ha hb h
    have hv : nanos x + nanos b = nanos a := by omega
    obtain ⟨d, e⟩ := checkedAdd_exists w hb (hv ▸ nanos_representable a ha)
    obtain ⟨wd, vd, -⟩ := checkedAdd_some w hb e
    exact ⟨d, e, (C01_eq_iff d a wd ha).2 (by omega)⟩

/-- C112: `a - b` is `a + (-b)`, the same value; and `b - a` is `-(a - b)`, they overflow together. -/
theorem C112_subtraction (a b : Duration) (ha : a.WF) (hb : b.WF) :
    a.checkedSub b = a.checkedAdd b.neg ∧ (a.checkedSub b = .ok none ↔ b.checkedSub a = .ok none) ∧
    ∀ x y, a.checkedSub b = .ok (some x) → b.checkedSub a = .ok (some y) → y.eq x.neg = true := by
  have wn := (C03_neg b hb).2.2.1
  refine ⟨?_, ?_, ?_⟩
  · by_cases hr : Representable (nanos a - nanos b)
    · have hr' : Representable (nanos a + nanos b.neg) := by
        rw [nanos_neg, ← Int.sub_eq_add_neg]
        exact hr
      obtain ⟨d, e⟩ := checkedSub_exists ha hb hr
      obtain ⟨d', e'⟩ := checkedAdd_exists ha wn hr'
      obtain ⟨w, v, -⟩ := checkedSub_some ha hb e
      obtain ⟨w', v', -⟩ := checkedAdd_some ha wn e'
      have vv : nanos d = nanos d' := by
        rw [v, v', nanos_neg]
        omega
      have ss : d.isNegative = d'.isNegative := by
        rw [Bool.eq_iff_iff, (C02_sign_sub a b d ha hb).1 e, C02_sign a b.neg d' ha wn e', vv]
        have : b.neg.isNegative = true ↔ b.isNegative = false := by
          unfold Duration.neg
          cases b.isNegative <;> simp
        rw [this]
      rw [e, e', duration_same w w' vv ss]
    · have hr' : ¬ Representable (nanos a + nanos b.neg) := by
        rw [nanos_neg, ← Int.sub_eq_add_neg]
        exact hr
      rw [checkedSub_none ha hb hr, checkedAdd_none ha wn hr']
  · have sym : Representable (nanos a - nanos b) ↔ Representable (nanos b - nanos a) := by
      unfold Representable
      omega
    have one : ∀ {a b : Duration}, a.WF → b.WF → (a.checkedSub b = .ok none ↔ ¬ Representable (nanos a - nanos b)) := by
      intro a b ha hb
      constructor
      · intro h hr
        obtain ⟨d, e⟩ := checkedSub_exists ha hb hr
        rw [h] at e
        cases e
      · exact checkedSub_none ha hb
    rw [one ha hb, one hb ha, sym]
  · intro x y hx hy
    obtain ⟨wx, vx, -⟩ := checkedSub_some ha hb hx
    obtain ⟨wy, vy, -⟩ := checkedSub_some hb ha hy
    refine (C01_eq_iff y x.neg wy (C03_neg x wx).2.2.1).2 ?_
    rw [nanos_neg]
    omega

/-- C112: the negation of a sum is the sum of the negations: `checked_add` of the negated durations gives the negation of
`checked_add` (compared with `==`) or overflows with it, and the saturating sum likewise. -/
theorem C112_negation (a b : Duration) (ha : a.WF) (hb : b.WF) :
    (a.checkedAdd b = .ok none ↔ a.neg.checkedAdd b.neg = .ok none) ∧
    (∀ x y, a.checkedAdd b = .ok (some x) → a.neg.checkedAdd b.neg = .ok (some y) → y.eq x.neg = true) ∧
    ∀ x y, a.saturatingAdd b = .ok x → a.neg.saturatingAdd b.neg = .ok y → y.eq x.neg = true := by
  have wa := (C03_neg a ha).2.2.1
  have wb := (C03_neg b hb).2.2.1
  have sym : Representable (nanos a + nanos b) ↔ Representable (nanos a.neg + nanos b.neg) := by
    rw [nanos_neg, nanos_neg]
    unfold Representable
    omega
  have one : ∀ {a b : Duration}, a.WF → b.WF → (a.checkedAdd b = .ok none ↔ ¬ Representable (nanos a + nanos b)) := by
    intro a b ha hb
    constructor
    · intro h hr
      obtain ⟨d, e⟩ := checkedAdd_exists ha hb hr
      rw [h] at e
      cases e
    · exact checkedAdd_none ha hb
  refine ⟨by rw [one ha hb, one wa wb, sym], ?_, ?_⟩
  · intro x y hx hy
    obtain ⟨wx, vx, -⟩ := checkedAdd_some ha hb hx
    obtain ⟨wy, vy, -⟩ := checkedAdd_some wa wb hy
    refine (C01_eq_iff y x.neg wy (C03_neg x wx).2.2.1).2 ?_
    rw [nanos_neg] at vy ⊢
    rw [nanos_neg] at vy
    omega
  · intro x y hx hy
    obtain ⟨x', ex, wx, vx⟩ := C02_saturating_add a b ha hb
    obtain ⟨y', ey, wy, vy⟩ := C02_saturating_add a.neg b.neg wa wb
    rw [hx] at ex
    rw [hy] at ey
    injection ex with ex
    injection ey with ey
    subst ex
    subst ey
    refine (C01_eq_iff y x.neg wy (C03_neg x wx).2.2.1).2 ?_
    rw [nanos_neg] at vy ⊢
    rw [nanos_neg] at vy
    unfold clamp at vx vy
    have : (0 : Int) ≤ maxNanos := by decide
    omega

/-- C112: sums keep the order: with `a ≤ b` and `c ≤ d` the sum of `a` and `c` is at most the sum of `b` and `d`, where
both can be calculated, and always for the saturating sum. -/
theorem C112_monotone (a b c d : Duration) (ha : a.WF) (hb : b.WF) (hc : c.WF) (hd : d.WF) (hab : a.le b = true) (hcd : c.le d = true) :
    (∀ x y, a.checkedAdd c = .ok (some x) → b.checkedAdd d = .ok (some y) → x.le y = true) ∧
    (∀ x y, a.saturatingAdd c = .ok x → b.saturatingAdd d = .ok y → x.le y = true) ∧
    (∀ x y, a.checkedSub d = .ok (some x) → b.checkedSub c = .ok (some y) → x.le y = true) ∧
    ∀ x y, a.saturatingSub d = .ok x → b.saturatingSub c = .ok y → x.le y = true := by
  have h1 := (C01_operators a b ha hb).2.2.1.1 hab
  have h2 := (C01_operators c d hc hd).2.2.1.1 hcd
  refine ⟨?_, ?_, ?_, ?_⟩
  · intro x y hx hy
    obtain ⟨wx, vx, -⟩ := checkedAdd_some ha hc hx
    obtain ⟨wy, vy, -⟩ := checkedAdd_some hb hd hy
    exact (C01_operators x y wx wy).2.2.1.2 (by omega)
  · intro x y hx hy
    obtain ⟨x', ex, wx, vx⟩ := C02_saturating_add a c ha hc
    obtain ⟨y', ey, wy, vy⟩ := C02_saturating_add b d hb hd
    rw [hx] at ex
    rw [hy] at ey
    injection ex with ex
    injection ey with ey
    subst ex
    subst ey
    refine (C01_operators x y wx wy).2.2.1.2 ?_
    unfold clamp at vx vy
    omega
  · intro x y hx hy
    obtain ⟨wx, vx, -⟩ := checkedSub_some ha hd hx
    obtain ⟨wy, vy, -⟩ := checkedSub_some hb hc hy
    exact (C01_operators x y wx wy).2.2.1.2 (by omega)
  · intro x y hx hy
    obtain ⟨x', ex, wx, vx⟩ := C02_saturating_sub a d ha hd
    obtain ⟨y', ey, wy, vy⟩ := C02_saturating_sub b c hb hc
    rw [hx] at ex
    rw [hy] at ey
    injection ex with ex
    injection ey with ey
    subst ex
    subst ey
    refine (C01_operators x y wx wy).2.2.1.2 ?_
    unfold clamp at vx vy
    omega

/-- C112: where the checked sum exists, the saturating sum and `+` are equal to it. -/
theorem C112_saturating (a b x : Duration) (ha : a.WF) (hb : b.WF) :
    (a.checkedAdd b = .ok (some x) → a.add b = .ok x ∧ ∃ y, a.saturatingAdd b = .ok y ∧ y.eq x = true) ∧
    (a.checkedSub b = .ok (some x) → a.sub b = .ok x ∧ ∃ y, a.saturatingSub b = .ok y ∧ y.eq x = true) := by
  constructor
  · intro h
    obtain ⟨w, v, r⟩ := checkedAdd_some ha hb h
    obtain ⟨y, e, wy, vy⟩ := C02_saturating_add a b ha hb
    refine ⟨(C02_sign_sub a b x ha hb).2.1.2 h, y, e, (C01_eq_iff y x wy w).2 ?_⟩
    rw [vy, v]
    unfold clamp
    unfold Representable at r
    omega
  · intro h
    obtain ⟨w, v, r⟩ := checkedSub_some ha hb h
    obtain ⟨y, e, wy, vy⟩ := C02_saturating_sub a b ha hb
    refine ⟨(C02_sign_sub a b x ha hb).2.2.2 h, y, e, (C01_eq_iff y x wy w).2 ?_⟩
    rw [vy, v]
    unfold clamp
    unfold Representable at r
    omega

/-- C112: the saturating sum is not associative, and `checked_add` may overflow on one way only. -/
theorem C112_limits : ∃ a b c : Duration, a.WF ∧ b.WF ∧ c.WF ∧
    (∃ x y z w, a.saturatingAdd b = .ok x ∧ x.saturatingAdd c = .ok y ∧ b.saturatingAdd c = .ok z ∧
      a.saturatingAdd z = .ok w ∧ y.eq w = false) ∧
    a.checkedAdd b = .ok none ∧ ∃ z w, b.checkedAdd c = .ok (some z) ∧ a.checkedAdd z = .ok (some w) := by
  refine ⟨Duration.MAX, ⟨false, ⟨1, 0⟩⟩, ⟨true, ⟨1, 0⟩⟩, by decide, by decide, by decide, ?_, by decide, ?_⟩
  · exact ⟨Duration.MAX, ⟨false, ⟨18446744073709551614, 999999999⟩⟩, ⟨false, ⟨0, 0⟩⟩, Duration.MAX, by decide, by decide,
      by decide, by decide, by decide⟩
  · exact ⟨⟨false, ⟨0, 0⟩⟩, Duration.MAX, by decide, by decide⟩

example : (⟨true, ⟨1, 5⟩⟩ : Duration).checkedAdd ⟨false, ⟨3, 0⟩⟩ = .ok (some ⟨false, ⟨1, 999999995⟩⟩) ∧
    (⟨false, ⟨1, 999999995⟩⟩ : Duration).checkedSub ⟨false, ⟨3, 0⟩⟩ = .ok (some ⟨true, ⟨1, 5⟩⟩) ∧
    (⟨true, ⟨1, 5⟩⟩ : Duration).le ⟨false, ⟨3, 0⟩⟩ = true := by decide

/-- C112: conversions keep the order: the saturating ones keep `≤`, the exact ones keep `<` and `=` in both directions. -/
theorem C112_conversions (a b : Duration) (ha : a.WF) (hb : b.WF) :
    (a.le b = true →
      (∀ x y, a.saturatingToStd = .ok x → b.saturatingToStd = .ok y → stdNanos x ≤ stdNanos y) ∧
      (∀ x y, a.saturatingToTime = .ok x → b.saturatingToTime = .ok y → timeNanos x ≤ timeNanos y) ∧
      ∀ x y, a.saturatingToChrono = .ok x → b.saturatingToChrono = .ok y → chronoNanos x ≤ chronoNanos y) ∧
    (∀ x y, a.toStd = .ok x → b.toStd = .ok y → a.cmp b = compare (stdNanos x) (stdNanos y)) ∧
    (∀ x y, a.toTime = .ok (.ok x) → b.toTime = .ok (.ok y) → a.cmp b = compare (timeNanos x) (timeNanos y)) ∧
    ∀ x y, a.toChrono = .ok (.ok x) → b.toChrono = .ok (.ok y) → a.cmp b = compare (chronoNanos x) (chronoNanos y) := by
  have std : ∀ {d : Duration} {x}, d.WF → d.toStd = .ok x → stdNanos x = nanos d := by
    intro d x h e
    rcases Int.lt_or_le (nanos d) 0 with g | g
    · rw [(C07_to_std d h).2 g] at e
      cases e
    · obtain ⟨s, e', -, v⟩ := (C07_to_std d h).1 g
      exact (congrArg stdNanos (Except.ok.inj (e.symm.trans e'))).trans v
  have time : ∀ {d : Duration} {x}, d.WF → d.toTime = .ok (.ok x) → timeNanos x = nanos d := by
    intro d x h e
    obtain ⟨r, er, f, lo, hi⟩ := C08_to_time d h
    rw [e] at er
    injection er with er
    by_cases g1 : nanos d < timeNanos TimeDuration.MIN
    · rw [lo g1] at er
      cases er
    · by_cases g2 : timeNanos TimeDuration.MAX < nanos d
      · rw [hi g2] at er
        cases er
      · have g : FitsTime (nanos d) := by
          rw [C08_range]
          have m1 : timeNanos TimeDuration.MIN = -(2 ^ 63 * 10 ^ 9 + 999999999) := by decide
          have m2 : timeNanos TimeDuration.MAX = (2 ^ 63 - 1) * 10 ^ 9 + 999999999 := by decide
          rw [m1] at g1
          rw [m2] at g2
          omega
        obtain ⟨t, et, -, v⟩ := f g
        rw [← er] at et
        injection et with et
        rw [et, v]
  have chrono : ∀ {d : Duration} {x}, d.WF → d.toChrono = .ok (.ok x) → chronoNanos x = nanos d := by
    intro d x h e
    obtain ⟨r, er, f, lo, hi⟩ := C09_to_chrono d h
    rw [e] at er
    injection er with er
    by_cases g1 : nanos d < chronoNanos ChronoDuration.MIN
    · rw [lo g1] at er
      cases er
    · by_cases g2 : chronoNanos ChronoDuration.MAX < nanos d
      · rw [hi g2] at er
        cases er
      · obtain ⟨t, et, -, v⟩ := f ⟨by omega, by omega⟩
        rw [← er] at et
        injection et with et
        rw [et, v]
  refine ⟨?_, ?_, ?_, ?_⟩
  · intro h
    have hn := (C01_operators a b ha hb).2.2.1.1 h
    refine ⟨?_, ?_, ?_⟩
    · intro x y hx hy
      obtain ⟨x', ex, -, vx⟩ := C07_saturating_to_std a ha
      obtain ⟨y', ey, -, vy⟩ := C07_saturating_to_std b hb
      rw [hx] at ex
      rw [hy] at ey
      injection ex with ex
      injection ey with ey
      rw [ex, ey, vx, vy]
      omega
    · intro x y hx hy
      obtain ⟨x', ex, -, vx⟩ := C08_saturating_to_time a ha
      obtain ⟨y', ey, -, vy⟩ := C08_saturating_to_time b hb
      rw [hx] at ex
      rw [hy] at ey
      injection ex with ex
      injection ey with ey
      subst ex
      subst ey
      exact vx.trans_le ((max_le_max le_rfl (min_le_min le_rfl hn)).trans_eq vy.symm)
    · intro x y hx hy
      obtain ⟨x', ex, -, vx⟩ := C09_saturating_to_chrono a ha
      obtain ⟨y', ey, -, vy⟩ := C09_saturating_to_chrono b hb
      rw [hx] at ex
      rw [hy] at ey
      injection ex with ex
      injection ey with ey
      subst ex
      subst ey
      exact vx.trans_le ((max_le_max le_rfl (min_le_min le_rfl hn)).trans_eq vy.symm)
  · intro x y hx hy
    rw [C01_cmp a b ha hb, std ha hx, std hb hy]
  · intro x y hx hy
    rw [C01_cmp a b ha hb, time ha hx, time hb hy]
  · intro x y hx hy
    rw [C01_cmp a b ha hb, chrono ha hx, chrono hb hy]

end Fundu.Props
