import Verif.Model.Operators
import Verif.Props.Time
/-!
# Properties C01, C02: the comparison operators, `max`, `min`, `clamp`, `+=`, `-=`
-/
namespace Fundu.Props
open Fundu Fundu.Spec

theorem cmp_cases (a b : Duration) (ha : a.WF) (hb : b.WF) :
    (nanos a < nanos b ∧ a.cmp b = .lt) ∨ (nanos a = nanos b ∧ a.cmp b = .eq) ∨ (nanos b < nanos a ∧ a.cmp b = .gt) := by
  rw [C01_cmp a b ha hb]
  rcases lt_trichotomy (nanos a) (nanos b) with h | h | h
  · exact .inl ⟨h, compare_lt_iff_lt.mpr h⟩
  · exact .inr (.inl ⟨h, compare_eq_iff_eq.mpr h⟩)
  · exact .inr (.inr ⟨h, compare_gt_iff_gt.mpr h⟩)

/-- C01: the comparison operators compare the signed lengths, and any two durations can be compared. -/
theorem C01_operators (a b : Duration) (ha : a.WF) (hb : b.WF) :
    a.partialCmp b = some (compare (nanos a) (nanos b)) ∧
    (a.lt b = true ↔ nanos a < nanos b) ∧ (a.le b = true ↔ nanos a ≤ nanos b) ∧
    (a.gt b = true ↔ nanos b < nanos a) ∧ (a.ge b = true ↔ nanos b ≤ nanos a) := by
  refine ⟨by rw [Duration.partialCmp, C01_cmp a b ha hb], ?_⟩
  rcases cmp_cases a b ha hb with ⟨h, e⟩ | ⟨h, e⟩ | ⟨h, e⟩ <;>
    simp [Duration.lt, Duration.le, Duration.gt, Duration.ge, Duration.partialCmp, e] <;> omega

/-- C01: `max` and `min` return the longer and the shorter one of their arguments, `clamp` the nearest duration in the interval; it panics
exactly if the interval is empty. -/
theorem C01_max_min_clamp (a b c : Duration) (ha : a.WF) (hb : b.WF) (hc : c.WF) :
    ((a.maximum b = a ∨ a.maximum b = b) ∧ nanos (a.maximum b) = max (nanos a) (nanos b)) ∧
    ((a.minimum b = a ∨ a.minimum b = b) ∧ nanos (a.minimum b) = min (nanos a) (nanos b)) ∧
    (nanos b ≤ nanos c → ∃ d, a.clampTo b c = .ok d ∧ d.WF ∧ nanos d = max (nanos b) (min (nanos c) (nanos a))) ∧
    (nanos c < nanos b → a.clampTo b c = .error .assert) := by
  obtain ⟨_, k1, _, _, _⟩ := C01_operators a b ha hb
  obtain ⟨_, _, k2, _, _⟩ := C01_operators b c hb hc
  obtain ⟨_, _, _, k3, _⟩ := C01_operators a c ha hc
  refine ⟨?_, ?_, ?_, ?_⟩
  · rcases cmp_cases a b ha hb with ⟨h, e⟩ | ⟨h, e⟩ | ⟨h, e⟩ <;> simp [Duration.maximum, e] <;> omega
  · rcases cmp_cases a b ha hb with ⟨h, e⟩ | ⟨h, e⟩ | ⟨h, e⟩ <;> simp [Duration.minimum, e] <;> omega
  · intro h
    unfold Duration.clampTo
    rw [k2.mpr h]
    simp only [Bool.not_true, Bool.false_eq_true, if_false]
    by_cases h1 : nanos a < nanos b
    · rw [if_pos (k1.mpr h1)]; exact ⟨b, rfl, hb, by omega⟩
    · rw [if_neg (fun h' => h1 (k1.mp h'))]
      by_cases h2 : nanos c < nanos a
      · rw [if_pos (k3.mpr h2)]; exact ⟨c, rfl, hc, by omega⟩
      · rw [if_neg (fun h' => h2 (k3.mp h'))]; exact ⟨a, rfl, ha, by omega⟩
  · intro h
    have : b.le c = false := by
      cases e : b.le c with
      | false => rfl
      | true => have := k2.mp e; omega
    simp [Duration.clampTo, this]

/-- C02: `+=` and `-=` leave the exact sum or difference, and panic exactly if it is not representable. -/
theorem C02_assign (a b : Duration) (ha : a.WF) (hb : b.WF) :
    (Representable (nanos a + nanos b) → ∃ d, a.addAssign b = .ok d ∧ d.WF ∧ nanos d = nanos a + nanos b) ∧
    (¬ Representable (nanos a + nanos b) → a.addAssign b = .error .unwrap) ∧
    (Representable (nanos a - nanos b) → ∃ d, a.subAssign b = .ok d ∧ d.WF ∧ nanos d = nanos a - nanos b) ∧
    (¬ Representable (nanos a - nanos b) → a.subAssign b = .error .unwrap) :=
  ⟨(C02_add a b ha hb).1, (C02_add a b ha hb).2, (C02_sub a b ha hb).1, (C02_sub a b ha hb).2⟩

example : (⟨true, 0, 0⟩ : Duration).ge Duration.ZERO = true ∧ (⟨true, 2, 0⟩ : Duration).lt ⟨true, 1, 999999999⟩ = true ∧
    (⟨true, 3, 5⟩ : Duration).clampTo ⟨true, 1, 0⟩ ⟨false, 1, 0⟩ = .ok ⟨true, 1, 0⟩ ∧
    Duration.ZERO.clampTo ⟨false, 1, 0⟩ ⟨true, 1, 0⟩ = .error .assert ∧
    (⟨true, 3, 5⟩ : Duration).addAssign ⟨false, 1, 6⟩ = .ok ⟨true, 1, 999999999⟩ := by decide

theorem nanos_negative {d : Duration} (h : nanos d < 0) : d.isNegative = true := by
  cases hn : d.isNegative with
  | true => rfl
  | false => unfold nanos at h; rw [hn] at h; simp only [Bool.false_eq_true, if_false] at h; omega

theorem negative_nanos {d : Duration} (h : d.isNegative = true) : nanos d ≤ 0 := by
  unfold nanos; rw [h]; simp only [if_true]; omega

theorem positive_nanos {d : Duration} (h : d.isNegative = false) : 0 ≤ nanos d := by
  unfold nanos; rw [h]; simp only [Bool.false_eq_true, if_false]; omega

/-- C02: `is_negative` of a sum: it is below zero, or it is zero and both operands are marked as negative. -/
theorem C02_sign (a b d : Duration) (ha : a.WF) (hb : b.WF) (h : a.checkedAdd b = .ok (some d)) :
    d.isNegative = true ↔ nanos d < 0 ∨ (a.isNegative = true ∧ b.isNegative = true) := by
  obtain ⟨r, h1, h2, h3⟩ := C02_checked_add a b ha hb
  rw [h] at h1
  cases h1
  have hsum : nanos d = nanos a + nanos b := by
    by_cases hr : Representable (nanos a + nanos b)
    · obtain ⟨d', e, -, e'⟩ := h2 hr
      cases e
      exact e'
    · cases h3 hr
  constructor
  · intro hd
    by_cases h0 : nanos d < 0
    · exact Or.inl h0
    · have hz : nanos a + nanos b = 0 := by have := negative_nanos hd; omega
      right
      obtain ⟨na, ⟨sa, ka⟩⟩ := a
      obtain ⟨nb, ⟨sb, kb⟩⟩ := b
      have wa : ka < 1000000000 := ha.2
      have wb : kb < 1000000000 := hb.2
      unfold nanos at hz
      dsimp only at hz
      have hc : na ≠ nb → StdDuration.cmp ⟨sa, ka⟩ ⟨sb, kb⟩ = .eq := by
        intro hne
        have : sa = sb ∧ ka = kb := by
          cases na <;> cases nb <;> simp only [Bool.false_eq_true, if_true, if_false] at hz
          · exact absurd rfl hne
          · omega
          · omega
          · exact absurd rfl hne
        obtain ⟨rfl, rfl⟩ := this
        unfold StdDuration.cmp
        simp
      unfold Duration.checkedAdd at h
      cases na <;> cases nb
      · exfalso
        dsimp only at h
        obtain ⟨x, hx⟩ : ∃ x, (StdDuration.checkedAdd ⟨sa, ka⟩ ⟨sb, kb⟩).map (Duration.fromStd false) = some x := ⟨d, Except.ok.inj h⟩
        rw [hx] at h
        cases h
        obtain ⟨y, -, rfl⟩ := Option.map_eq_some_iff.1 hx
        cases hd
      · rw [hc (by decide)] at h
        cases h
        cases hd
      · rw [hc (by decide)] at h
        cases h
        cases hd
      · exact ⟨rfl, rfl⟩
  · rintro (h0 | ⟨h1, h2⟩)
    · exact nanos_negative h0
    · unfold Duration.checkedAdd at h
      rw [h1, h2] at h
      dsimp only at h
      have hx := Except.ok.inj h
      obtain ⟨y, -, rfl⟩ := Option.map_eq_some_iff.1 hx
      rfl

/-- C02: the same for differences, where the second operand counts with the opposite mark; `+` and `-` return these durations. -/
theorem C02_sign_sub (a b d : Duration) (ha : a.WF) (hb : b.WF) :
    (a.checkedSub b = .ok (some d) → (d.isNegative = true ↔ nanos d < 0 ∨ (a.isNegative = true ∧ b.isNegative = false))) ∧
    (a.add b = .ok d ↔ a.checkedAdd b = .ok (some d)) ∧ (a.sub b = .ok d ↔ a.checkedSub b = .ok (some d)) := by
  have hop : ∀ r : Except Panic (Option Duration), ((do unwrap (← r) : Except Panic Duration) = .ok d) ↔ r = .ok (some d) := by
    intro r
    cases r with
    | error e => constructor <;> (intro h; cases h)
    | ok o =>
      cases o with
      | none => constructor <;> (intro h; cases h)
      | some x => constructor <;> (intro h; cases h; rfl)
  refine ⟨fun h => ?_, hop _, hop _⟩
  have := C02_sign a b.neg d ha (show b.neg.WF from (C03_neg b hb).2.2.1) h
  rw [this]
  have : (b.neg.isNegative = true) ↔ b.isNegative = false := by
    unfold Duration.neg
    simp
  rw [this]

example : (⟨true, 0, 0⟩ : Duration).checkedAdd ⟨true, 0, 0⟩ = .ok (some ⟨true, 0, 0⟩) ∧
    (⟨true, 2, 0⟩ : Duration).checkedAdd ⟨false, 2, 0⟩ = .ok (some ⟨false, 0, 0⟩) ∧
    (⟨true, 0, 0⟩ : Duration).checkedSub ⟨false, 0, 0⟩ = .ok (some ⟨true, 0, 0⟩) := by decide

end Fundu.Props
