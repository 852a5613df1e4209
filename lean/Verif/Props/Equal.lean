import Verif.Props.Laws
import Verif.Props.Display
import Verif.Props.DateTime
/-!
# Property C113: equal durations are interchangeable

`-0 == 0` although `is_negative` tells them apart. Nothing else does: equal durations print the same text, convert to the
same values, and calculating with them gives equal results.
-/
namespace Fundu.Props
open Fundu Fundu.Spec

/-- C113: two durations are equal iff they are the same value, or both are zero (marked as negative or not). -/
theorem C113_which (a b : Duration) (ha : a.WF) (hb : b.WF) :
    a.eq b = true ↔ a = b ∨ (a.isZero = true ∧ b.isZero = true) := by
  rw [C01_eq_iff a b ha hb]
  have zero : ∀ d : Duration, d.isZero = true ↔ nanos d = 0 := by
    intro d
    unfold Duration.isZero StdDuration.isZero nanos
    rw [Bool.and_eq_true, decide_eq_true_eq, decide_eq_true_eq]
    split <;> omega
  constructor
  · intro h
    by_cases hz : nanos a = 0
    · exact Or.inr ⟨(zero a).2 hz, (zero b).2 (by omega)⟩
    · refine Or.inl (duration_same ha hb h ?_)
      rcases ea : a.isNegative with _ | _ <;> rcases eb : b.isNegative with _ | _
      · rfl
      · unfold nanos at h hz
        rw [ea, eb] at h
        rw [ea] at hz
        simp only [Bool.false_eq_true, if_false, if_true] at h hz
        omega
      · unfold nanos at h hz
        rw [ea, eb] at h
        rw [ea] at hz
        simp only [Bool.false_eq_true, if_false, if_true] at h hz
        omega
      · rfl
  · rintro (h | ⟨h1, h2⟩)
    · rw [h]
    · rw [(zero a).1 h1, (zero b).1 h2]

/-- a duration which is zero is one of two values -/
theorem zero_values {d : Duration} (h : d.isZero = true) : d = ⟨false, ⟨0, 0⟩⟩ ∨ d = ⟨true, ⟨0, 0⟩⟩ := by
  obtain ⟨s, a, n⟩ := d
  have h' : a = 0 ∧ n = 0 := by
    have h'' : (decide (a = 0) && decide (n = 0)) = true := h
    rw [Bool.and_eq_true, decide_eq_true_eq, decide_eq_true_eq] at h''
    exact h''
  rw [h'.1, h'.2]
  cases s
  · exact Or.inl rfl
  · exact Or.inr rfl

/-- what holds of the two zeros holds of equal durations -/
theorem equal_of_zeros {β : Type} (f : Duration → β) (hf : f ⟨false, ⟨0, 0⟩⟩ = f ⟨true, ⟨0, 0⟩⟩) {a b : Duration} (ha : a.WF) (hb : b.WF)
    (h : a.eq b = true) : f a = f b := by
  rcases (C113_which a b ha hb).1 h with e | ⟨h1, h2⟩
  · rw [e]
  · rcases zero_values h1 with e1 | e1 <;> rcases zero_values h2 with e2 | e2
    · rw [e1, e2]
    · rw [e1, e2, hf]
    · rw [e1, e2, hf]
    · rw [e1, e2]

/-- C113: two durations print the same text iff they are equal: nothing but the mark of a zero is lost. -/
theorem C113_display (a b : Duration) (ha : a.WF) (hb : b.WF) : a.display = b.display ↔ a.eq b = true := by
  constructor
  · intro h
    obtain ⟨x, ex, -, vx, -⟩ := C06_display_parse a ha
    obtain ⟨y, ey, -, vy, -⟩ := C06_display_parse b hb
    rw [h] at ex
    have : x = y := Except.ok.inj (ex.symm.trans ey)
    rw [C01_eq_iff a b ha hb, ← vx, ← vy, this]
  · exact equal_of_zeros Duration.display (by decide) ha hb

/-- C113: equal durations give the same values of all accessors and conversions. -/
theorem C113_accessors (a b : Duration) (ha : a.WF) (hb : b.WF) (h : a.eq b = true) :
    a.asWeeks = b.asWeeks ∧ a.asDays = b.asDays ∧ a.asHours = b.asHours ∧ a.asMinutes = b.asMinutes ∧ a.asSeconds = b.asSeconds ∧
    a.asMillis = b.asMillis ∧ a.asMicros = b.asMicros ∧ a.asNanos = b.asNanos ∧ a.subsecMillis = b.subsecMillis ∧
    a.subsecMicros = b.subsecMicros ∧ a.subsecNanos = b.subsecNanos ∧ a.isZero = b.isZero ∧ a.abs = b.abs ∧
    a.toStd = b.toStd ∧ a.saturatingToStd = b.saturatingToStd ∧ a.toTime = b.toTime ∧ a.saturatingToTime = b.saturatingToTime ∧
    a.toChrono = b.toChrono ∧ a.saturatingToChrono = b.saturatingToChrono := by
  have e := fun {β : Type} (f : Duration → β) hf => equal_of_zeros f hf ha hb h
  exact ⟨e _ (by decide), e _ (by decide), e _ (by decide), e _ (by decide), e _ (by decide), e _ (by decide), e _ (by decide),
    e _ (by decide), e _ (by decide), e _ (by decide), e _ (by decide), e _ (by decide), e _ (by decide), e _ (by decide),
    e _ (by decide), e _ (by decide), e _ (by decide), e _ (by decide), e _ (by decide)⟩

/-- two results of a calculation: both overflow, or they are equal -/
def SameSum : Option Duration → Option Duration → Prop
  | none, none => True
  | some x, some y => x.eq y = true
  | _, _ => False

/-- C113: calculating with equal durations gives equal results, and overflows in the same cases. -/
theorem C113_arithmetic (a b a' b' : Duration) (ha : a.WF) (hb : b.WF) (ha' : a'.WF) (hb' : b'.WF) (h : a.eq a' = true) (h' : b.eq b' = true) :
    (∃ x y, a.checkedAdd b = .ok x ∧ a'.checkedAdd b' = .ok y ∧ SameSum x y) ∧
    (∃ x y, a.checkedSub b = .ok x ∧ a'.checkedSub b' = .ok y ∧ SameSum x y) ∧
    (∃ x y, a.saturatingAdd b = .ok x ∧ a'.saturatingAdd b' = .ok y ∧ x.eq y = true) ∧
    (∃ x y, a.saturatingSub b = .ok x ∧ a'.saturatingSub b' = .ok y ∧ x.eq y = true) ∧
    a.neg.eq a'.neg = true ∧ a.cmp b = a'.cmp b' ∧ a.eq b = a'.eq b' ∧ a.hashData = a'.hashData := by
  have n := (C01_eq_iff a a' ha ha').1 h
  have n' := (C01_eq_iff b b' hb hb').1 h'
  refine ⟨?_, ?_, ?_, ?_, ?_, ?_, ?_, (C01_hash a a').1 h⟩
  · by_cases hr : Representable (nanos a + nanos b)
    · have hr' : Representable (nanos a' + nanos b') := by rw [← n, ← n']; exact hr
      obtain ⟨x, e⟩ := checkedAdd_exists ha hb hr
      obtain ⟨y, e'⟩ := checkedAdd_exists ha' hb' hr'
      obtain ⟨w, v, -⟩ := checkedAdd_some ha hb e
      obtain ⟨w', v', -⟩ := checkedAdd_some ha' hb' e'
      exact ⟨some x, some y, e, e', (C01_eq_iff x y w w').2 (by omega)⟩
    · have hr' : ¬ Representable (nanos a' + nanos b') := by rw [← n, ← n']; exact hr
      exact ⟨none, none, checkedAdd_none ha hb hr, checkedAdd_none ha' hb' hr', trivial⟩
  · by_cases hr : Representable (nanos a - nanos b)
    · have hr' : Representable (nanos a' - nanos b') := by rw [← n, ← n']; exact hr
      obtain ⟨x, e⟩ := checkedSub_exists ha hb hr
      obtain ⟨y, e'⟩ := checkedSub_exists ha' hb' hr'
      obtain ⟨w, v, -⟩ := checkedSub_some ha hb e
      obtain ⟨w', v', -⟩ := checkedSub_some ha' hb' e'
      exact ⟨some x, some y, e, e', (C01_eq_iff x y w w').2 (by omega)⟩
    · have hr' : ¬ Representable (nanos a' - nanos b') := by rw [← n, ← n']; exact hr
      exact ⟨none, none, checkedSub_none ha hb hr, checkedSub_none ha' hb' hr', trivial⟩
  · obtain ⟨x, e, w, v⟩ := C02_saturating_add a b ha hb
    obtain ⟨y, e', w', v'⟩ := C02_saturating_add a' b' ha' hb'
    exact ⟨x, y, e, e', (C01_eq_iff x y w w').2 (by rw [v, v', n, n'])⟩
  · obtain ⟨x, e, w, v⟩ := C02_saturating_sub a b ha hb
    obtain ⟨y, e', w', v'⟩ := C02_saturating_sub a' b' ha' hb'
    exact ⟨x, y, e, e', (C01_eq_iff x y w w').2 (by rw [v, v', n, n'])⟩
  · refine (C01_eq_iff a.neg a'.neg (C03_neg a ha).2.2.1 (C03_neg a' ha').2.2.1).2 ?_
    rw [nanos_neg, nanos_neg, n]
  · rw [C01_cmp a b ha hb, C01_cmp a' b' ha' hb', n, n']
  · rw [Bool.eq_iff_iff, C01_eq_iff a b ha hb, C01_eq_iff a' b' ha' hb', n, n']

/-- C113: a date moved by equal durations is the same date. -/
theorem C113_dates (dt : DateTime) (a b : Duration) (ha : a.WF) (hb : b.WF) (h : a.eq b = true) :
    dt.checkedAddDuration a = dt.checkedAddDuration b ∧ dt.checkedSubDuration a = dt.checkedSubDuration b := by
  have key : dt.checkedAddDuration ⟨false, ⟨0, 0⟩⟩ = dt.checkedAddDuration ⟨true, ⟨0, 0⟩⟩ := by
    unfold DateTime.checkedAddDuration
    have e1 : Duration.extractDays ⟨false, ⟨0, 0⟩⟩ = .ok (0, ⟨false, ⟨0, 0⟩⟩) := by decide
    have e2 : Duration.extractDays ⟨true, ⟨0, 0⟩⟩ = .ok (0, ⟨true, ⟨0, 0⟩⟩) := by decide
    have e3 : Duration.asNanos ⟨false, ⟨0, 0⟩⟩ = .ok 0 := by decide
    have e4 : Duration.asNanos ⟨true, ⟨0, 0⟩⟩ = .ok 0 := by decide
    rw [e1, e2]
    simp only [bind, Except.bind]
    rw [e3, e4]
  refine ⟨equal_of_zeros dt.checkedAddDuration key ha hb h, ?_⟩
  refine equal_of_zeros dt.checkedSubDuration ?_ ha hb h
  exact key.symm

/-- C113: the two zeros are different values, which only `is_negative`, `is_positive` and what is stored with serde tell apart. -/
theorem C113_zeros : (⟨true, ⟨0, 0⟩⟩ : Duration).WF ∧ (⟨true, ⟨0, 0⟩⟩ : Duration).eq ⟨false, ⟨0, 0⟩⟩ = true ∧
    (⟨true, ⟨0, 0⟩⟩ : Duration).isNegative ≠ (⟨false, ⟨0, 0⟩⟩ : Duration).isNegative ∧
    (⟨true, ⟨0, 0⟩⟩ : Duration).display = b! "0ns" := by decide

end Fundu.Props
