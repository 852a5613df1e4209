import Verif.Proofs.ListBody
import Verif.Spec.Grammar
import Verif.Props.Number
/-! # The value of an item is the duration it denotes -/
namespace Fundu
open Fundu.Spec

theorem Duration.eq_of {d d' : Duration} (h : d.WF) (h' : d'.WF) (hs : d.isNegative = true ↔ d'.isNegative = true)
    (hn : nanos d = nanos d') : d = d' := by
  obtain ⟨n, ⟨s, a⟩⟩ := d
  obtain ⟨n', ⟨s', a'⟩⟩ := d'
  have hb : n = n' := by
    cases n <;> cases n' <;> simp_all
  subst hb
  have h1 : a < 1000000000 := h.2
  have h2 : a' < 1000000000 := h'.2
  unfold nanos at hn
  simp only at hn
  have e : s = s' ∧ a = a' := by
    clear h h' hs
    cases n
    · simp only [Bool.false_eq_true, if_false] at hn; omega
    · simp only [if_true] at hn; omega
  rw [e.1, e.2]

theorem attos_ne_zero {v : ℚ} (hv0 : 0 ≤ v) : attos v ≠ 0 ↔ 10 ^ (-18 : ℤ) ≤ v := by
  unfold attos
  rw [Ne, Int.floor_eq_zero_iff, Set.mem_Ico, not_and_or, not_le, not_lt]
  have e : (10 : ℚ) ^ (-18 : ℤ) = 1 / 10 ^ 18 := by norm_num
  rw [e, div_le_iff₀ (by norm_num)]
  constructor
  · rintro (h | h)
    · exact absurd h (not_lt.2 (by positivity))
    · exact h
  · exact Or.inr

theorem value_iff (neg : Bool) (W F : Bytes) (e : Int) (m : Multiplier) (d : Duration) :
    Value neg W F e m d ↔
      literalDuration neg (decimal (W ++ F)) (m.exponent + e - F.length) m.coefficient = d := by
  obtain ⟨h1, h2, h3⟩ := literalDuration_nanos neg _ _ m.coefficient _ (attoFloor_literal W F e m.exponent)
  rw [attos_ne_zero (Props.literalValue_nonneg _ _ _)] at h3
  constructor
  · rintro ⟨g1, g2, g3⟩
    exact Duration.eq_of h1 g1 (h3.trans g3.symm) (h2.trans g2.symm)
  · rintro rfl
    exact ⟨h1, h2, h3⟩

theorem checkedMul_iff {a b m : Multiplier} : a.checkedMul b = some m ↔ Fits a b ∧ m = product a b := by
  unfold Multiplier.checkedMul checkedI64 checkedI16 Fits product
  by_cases h1 : IsI64 (a.coefficient * b.coefficient)
  · by_cases h2 : IsI16 (a.exponent + b.exponent)
    · simp only [h1, h2, if_true, true_and, Option.some.injEq]
      exact eq_comm
    · simp [h1, h2]
  · simp [h1]

theorem checkedMul_none {a b : Multiplier} : a.checkedMul b = none ↔ ¬ Fits a b := by
  constructor
  · intro h hf
    rw [checkedMul_iff.2 ⟨hf, rfl⟩] at h
    cases h
  · intro h
    cases hm : a.checkedMul b with
    | none => rfl
    | some m => exact absurd (checkedMul_iff.1 hm).1 h

theorem fixed_iff (neg : Bool) (m : Multiplier) (hm : IsI64 m.coefficient) (d : Duration) :
    DurationRepr.parseDurationWithFixedNumber { isNegative := some neg } m.coefficient m.exponent = .ok d ↔
      Value (neg && decide (m.exponent ≤ 19)) (b! "1") [] 0 m d := by
  have key : DurationRepr.parseDurationWithFixedNumber { isNegative := some neg } m.coefficient m.exponent =
      .ok (literalDuration (neg && decide (m.exponent ≤ 19)) 1 m.exponent m.coefficient) := by
    by_cases h : m.exponent ≤ 19
    · rw [decide_eq_true h, Bool.and_true]
      exact DurationRepr.fixedNumber_eq { isNegative := some neg } _ _ hm (Or.inl h)
    · rw [decide_eq_false h, Bool.and_false]
      have e : DurationRepr.parseDurationWithFixedNumber { isNegative := some neg } m.coefficient m.exponent =
          DurationRepr.parseDurationWithFixedNumber { isNegative := some false } m.coefficient m.exponent := by
        unfold DurationRepr.parseDurationWithFixedNumber
        by_cases h0 : m.coefficient = 0
        · rw [if_pos h0, if_pos h0]
        · rw [if_neg h0, if_neg h0]
          simp only [if_neg (show ¬ m.exponent < 0 by omega), if_neg (show ¬ m.exponent = 0 by omega),
            if_pos (show 19 < m.exponent by omega)]
      rw [e]
      exact DurationRepr.fixedNumber_eq { isNegative := some false } _ _ hm (Or.inr (Or.inl rfl))
  rw [key, value_iff]
  have e1 : decimal (b! "1" ++ []) = 1 := by decide
  rw [e1, Int.add_zero]
  have e2 : m.exponent - (([] : Bytes).length : Int) = m.exponent := by simp
  rw [e2]
  constructor
  · intro h; injection h
  · rintro rfl; rfl

theorem infinity_iff (neg : Bool) (d : Duration) :
    Duration.fromStd neg StdDuration.MAX = d ↔ d.WF ∧ nanos d = (if neg then -maxNanos else maxNanos) := by
  have hwf : ∀ neg : Bool, (Duration.fromStd neg StdDuration.MAX).WF := by decide
  have hn : nanos (Duration.fromStd neg StdDuration.MAX) = (if neg then -maxNanos else maxNanos) := by
    cases neg <;> decide
  constructor
  · rintro rfl; exact ⟨hwf _, hn⟩
  · rintro ⟨h1, h2⟩
    refine Duration.eq_of (hwf _) h1 ?_ (hn.trans h2.symm)
    obtain ⟨n, s, a⟩ := d
    have hs : (0 : Int) ≤ (s : Int) * 1000000000 + a := by omega
    generalize he : (s : Int) * 1000000000 + a = x at hs
    unfold nanos at h2
    simp only [he] at h2
    have hmax : (0 : Int) < maxNanos := by decide
    generalize maxNanos = M at h2 hmax
    cases neg <;> cases n <;> simp [Duration.fromStd] at h2 ⊢ <;> omega

theorem default_fits (u : TimeUnit) : Fits u.multiplier ⟨1, 0⟩ ∧ product u.multiplier ⟨1, 0⟩ = u.multiplier := by
  cases u <;> decide

theorem L.value_iff (cfg : Config) (neg : Bool) (item : Item) (d : Duration) :
    L.value cfg neg item = .ok d ↔ Denotes cfg neg item d := by
  cases item with
  | number W F e u =>
    cases u with
    | none =>
      obtain ⟨h1, h2⟩ := default_fits cfg.defaultUnit
      have : L.value cfg neg (.number W F e none) = .ok d ↔ Value neg W F e cfg.defaultUnit.multiplier d := by
        unfold L.value
        simp only [Option.getD_none, checkedMul_iff.2 ⟨h1, rfl⟩, h2]
        rw [Fundu.value_iff]
        constructor
        · intro h; injection h
        · rintro rfl; rfl
      rw [this]
      constructor
      · exact .number
      · intro h; cases h with | number h => exact h
    | some u =>
      obtain ⟨u, m⟩ := u
      unfold L.value
      simp only [Option.getD_some]
      by_cases hf : Fits u.multiplier m
      · simp only [checkedMul_iff.2 ⟨hf, rfl⟩]
        constructor
        · intro h
          exact .numberUnit hf ((Fundu.value_iff ..).2 (by injection h))
        · intro h
          cases h with
          | numberUnit _ h => rw [(Fundu.value_iff ..).1 h]
      · simp only [checkedMul_none.2 hf]
        constructor
        · intro h; cases h
        · intro h; cases h with | numberUnit h _ => exact absurd h hf
  | infinity =>
    constructor
    · intro h
      obtain ⟨h1, h2⟩ := (infinity_iff neg d).1 (by unfold L.value at h; injection h)
      exact .infinity h1 h2
    · intro h
      cases h with
      | infinity h1 h2 =>
        unfold L.value
        rw [(infinity_iff neg d).2 ⟨h1, h2⟩]
  | word u =>
    obtain ⟨u, m⟩ := u
    unfold L.value
    simp only
    by_cases hf : Fits u.multiplier m
    · simp only [checkedMul_iff.2 ⟨hf, rfl⟩]
      rw [fixed_iff _ _ hf.1]
      constructor
      · exact .word hf
      · intro h; cases h with | word _ h => exact h
    · simp only [checkedMul_none.2 hf]
      constructor
      · intro h; cases h
      · intro h; cases h with | word h _ => exact absurd h hf
  | numeral q u =>
    obtain ⟨u, m⟩ := u
    unfold L.value
    simp only
    by_cases hq : Fits q u.multiplier
    · rw [checkedMul_iff.2 ⟨hq, rfl⟩, Option.bind_some]
      by_cases hf : Fits (product q u.multiplier) m
      · simp only [checkedMul_iff.2 ⟨hf, rfl⟩]
        rw [fixed_iff _ _ hf.1]
        constructor
        · exact .numeral hq hf
        · intro h; cases h with | numeral _ _ h => exact h
      · simp only [checkedMul_none.2 hf]
        constructor
        · intro h; cases h
        · intro h; cases h with | numeral _ h _ => exact absurd h hf
    · simp only [checkedMul_none.2 hq, Option.bind_none]
      constructor
      · intro h; cases h
      · intro h; cases h with | numeral h _ _ => exact absurd h hq

end Fundu
