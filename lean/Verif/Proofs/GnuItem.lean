import Verif.Proofs.GnuValue
/-! # The value of one item of a gnu relative time -/
namespace Fundu.Gnu
open Fundu Fundu.Spec

theorem unit_mul {u : TimeUnit × Multiplier} (h : UnitOk u) :
    u.1.multiplier.mul u.2 = .ok ⟨u.1.multiplier.coefficient * u.2.coefficient, 0⟩ ∧
      IsI64 (u.1.multiplier.coefficient * u.2.coefficient) ∧ u.1.multiplier.coefficient ≠ 0 ∧ u.1.multiplier.exponent = 0 := by
  obtain ⟨t, c, e⟩ := u
  obtain ⟨h1, h2, h3, -⟩ := h
  simp only at h1 h2 h3
  subst h2
  have key : ∀ t ∈ [TimeUnit.second, .minute, .hour, .day, .week, .month, .year], ∀ c ∈ ([-2, -1, 0, 1, 2] : List Int),
      t.multiplier.mul ⟨c, 0⟩ = .ok ⟨t.multiplier.coefficient * c, 0⟩ ∧ IsI64 (t.multiplier.coefficient * c) ∧
        t.multiplier.coefficient ≠ 0 ∧ t.multiplier.exponent = 0 := by decide
  have hc : c = -2 ∨ c = -1 ∨ c = 0 ∨ c = 1 ∨ c = 2 := by omega
  exact key t h1 c (by simp; omega)

theorem numeral_mul {q : Multiplier} {u : TimeUnit × Multiplier} (h : UnitOk u) (hq : q.exponent = 0) (hq' : q.coefficient.natAbs ≤ 12) :
    q.mul u.1.multiplier = .ok ⟨q.coefficient * u.1.multiplier.coefficient, 0⟩ ∧
    Multiplier.mul ⟨q.coefficient * u.1.multiplier.coefficient, 0⟩ u.2 =
      .ok ⟨q.coefficient * u.1.multiplier.coefficient * u.2.coefficient, 0⟩ ∧
      IsI64 (q.coefficient * u.1.multiplier.coefficient * u.2.coefficient) ∧
    q.mul u.2 = .ok ⟨q.coefficient * u.2.coefficient, 0⟩ := by
  obtain ⟨t, c, e⟩ := u
  obtain ⟨k, e'⟩ := q
  obtain ⟨h1, h2, h3, -⟩ := h
  simp only at h1 h2 h3 hq hq'
  subst h2 hq
  have key : ∀ t ∈ [TimeUnit.second, .minute, .hour, .day, .week, .month, .year], t.multiplier.exponent = 0 ∧
      0 ≤ t.multiplier.coefficient ∧ t.multiplier.coefficient ≤ 100000000 := by decide
  obtain ⟨g1, g2, g3⟩ := key t h1
  have hk : -12 ≤ k ∧ k ≤ 12 := by omega
  have hc : -2 ≤ c ∧ c ≤ 2 := by omega
  generalize t.multiplier = v at *
  obtain ⟨v, ve⟩ := v
  simp only at g1 g2 g3
  subst g1
  have hkv : -1200000000 ≤ k * v ∧ k * v ≤ 1200000000 := by
    constructor <;> nlinarith
  have hkc : -24 ≤ k * c ∧ k * c ≤ 24 := by
    constructor <;> nlinarith
  have hkvc : -2400000000 ≤ k * v * c ∧ k * v * c ≤ 2400000000 := by
    constructor <;> nlinarith
  have big : ∀ x : Int, -2400000000 ≤ x → x ≤ 2400000000 → IsI64 x := by
    intro x h1 h2
    rw [isI64_iff]; omega
  have mul : ∀ a b : Int, IsI64 (a * b) → Multiplier.mul ⟨a, 0⟩ ⟨b, 0⟩ = .ok ⟨a * b, 0⟩ := by
    intro a b h
    unfold Multiplier.mul Multiplier.checkedMul checkedI64 checkedI16
    simp only [h, if_true, Int.add_zero]
    rfl
  exact ⟨mul _ _ (big _ (by omega) (by omega)), mul _ _ (big _ hkvc.1 hkvc.2), big _ hkvc.1 hkvc.2, mul _ _ (big _ (by omega) (by omega))⟩

theorem clampI64_of {x : Int} (h : IsI64 x) : clampI64 x = x := by
  rw [isI64_iff] at h
  unfold clampI64
  omega

theorem clampI64_isI64 (x : Int) : IsI64 (clampI64 x) := by
  rw [isI64_iff]
  unfold clampI64
  omega

theorem fuzzyValue_eq (neg : Bool) (N : Nat) :
    fuzzyValue neg (checkedU64 N) = .ok (clampI64 (if neg then -(N : Int) else N)) := by
  by_cases h : N ≤ U64_MAX
  · rw [checkedU64_some h]
    unfold fuzzyValue
    simp only
    by_cases h2 : (N : Int) ≤ I64_MAX
    · rw [if_pos h2]
      cases neg
      · simp only [Bool.false_eq_true, if_false]
        rw [clampI64_of]; rfl
        rw [isI64_iff]; unfold I64_MAX at h2; omega
      · simp only [if_true]
        have hi : IsI64 (-(N : Int)) := by rw [isI64_iff]; unfold I64_MAX at *; omega
        rw [clampI64_of hi]
        unfold arithI64
        rw [if_pos hi]
        rfl
    · rw [if_neg h2]
      unfold clampI64 I64_MIN I64_MAX at *
      cases neg
      · simp only [Bool.false_eq_true, if_false]
        rw [ok_pure]; congr 1; omega
      · simp only [if_true]
        rw [ok_pure]; congr 1; omega
  · rw [checkedU64_none (by omega)]
    unfold fuzzyValue clampI64 I64_MIN I64_MAX U64_MAX at *
    cases neg
    · simp only [Bool.false_eq_true, if_false]
      rw [ok_pure]; congr 1; omega
    · simp only [if_true]
      rw [ok_pure]; congr 1; omega

theorem isNegative_of {m : Multiplier} : m.isNegative = decide (m.coefficient < 0) := by
  unfold Multiplier.isNegative Multiplier.isPositive
  by_cases h : m.coefficient < 0
  · simp [h]; omega
  · simp [h]; omega

theorem sign_one (neg : Bool) (c n : Int) (h : c = 1 ∨ c = -1) :
    (if Bool.xor neg (decide (c < 0)) then -n else n) = sg neg * c * n := by
  unfold sg
  rcases h with rfl | rfl <;> cases neg <;> simp

/-- the result of parsing a representation and the part it stands for -/
def Result (x : R FuzzyOutput) : Option GnuPart → Prop
  | some part => ∃ o, x = .ok o ∧ Means o part
  | none => ∃ e, x = fail (.invalidInput e)

theorem fuzzy_kinds (r : DurationRepr) : parseReprFuzzy r =
    if r.unit = some .month then FuzzyOutput.months <$> fuzzyUnit r
    else if r.unit = some .year then FuzzyOutput.years <$> fuzzyUnit r
    else FuzzyOutput.duration <$> parseRepr r := rfl

/-- a fuzzy unit with the value `n` -/
theorem result_fuzzy {r : DurationRepr} {t : TimeUnit} {n : Int} (hu : r.unit = some t) (ht : t = .month ∨ t = .year)
    (h : fuzzyUnit r = .ok (clampI64 n)) : Result (parseReprFuzzy r) (some (amount t n)) := by
  rw [fuzzy_kinds, hu]
  rcases ht with rfl | rfl
  · rw [if_pos rfl, h]
    exact ⟨.months (clampI64 n), rfl, rfl⟩
  · rw [if_neg (by decide), if_pos rfl, h]
    exact ⟨.years (clampI64 n), rfl, rfl⟩

theorem result_exact {r : DurationRepr} {t : TimeUnit} {x : Int} (hu : r.unit.getD .second = t) (hm : t ≠ .month) (hy : t ≠ .year)
    (h : ∃ d, parseRepr r = .ok d ∧ d.WF ∧ nanos d = clamp x) : Result (parseReprFuzzy r) (some (.exact (clamp x))) := by
  obtain ⟨d, h1, h2, h3⟩ := h
  rw [fuzzy_kinds, if_neg (by rintro hh; rw [hh] at hu; exact hm hu.symm), if_neg (by rintro hh; rw [hh] at hu; exact hy hu.symm), h1]
  exact ⟨.duration d, rfl, h2, h3⟩

theorem result_fail {r : DurationRepr} {t : TimeUnit} {e : Reason} (hu : r.unit.getD .second = t) (hm : t ≠ .month) (hy : t ≠ .year)
    (h : parseRepr r = fail (.invalidInput e)) : Result (parseReprFuzzy r) none := by
  rw [fuzzy_kinds, if_neg (by rintro hh; rw [hh] at hu; exact hm hu.symm), if_neg (by rintro hh; rw [hh] at hu; exact hy hu.symm), h]
  exact ⟨e, rfl⟩

theorem amount_exact {t : TimeUnit} (hm : t ≠ .month) (hy : t ≠ .year) (n : Int) :
    amount t n = .exact (clamp (n * t.multiplier.coefficient * 10 ^ 9)) := by
  unfold amount
  rw [if_neg hm, if_neg hy]

theorem unit_second {u : TimeUnit × Multiplier} : u.1 = .second → u.1.multiplier.coefficient = 1 := by
  intro h; rw [h]; rfl

variable {I : Bytes} {cfg : Config}

/-- the fields of the representation of a number -/
structure NumberRepr (I : Bytes) (neg pt : Bool) (W F : Bytes) (u : Option (TimeUnit × Multiplier)) (r : DurationRepr) : Prop where
  input : r.input = I
  numeral : r.numeral = none
  sign : r.isNegative.getD false = neg
  default : r.defaultUnit = .second
  unit : r.unit = u.map Prod.fst
  multiplier : r.multiplier = (u.getD (.second, ⟨1, 0⟩)).2
  whole : IsWhole I r.whole W
  fract : IsFract I r.fract F
  some : r.whole.isSome = true ∨ r.fract.isSome = true
  point : r.fract.isSome = pt

theorem numberRepr (hd : cfg.defaultUnit = .second) {neg pt : Bool} {W F : Bytes} {e : Int} {u : Option (TimeUnit × Multiplier)}
    {r : DurationRepr} (h : IsRepr I cfg neg pt (.number W F e u) r) : NumberRepr I neg pt W F u r := by
  obtain ⟨r0, h1, h2, h3, h4, h5, -, rfl⟩ := h
  cases u with
  | none => exact ⟨h1.input, h1.numeral, h1.sign, h1.default.trans hd, h1.unit, h1.multiplier, h2, h3, h4, h5⟩
  | some u => exact ⟨h1.input, h1.numeral, h1.sign, h1.default.trans hd, rfl, rfl, h2, h3, h4, h5⟩

theorem isEmpty_of_slice {f : Range} (h : DurationRepr.rangeSlice I f = .ok []) : f.isEmpty = true := by
  obtain ⟨h1, -, -, h4⟩ := slice_inv h
  unfold Range.isEmpty
  simp only [List.length_nil] at h4
  simp; omega

theorem not_isEmpty_of_slice {f : Range} {F : Bytes} (h : DurationRepr.rangeSlice I f = .ok F) (hF : F ≠ []) :
    f.isEmpty = false := by
  obtain ⟨h1, -, -, h4⟩ := slice_inv h
  have := List.length_pos_iff.2 hF
  unfold Range.isEmpty
  simp; omega

theorem number_result {neg pt : Bool} {W F : Bytes} {u : Option (TimeUnit × Multiplier)} {r : DurationRepr}
    (h : NumberRepr I neg pt W F u r) (hu : UnitOk (u.getD (.second, ⟨1, 0⟩))) (hc : (u.getD (.second, ⟨1, 0⟩)).2.coefficient ≠ 0) :
    Result (parseReprFuzzy r) (partOf neg pt (.number W F 0 u)) := by
  have hunit : r.unit.getD .second = (u.getD (.second, ⟨1, 0⟩)).1 := by
    rw [h.unit]; cases u <;> rfl
  have hsome : ∀ t, (u.getD (.second, ⟨1, 0⟩)).1 = t → t ≠ .second → r.unit = some t := by
    intro t h1 h2
    rw [h.unit]
    cases u with
    | none => exact absurd h1.symm h2
    | some u => rw [← h1]; rfl
  have hnm : ∀ t, r.unit.getD r.defaultUnit = t ↔ (u.getD (.second, ⟨1, 0⟩)).1 = t := by
    intro t; rw [h.default, hunit]
  obtain ⟨hm1, hm2, hm3, -⟩ := unit_mul hu
  have hmul : (r.unit.getD r.defaultUnit).multiplier.mul r.multiplier =
      .ok ⟨(u.getD (.second, ⟨1, 0⟩)).1.multiplier.coefficient * (u.getD (.second, ⟨1, 0⟩)).2.coefficient, 0⟩ := by
    rw [h.default, hunit, h.multiplier]; exact hm1
  generalize hv : u.getD (.second, ⟨1, 0⟩) = v at *
  obtain ⟨t, m⟩ := v
  simp only at *
  simp only [partOf, hv]
  obtain ⟨W', hw1, hw2, hw3⟩ := h.whole.2
  cases pt with
  | true =>
    rw [if_pos rfl]
    obtain ⟨f, hf⟩ := Option.isSome_iff_exists.1 h.point
    have hF := h.fract
    rw [hf] at hF
    by_cases hf1 : t = .month ∨ t = .year
    · have hs : t ≠ .second := by rcases hf1 with h | h <;> rw [h] <;> decide
      rw [if_neg (fun hh => hs hh.1)]
      have hx : fuzzyUnit r = fail (.invalidInput .fractionOnlyWithSeconds) := by
        unfold fuzzyUnit; rw [hf]; rfl
      rw [fuzzy_kinds, hsome t rfl hs]
      rcases hf1 with rfl | rfl
      · rw [if_pos rfl, hx]; exact ⟨_, rfl⟩
      · rw [if_neg (by decide), if_pos rfl, hx]; exact ⟨_, rfl⟩
    · have hm : t ≠ .month := fun hh => hf1 (Or.inl hh)
      have hy : t ≠ .year := fun hh => hf1 (Or.inr hh)
      cases hw : r.whole with
      | none =>
        have hW : W = [] := h.whole.1.1 hw
        rw [if_neg (fun hh => hh.2.1 hW)]
        by_cases hs : t = .second
        · refine result_fail hunit hm hy (e := .fractionWithoutWhole) ?_
          unfold parseRepr
          simp only [hw, hf]
          rw [if_pos ((hnm _).2 hs)]
        · refine result_fail hunit hm hy (e := .fractionOnlyWithSeconds) ?_
          unfold parseRepr
          simp only [hw, hf]
          rw [if_neg (fun hh => hs ((hnm _).1 hh))]
      | some w =>
        have hW : W ≠ [] := by
          intro hh
          have := h.whole.1.2 hh
          rw [hw] at this; cases this
        by_cases hs : t = .second
        · by_cases he : F = []
          · rw [if_neg (fun hh => hh.2.2 he)]
            have hfe : f.isEmpty = true := by
              have h1 : DurationRepr.rangeSlice I f = .ok F := hF.1
              rw [he] at h1
              exact isEmpty_of_slice h1
            refine result_fail hunit hm hy (e := .fractionWithoutFraction) ?_
            unfold parseRepr
            simp only [hw, hf]
            rw [if_pos ((hnm _).2 hs), if_pos hfe]
          · rw [if_pos ⟨hs, hW, he⟩]
            have hfe : f.isEmpty = false := by
              have h1 : DurationRepr.rangeSlice I f = .ok F := hF.1
              exact not_isEmpty_of_slice h1 he
            refine result_exact hunit hm hy ?_
            have hone := hu.2.2.2 (Or.inr (Or.inr hs))
            simp only at hone
            have hco : t.multiplier.coefficient = 1 := by rw [hs]; rfl
            obtain ⟨d, g1, g2, g3⟩ := scaled_fract r w f W' F ⟨t.multiplier.coefficient * m.coefficient, 0⟩
              (by rw [h.input]; rw [hw] at hw1; exact hw1) (by rw [h.input]; exact hF.1) hw2 hF.2
              (by rw [hco, Int.one_mul]; exact hone)
            refine ⟨d, ?_, g2, ?_⟩
            · unfold parseRepr
              simp only [hw, hf]
              rw [if_pos ((hnm _).2 hs), hfe]
              simp only [Bool.false_eq_true, if_false]
              rw [hmul, liftP_ok, ok_bind]
              exact g1
            · rw [g3, h.sign, hco, Int.one_mul]
              have : decimalNanos W' F = decimalNanos W F := by unfold decimalNanos; rw [hw3]
              rw [this]
        · rw [if_neg (fun hh => hs hh.1)]
          refine result_fail hunit hm hy (e := .fractionOnlyWithSeconds) ?_
          unfold parseRepr
          simp only [hw, hf]
          rw [if_neg (fun hh => hs ((hnm _).1 hh))]
  | false =>
    simp only [Bool.false_eq_true, if_false]
    have hf : r.fract = none := by
      have := h.point
      cases hh : r.fract with
      | none => rfl
      | some f => rw [hh] at this; cases this
    obtain ⟨w, hw⟩ : ∃ w, r.whole = some w := by
      rcases h.some with h' | h'
      · exact Option.isSome_iff_exists.1 h'
      · rw [hf] at h'; cases h'
    rw [hw] at hw1
    have hsl : DurationRepr.rangeSlice r.input w = .ok W' := by rw [h.input]; exact hw1
    by_cases hf1 : t = .month ∨ t = .year
    · have hs : t ≠ .second := by rcases hf1 with h | h <;> rw [h] <;> decide
      refine result_fuzzy (hsome t rfl hs) hf1 ?_
      have hone := hu.2.2.2 (by rcases hf1 with h | h <;> simp [h])
      unfold fuzzyUnit fuzzyNumber
      rw [hf, hw]
      simp only [Option.isSome_none, Bool.false_eq_true, if_false]
      rw [hsl, ok_bind, Whole.parse_eq W' none none hw2 (by intro b hb; cases hb), liftP_ok, ok_bind]
      simp only [Option.getD_none, List.append_nil, Nat.pow_zero, Nat.mul_one]
      simp only at hone
      rw [fuzzyValue_eq, h.sign, isNegative_of, h.multiplier, hv]
      simp only
      rw [sign_one neg _ _ hone, hw3]
    · have hm : t ≠ .month := fun hh => hf1 (Or.inl hh)
      have hy : t ≠ .year := fun hh => hf1 (Or.inr hh)
      rw [amount_exact hm hy]
      refine result_exact hunit hm hy ?_
      obtain ⟨d, g1, g2, g3⟩ := scaled_whole r w W' ⟨t.multiplier.coefficient * m.coefficient, 0⟩ hsl hw2 hm2
        (Int.mul_ne_zero hm3 hc)
      refine ⟨d, ?_, g2, ?_⟩
      · unfold parseRepr
        simp only [hw, hf]
        rw [hmul, liftP_ok, ok_bind]
        exact g1
      · rw [g3, h.sign, hw3]
        congr 1
        push_cast
        ring

theorem word_result {neg : Bool} {u : TimeUnit × Multiplier} {r : DurationRepr} (hu : UnitOk u) (h1 : r.whole = none)
    (h2 : r.fract = none) (h3 : r.numeral = none) (h4 : r.isNegative.getD false = neg) (h5 : r.unit = some u.1)
    (h6 : r.multiplier = u.2) (pt : Bool) : Result (parseReprFuzzy r) (partOf neg pt (.word u)) := by
  obtain ⟨hm1, hm2, -, -⟩ := unit_mul hu
  obtain ⟨t, m⟩ := u
  simp only [partOf] at *
  by_cases hf1 : t = .month ∨ t = .year
  · refine result_fuzzy h5 hf1 ?_
    have hone := hu.2.2.2 (by rcases hf1 with h | h <;> simp [h])
    simp only at hone
    unfold fuzzyUnit fuzzyNumber
    rw [h1, h2, h3]
    simp only [Option.isSome_none, Bool.false_eq_true, if_false]
    rw [h4, isNegative_of, h6, sign_one neg _ _ hone, ok_pure]
    congr 1
    unfold sg
    rcases hone with h | h <;> rw [h] <;> cases neg <;> decide
  · have hm : t ≠ .month := fun hh => hf1 (Or.inl hh)
    have hy : t ≠ .year := fun hh => hf1 (Or.inr hh)
    rw [amount_exact hm hy]
    refine result_exact (t := t) (by rw [h5]; rfl) hm hy ?_
    obtain ⟨d, g1, g2, g3⟩ := calculate_whole neg 1 (t.multiplier.coefficient * m.coefficient) hm2 (by decide)
    refine ⟨d, ?_, g2, ?_⟩
    · unfold parseRepr
      simp only [h1, h2, h3, h5, h4, h6, Option.isSome_some, if_true, Option.getD_some, hm1, ok_bind, g1, liftP_ok]
    · rw [g3]
      congr 1
      push_cast
      ring

theorem fixed_zero (r : DurationRepr) (c : Int) (hc : IsI64 c) : ∃ d, r.parseDurationWithFixedNumber c 0 = .ok d ∧ d.WF ∧
    nanos d = clamp (sg (r.isNegative.getD false) * c * (10 ^ 9 : ℕ)) := by
  rw [DurationRepr.fixedNumber_eq r c 0 hc (Or.inl (by decide))]
  unfold literalDuration
  have ha : attoFloor 1 0 = 10 ^ 18 := by decide
  rw [ha]
  by_cases h : 10 ^ 18 = 0 ∨ c = 0
  · rw [if_pos h]
    have h0 : c = 0 := by omega
    subst h0
    exact ⟨_, rfl, zero_wf.1, by rw [zero_wf.2]; simp [clamp_zero]⟩
  · rw [if_neg h]
    obtain ⟨g1, g2, -⟩ := ofNanos_nanos (Bool.xor (r.isNegative.getD false) (decide (c < 0))) (10 ^ 18 * c.natAbs / 1000000000)
    refine ⟨_, rfl, g2, ?_⟩
    rw [g1, ← sign_mul _ c _ (fun hh => h (Or.inr hh))]
    congr 2
    rw [show 10 ^ 18 * c.natAbs = 10 ^ 9 * c.natAbs * 1000000000 by ring, Nat.mul_div_cancel _ (by decide)]
    push_cast
    rfl

theorem numeral_result {neg : Bool} {q : Multiplier} {u : TimeUnit × Multiplier} {r : DurationRepr} (hu : UnitOk u)
    (hq : q.exponent = 0) (hq' : q.coefficient.natAbs ≤ 12) (h1 : r.whole = none)
    (h2 : r.fract = none) (h3 : r.numeral = some q) (h4 : r.isNegative.getD false = neg) (h5 : r.unit = some u.1)
    (h6 : r.multiplier = u.2) (pt : Bool) : Result (parseReprFuzzy r) (partOf neg pt (.numeral q u)) := by
  obtain ⟨hm1, hm2, hm3, hm4⟩ := numeral_mul hu hq hq'
  obtain ⟨t, m⟩ := u
  simp only [partOf] at *
  by_cases hf1 : t = .month ∨ t = .year
  · refine result_fuzzy h5 hf1 ?_
    have hone := hu.2.2.2 (by rcases hf1 with h | h <;> simp [h])
    simp only at hone
    unfold fuzzyUnit fuzzyNumber
    rw [h1, h2, h3]
    simp only [Option.isSome_none, Bool.false_eq_true, if_false]
    rw [h4, h6, hm4, liftP_ok, ok_bind]
    simp only
    rw [ok_pure]
    congr 1
    unfold sg saturatingNegI64 clampI64 I64_MIN I64_MAX
    rcases hone with h | h <;> rw [h] <;> cases neg <;> simp <;> omega
  · have hm : t ≠ .month := fun hh => hf1 (Or.inl hh)
    have hy : t ≠ .year := fun hh => hf1 (Or.inr hh)
    rw [amount_exact hm hy]
    refine result_exact (t := t) (by rw [h5]; rfl) hm hy ?_
    obtain ⟨d, g1, g2, g3⟩ := fixed_zero r _ hm3
    refine ⟨d, ?_, g2, ?_⟩
    · unfold parseRepr
      simp only [h1, h2, h3, h5, h6, Option.getD_some, hm1, ok_bind, hm2, g1, liftP_ok]
    · rw [g3, h4]
      congr 1
      push_cast
      ring

/-- The value of an item. -/
theorem item_result (hd : cfg.defaultUnit = .second) {neg pt : Bool} {item : Item} {r : DurationRepr}
    (h : IsRepr I cfg neg pt item r) (hi : ItemOk item) : Result (parseReprFuzzy r) (partOf neg pt item) := by
  cases item with
  | number W F e u =>
    obtain ⟨rfl, hu⟩ := hi
    refine number_result (numberRepr hd h) ?_ ?_
    · cases u with
      | none => exact ⟨by decide, rfl, by decide, fun _ => Or.inl rfl⟩
      | some u => exact (hu u rfl).1
    · cases u with
      | none => decide
      | some u => exact (hu u rfl).2
  | infinity => exact absurd hi id
  | word u =>
    obtain ⟨r0, h1, h2, h3, rfl⟩ := h
    exact word_result (r := withUnit r0 (some u)) hi h2 h3 h1.numeral h1.sign rfl rfl pt
  | numeral q u =>
    obtain ⟨r0, h1, h2, h3, rfl⟩ := h
    exact numeral_result (r := withUnit { r0 with numeral := some q } (some u)) hi.2.2 hi.1 hi.2.1 h2 h3 rfl h1.sign rfl rfl pt

end Fundu.Gnu
