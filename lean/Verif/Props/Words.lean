import Verif.Props.Grammar
/-!
# Properties C30-C32: `ago`, keywords, time units without a number, numerals
-/
namespace Fundu.Props
open Fundu Fundu.Spec

/-! ## Texts with something appended -/

theorem startsWith_append {p : UInt8 → Prop} {s x : Bytes} (hs : s ≠ []) : StartsWith p (s ++ x) ↔ StartsWith p s := by
  cases s with
  | nil => exact absurd rfl hs
  | cons b l =>
    constructor
    · rintro ⟨_, _, h1, h2⟩; cases h1; exact ⟨b, l, rfl, h2⟩
    · rintro ⟨_, _, h1, h2⟩; cases h1; exact ⟨b, l ++ x, rfl, h2⟩

theorem split_append {p : UInt8 → Prop} {s run rest x : Bytes} (h : Split p s run rest) (hr : rest ≠ []) :
    Split p (s ++ x) run (rest ++ x) := by
  obtain ⟨rfl, h2, h3⟩ := h
  exact ⟨by simp, h2, by rwa [startsWith_append hr]⟩

theorem afterDelims_append {a : Bool} {d : Delimiter} {s r x : Bytes} (h : AfterDelims a d s r) (hr : r ≠ []) :
    AfterDelims a d (s ++ x) (r ++ x) := by
  unfold AfterDelims at *
  cases a with
  | false => rw [if_neg (by simp)] at *; rw [h]
  | true =>
    rw [if_pos rfl] at *
    obtain ⟨ds, h⟩ := h
    exact ⟨ds, split_append h hr⟩

theorem afterDelims_ne {a : Bool} {d : Delimiter} {s r : Bytes} (h : AfterDelims a d s r) (hr : r ≠ []) : s ≠ [] := by
  rintro rfl
  unfold AfterDelims at h
  split at h
  · obtain ⟨ds, h, -⟩ := h
    exact hr (List.append_eq_nil_iff.1 h.symm).2
  · exact hr h

theorem signPart_ne {cfg : Config} {s r : Bytes} {neg : Bool} (h : SignPart cfg s neg r) : r ≠ [] := by
  cases h <;> assumption

theorem signPart_append {cfg : Config} {s r : Bytes} {neg : Bool} (h : SignPart cfg s neg r) (x : Bytes) :
    SignPart cfg (s ++ x) neg (r ++ x) := by
  cases h with
  | absent h1 h2 => exact .absent (by simp [h1]) (by rwa [startsWith_append h1])
  | plus h1 h2 => exact .plus (afterDelims_append h1 h2) (by simp [h2])
  | minus h1 h2 => exact .minus (afterDelims_append h1 h2) (by simp [h2])

theorem numberText_append {cfg : Config} {s W F r : Bytes} {e : Int} (h : NumberText cfg s W F e r) (hr : r ≠ [])
    (x : Bytes) : NumberText cfg (s ++ x) W F e (r ++ x) := by
  obtain ⟨r1, r2, h1, h2, h3⟩ := h
  have hr2 : r2 ≠ [] := by
    rintro rfl
    cases h3
    exact hr rfl
  have hr1 : r1 ≠ [] := by
    rintro rfl
    cases h2
    exact hr2 rfl
  refine ⟨r1 ++ x, r2 ++ x, split_append h1 hr1, ?_, ?_⟩
  · cases h2 with
    | absent g1 g2 => exact .absent g1 (by rwa [startsWith_append hr2])
    | present g1 g2 g3 => exact .present g1 (split_append g2 hr2) g3
  · cases h3 with
    | absent g => exact .absent (by rwa [startsWith_append hr])
    | @present y q neg q' E _ g1 g2 g3 g4 g5 g6 =>
      refine .present g1 g2 ?_ (split_append g4 hr) g5 g6
      cases g3 with
      | absent g =>
        have hq : q ≠ [] := by
          rintro rfl
          exact g5 (List.append_eq_nil_iff.1 g4.1.symm).1
        exact .absent (fun h => g ((startsWith_append hq).1 h))
      | plus => exact .plus
      | minus => exact .minus

/-! ## Negation -/

theorem truncatedNanos_neg (v : ℚ) (c : ℤ) : truncatedNanos v (-c) = truncatedNanos v c := by
  unfold truncatedNanos; rw [abs_neg]

theorem literalSign_neg (neg : Bool) {c : ℤ} (hc : c ≠ 0) : literalSign neg (-c) = -literalSign neg c := by
  unfold literalSign
  rcases lt_or_gt_of_ne hc with h | h
  · rw [if_neg (show ¬ -c < 0 by omega), if_pos h]; ring
  · rw [if_pos (show -c < 0 by omega), if_neg (show ¬ c < 0 by omega)]; ring

theorem literalSign_not (neg : Bool) (c : ℤ) : literalSign (!neg) c = -literalSign neg c := by
  unfold literalSign; cases neg <;> by_cases h : c < 0 <;> simp [h]

theorem value_exists (neg : Bool) (W F : Bytes) (e : Int) (m : Multiplier) : ∃ d, Value neg W F e m d :=
  ⟨_, (value_iff ..).2 rfl⟩

theorem product_negated (a m : Multiplier) (hm : m.coefficient ≠ -2 ^ 63) :
    product a (negated m) = ⟨-(product a m).coefficient, (product a m).exponent⟩ := by
  unfold product negated
  simp only [if_neg hm, Int.mul_neg]

theorem value_nanos_zero {neg : Bool} {W F : Bytes} {e : Int} {m : Multiplier} {d : Duration}
    (h : Value neg W F e m d) (hc : m.coefficient = 0) : nanos d = 0 := by
  rw [h.2.1, hc]
  have : truncatedNanos (literalValue W F (e + m.exponent)) 0 = 0 := by simp [truncatedNanos]
  rw [this]
  have : min maxNanos 0 = 0 := by decide
  rw [this, Int.mul_zero]

/-- changing the sign of the coefficient negates the value -/
theorem value_negated {neg : Bool} {W F : Bytes} {e : Int} {m : Multiplier} {d d' : Duration}
    (h : Value neg W F e m d) (h' : Value neg W F e ⟨-m.coefficient, m.exponent⟩ d') : nanos d' = -nanos d := by
  by_cases hc : m.coefficient = 0
  · rw [value_nanos_zero h hc, value_nanos_zero h' (by simp [hc])]; rfl
  · rw [h.2.1, h'.2.1]
    simp only
    rw [literalSign_neg neg hc, truncatedNanos_neg, Int.neg_mul]

/-- changing the sign of the coefficient and the explicit sign does not change the value -/
theorem value_cancel {neg : Bool} {W F : Bytes} {e : Int} {m : Multiplier} {d d' : Duration}
    (h : Value neg W F e m d) (h' : Value (!neg) W F e ⟨-m.coefficient, m.exponent⟩ d') : nanos d' = nanos d := by
  by_cases hc : m.coefficient = 0
  · rw [value_nanos_zero h hc, value_nanos_zero h' (by simp [hc])]
  · rw [h.2.1, h'.2.1]
    simp only
    rw [literalSign_not, literalSign_neg neg hc, truncatedNanos_neg, Int.neg_neg]

/-- the negation of a unit's multiplier fits if the multiplier does -/
theorem fits_negated {u : TimeUnit} {m : Multiplier} (h : Fits u.multiplier m) (hm : m.coefficient ≠ -2 ^ 63) :
    Fits u.multiplier (negated m) := by
  obtain ⟨h1, h2⟩ := h
  refine ⟨?_, h2⟩
  unfold negated
  simp only [if_neg hm, Int.mul_neg]
  have hne : u.multiplier.coefficient * m.coefficient ≠ -2 ^ 63 := by
    intro h
    rcases unit_coefficient u with hu | ⟨-, -, -, hu⟩
    · rw [hu, Int.one_mul] at h
      exact hm h
    · have : (u.multiplier.coefficient * m.coefficient) % 3 = 0 := by
        rw [Int.mul_emod, hu]; simp
      rw [h] at this
      revert this; decide
  unfold IsI64 I64_MIN I64_MAX at *
  omega

/-! ## C30 -/

section
variable (cfg : Config) (units : TimeUnitsLike) (keywords : Option TimeUnitsLike) (numerals : Option NumbersLike)

theorem split_self {p : UInt8 → Prop} {w : Bytes} (h : ∀ b ∈ w, p b) : Split p w w [] :=
  ⟨by simp, h, fun ⟨_, _, h, _⟩ => by cases h⟩

theorem split_of {p : UInt8 → Prop} {w r : Bytes} (h : ∀ b ∈ w, p b) (hr : ¬ StartsWith p r) : Split p (w ++ r) w r :=
  ⟨rfl, h, hr⟩

/-- C30, single durations: if a text is a number with a time unit `w`, then the same text followed by delimiters and
`ago` in any case denotes the negation. -/
theorem C30_ago (s : Bytes) {r W F t w ds a : Bytes} {e : Int} {neg : Bool} {u : TimeUnit} {m : Multiplier}
    (hs : IsText s) (hs' : IsText (s ++ (ds ++ a))) (hc : CfgText cfg) (hm : cfg.allowMultiple = false)
    (hago : cfg.allowAgo = true) (hneg : cfg.allowNegative = true) (hne : units.isEmpty = false)
    (h1 : SignPart cfg s neg r) (h2 : NumberText cfg r W F e t)
    (h3 : AfterDelims cfg.allowTimeUnitDelimiter cfg.innerDelimiter t w) (hw : w ≠ [])
    (hwd : ∀ b ∈ w, ¬ cfg.innerDelimiter b = true) (hu : units.get w = some (u, m)) (hf : Fits u.multiplier m)
    (hmin : m.coefficient ≠ -2 ^ 63) (hds : ds ≠ []) (hdd : ∀ b ∈ ds, cfg.innerDelimiter b = true)
    (ha : SameText a (b! "ago")) (had : ¬ StartsWith (cfg.innerDelimiter · = true) a) :
    ∃ d d', parse cfg units keywords numerals s = .ok d ∧
      parse cfg units keywords numerals (s ++ (ds ++ a)) = .ok d' ∧ nanos d' = -nanos d := by
  obtain ⟨d, hd⟩ := value_exists neg W F e (product u.multiplier m)
  obtain ⟨d', hd'⟩ := value_exists neg W F e (product u.multiplier (negated m))
  have hx : ¬ StartsWith (¬ cfg.innerDelimiter · = true) (ds ++ a) := by
    rw [startsWith_append hds]
    rintro ⟨b, l, rfl, hb⟩
    exact hb (hdd b (by simp))
  refine ⟨d, d', ?_, ?_, ?_⟩
  · rw [C27_single cfg units keywords numerals s d hs hc hm]
    exact ⟨neg, r, _, h1, .number h2 (.present h3 hw hne (.plain hago (split_self hwd) hw hu)),
      .numberUnit hf hd, Or.inl hneg⟩
  · rw [C27_single cfg units keywords numerals _ d' hs' hc hm]
    exact ⟨neg, _, _, signPart_append h1 _, .number (numberText_append h2 (afterDelims_ne h3 hw) _)
      (.present (afterDelims_append h3 hw) (by simp [hw]) hne
        (.ago hago (split_of hwd hx) hw hu (split_of hdd had) ⟨a, by simp, ha⟩)),
      .numberUnit (fits_negated hf hmin) hd', Or.inl hneg⟩
  · rw [product_negated _ _ hmin] at hd'
    exact value_negated hd hd'

/-- C30: a minus sign and `ago` cancel: `s` is a number with a time unit and a sign, `s'` is the same with the
opposite sign (or without one). -/
theorem C30_sign_cancels (s s' : Bytes) {r W F t w ds a : Bytes} {e : Int} {neg : Bool} {u : TimeUnit} {m : Multiplier}
    (hs : IsText s') (hs' : IsText (s ++ (ds ++ a))) (hc : CfgText cfg) (hm : cfg.allowMultiple = false)
    (hago : cfg.allowAgo = true) (hneg : cfg.allowNegative = true) (hne : units.isEmpty = false)
    (h1 : SignPart cfg s (!neg) r) (h1' : SignPart cfg s' neg r) (h2 : NumberText cfg r W F e t)
    (h3 : AfterDelims cfg.allowTimeUnitDelimiter cfg.innerDelimiter t w) (hw : w ≠ [])
    (hwd : ∀ b ∈ w, ¬ cfg.innerDelimiter b = true) (hu : units.get w = some (u, m)) (hf : Fits u.multiplier m)
    (hmin : m.coefficient ≠ -2 ^ 63) (hds : ds ≠ []) (hdd : ∀ b ∈ ds, cfg.innerDelimiter b = true)
    (ha : SameText a (b! "ago")) (had : ¬ StartsWith (cfg.innerDelimiter · = true) a) :
    ∃ d d', parse cfg units keywords numerals s' = .ok d ∧
      parse cfg units keywords numerals (s ++ (ds ++ a)) = .ok d' ∧ nanos d' = nanos d := by
  obtain ⟨d, hd⟩ := value_exists neg W F e (product u.multiplier m)
  obtain ⟨d', hd'⟩ := value_exists (!neg) W F e (product u.multiplier (negated m))
  have hx : ¬ StartsWith (¬ cfg.innerDelimiter · = true) (ds ++ a) := by
    rw [startsWith_append hds]
    rintro ⟨b, l, rfl, hb⟩
    exact hb (hdd b (by simp))
  refine ⟨d, d', ?_, ?_, ?_⟩
  · rw [C27_single cfg units keywords numerals s' d hs hc hm]
    exact ⟨neg, r, _, h1', .number h2 (.present h3 hw hne (.plain hago (split_self hwd) hw hu)),
      .numberUnit hf hd, Or.inl hneg⟩
  · rw [C27_single cfg units keywords numerals _ d' hs' hc hm]
    exact ⟨!neg, _, _, signPart_append h1 _, .number (numberText_append h2 (afterDelims_ne h3 hw) _)
      (.present (afterDelims_append h3 hw) (by simp [hw]) hne
        (.ago hago (split_of hwd hx) hw hu (split_of hdd had) ⟨a, by simp, ha⟩)),
      .numberUnit (fits_negated hf hmin) hd', Or.inl hneg⟩
  · rw [product_negated _ _ hmin] at hd'
    exact value_cancel hd hd'

/-- C30, a time unit without a number. -/
theorem C30_ago_unit (s : Bytes) {w ds a : Bytes} {neg : Bool} {u : TimeUnit} {m : Multiplier}
    (hs : IsText s) (hs' : IsText (s ++ (ds ++ a))) (hc : CfgText cfg) (hm : cfg.allowMultiple = false)
    (hago : cfg.allowAgo = true) (hneg : cfg.allowNegative = true) (hopt : cfg.numberIsOptional = true)
    (h1 : SignPart cfg s neg w) (h2 : WordStart cfg w) (h2' : WordStart cfg (w ++ (ds ++ a)))
    (hk : ∀ k, keywords = some k → k.get w = none ∧ k.get (w ++ (ds ++ a)) = none)
    (hwd : ∀ b ∈ w, ¬ cfg.innerDelimiter b = true) (hu : units.get w = some (u, m)) (hf : Fits u.multiplier m)
    (hmin : m.coefficient ≠ -2 ^ 63) (hds : ds ≠ []) (hdd : ∀ b ∈ ds, cfg.innerDelimiter b = true)
    (ha : SameText a (b! "ago")) (had : ¬ StartsWith (cfg.innerDelimiter · = true) a) :
    ∃ d d', parse cfg units keywords numerals s = .ok d ∧
      parse cfg units keywords numerals (s ++ (ds ++ a)) = .ok d' ∧ nanos d' = -nanos d := by
  have hw : w ≠ [] := signPart_ne h1
  obtain ⟨d, hd⟩ := value_exists (neg && decide ((product u.multiplier m).exponent ≤ 19)) (b! "1") [] 0
    (product u.multiplier m)
  obtain ⟨d', hd'⟩ := value_exists (neg && decide ((product u.multiplier m).exponent ≤ 19)) (b! "1") [] 0
    (product u.multiplier (negated m))
  have hx : ¬ StartsWith (¬ cfg.innerDelimiter · = true) (ds ++ a) := by
    rw [startsWith_append hds]
    rintro ⟨b, l, rfl, hb⟩
    exact hb (hdd b (by simp))
  refine ⟨d, d', ?_, ?_, ?_⟩
  · rw [C27_single cfg units keywords numerals s d hs hc hm]
    exact ⟨neg, w, _, h1, .unit h2 (fun k h => (hk k h).1) hopt (.plain hago (split_self hwd) hw hu),
      .word hf hd, Or.inl hneg⟩
  · rw [C27_single cfg units keywords numerals _ d' hs' hc hm]
    exact ⟨neg, _, _, signPart_append h1 _, .unit h2' (fun k h => (hk k h).2) hopt
        (.ago hago (split_of hwd hx) hw hu (split_of hdd had) ⟨a, by simp, ha⟩),
      .word (fits_negated hf hmin) hd', Or.inl hneg⟩
  · rw [product_negated _ _ hmin] at hd'
    exact value_negated hd hd'

/-- C30, a number with a time unit as the only duration of a parser of multiple durations. -/
theorem C30_ago_multiple (s : Bytes) {r W F t w ds a : Bytes} {e : Int} {neg : Bool} {u : TimeUnit} {m : Multiplier}
    (hs : IsText s) (hs' : IsText (s ++ (ds ++ a))) (hc : CfgText cfg) (hm : cfg.allowMultiple = true)
    (hdel : (∀ b, cfg.innerDelimiter b = true → cfg.outerDelimiter b = true) ∨ (keywords = none ∧ numerals = none))
    (hago : cfg.allowAgo = true) (hneg : cfg.allowNegative = true) (hne : units.isEmpty = false)
    (h1 : SignPart cfg s neg r) (h2 : NumberText cfg r W F e t)
    (h3 : AfterDelims cfg.allowTimeUnitDelimiter cfg.innerDelimiter t w) (hw : w ≠ [])
    (hwd : ∀ b ∈ w, ¬ UnitEnd cfg b) (hu : units.get w = some (u, m)) (hf : Fits u.multiplier m)
    (hmin : m.coefficient ≠ -2 ^ 63) (hds : ds ≠ []) (hdd : ∀ b ∈ ds, cfg.innerDelimiter b = true)
    (ha : SameText a (b! "ago")) (had : ¬ StartsWith (cfg.innerDelimiter · = true) a) :
    ∃ d d', parse cfg units keywords numerals s = .ok d ∧
      parse cfg units keywords numerals (s ++ (ds ++ a)) = .ok d' ∧ nanos d' = -nanos d := by
  obtain ⟨d, hd⟩ := value_exists neg W F e (product u.multiplier m)
  obtain ⟨d', hd'⟩ := value_exists neg W F e (product u.multiplier (negated m))
  have hnil : ∀ p : UInt8 → Prop, ¬ StartsWith p [] := fun p ⟨_, _, h, _⟩ => by cases h
  have hx : ¬ StartsWith (¬ UnitEnd cfg ·) (ds ++ a) := by
    rw [startsWith_append hds]
    rintro ⟨b, l, rfl, hb⟩
    exact hb (Or.inl ⟨hago, hdd b (by simp)⟩)
  have one : ∀ d : Duration, d.WF → nanos d = saturatingSum ([d].map nanos) := by
    intro d h
    show nanos d = clamp (0 + nanos d)
    rw [Int.zero_add, clamp_nanos h]
  obtain ⟨p, g1, g2, g3⟩ := (C27_multiple cfg units keywords numerals s _ hs hc hm hdel).2
    ⟨[d], ⟨[(neg, .number W F e (some (u, m)))],
      .last h1 (.numberUnit h2 h3 hne (.mk ⟨w, split_self hwd, hw, hu⟩ (.absent (fun _ => hnil _)) (.absent (hnil _)))),
      .cons ⟨.numberUnit hf hd, Or.inl hneg⟩ .nil⟩, one d hd.1⟩
  obtain ⟨p', g1', g2', g3'⟩ := (C27_multiple cfg units keywords numerals (s ++ (ds ++ a)) _ hs' hc hm hdel).2
    ⟨[d'], ⟨[(neg, .number W F e (some (u, negated m)))],
      .last (signPart_append h1 _) (.numberUnit (numberText_append h2 (afterDelims_ne h3 hw) _)
        (afterDelims_append h3 hw) hne
        (.mk ⟨w, split_of hwd hx, hw, hu⟩ (.ago hago (split_of hdd had) hds ⟨⟨a, by simp, ha⟩, Or.inl rfl⟩)
          (.absent (hnil _)))),
      .cons ⟨.numberUnit (fits_negated hf hmin) hd', Or.inl hneg⟩ .nil⟩, one d' hd'.1⟩
  refine ⟨p, p', g1, g1', ?_⟩
  rw [g3, g3']
  rw [product_negated _ _ hmin] at hd'
  exact value_negated hd hd'

/-- `-1.5 century` and `-1.5 century \t aGO`: the number, unit and delimiters meet the hypotheses -/
example : NumberText singleConfig (b! "1.5 century") (b! "1") (b! "5") 0 (b! " century") ∧
    AfterDelims true isAsciiWhitespace (b! " century") (b! "century") ∧
    exampleUnits.get (b! "century") = some (.year, ⟨100, 0⟩) ∧ Fits TimeUnit.year.multiplier ⟨100, 0⟩ ∧
    SameText (b! "aGO") (b! "ago") ∧
    parse singleConfig exampleUnits none none (b! "-1.5 century") = .ok ⟨true, ⟨4733640000, 0⟩⟩ ∧
    parse singleConfig exampleUnits none none (b! "-1.5 century \t aGO") = .ok ⟨false, ⟨4733640000, 0⟩⟩ := by
  refine ⟨⟨b! ".5 century", b! " century", ⟨by decide, by decide, ?_⟩, .present rfl ⟨by decide, by decide, ?_⟩
    (Or.inl (by decide)), .absent ?_⟩, ⟨b! " ", by decide, by decide, ?_⟩, by decide, by decide, by decide,
    by decide +kernel, by decide +kernel⟩ <;>
    (rintro ⟨b, l, h1, h2⟩; cases h1; revert h2; decide)

/-! ## C31 -/

/-- C31: a signed time unit without a number (`s`, where `w` is the text after the sign) and the literal `1` with
this unit and sign (`s'`) have the same result, if the exponent is at most 19 or the sign is not negative. -/
theorem C31_unit_without_number (s s' : Bytes) (d : Duration) {w : Bytes} {neg : Bool} {u : TimeUnit} {m : Multiplier}
    (hs : IsText s) (hs' : IsText s') (hc : CfgText cfg) (hm : cfg.allowMultiple = false)
    (hopt : cfg.numberIsOptional = true) (hne : units.isEmpty = false)
    (h1 : SignPart cfg s neg w) (h1' : SignPart cfg s' neg (49 :: w)) (h2 : WordStart cfg w)
    (he : ¬ StartsWith (fun b => b = 101 ∨ b = 69) w) (hin : ¬ StartsWith (cfg.innerDelimiter · = true) w)
    (hk : ∀ k, keywords = some k → k.get w = none) (hu : UnitSingle cfg units w (u, m) [])
    (hx : neg = false ∨ u.multiplier.exponent + m.exponent ≤ 19) :
    parse cfg units keywords numerals s = .ok d ↔ parse cfg units keywords numerals s' = .ok d := by
  rw [C27_single cfg units keywords numerals s d hs hc hm, C27_single cfg units keywords numerals s' d hs' hc hm]
  have hw : w ≠ [] := signPart_ne h1
  have hden : Denotes cfg neg (.word (u, m)) d ↔ Denotes cfg neg (.number (b! "1") [] 0 (some (u, m))) d := by
    have hneg : (neg && decide ((product u.multiplier m).exponent ≤ 19)) = neg := by
      rcases hx with rfl | hx
      · rfl
      · have : (product u.multiplier m).exponent ≤ 19 := hx
        simp [this]
    constructor
    · intro h
      cases h with
      | word g1 g2 => rw [hneg] at g2; exact .numberUnit g1 g2
    · intro h
      cases h with
      | numberUnit g1 g2 => exact .word g1 (by rw [hneg]; exact g2)
  have hN : NumberText cfg (49 :: w) (b! "1") [] 0 w := by
    refine ⟨w, w, ⟨rfl, by decide, h2.2.1⟩, .absent (by decide) h2.2.2.1, .absent he⟩
  have hdelim : AfterDelims cfg.allowTimeUnitDelimiter cfg.innerDelimiter w w := by
    unfold AfterDelims
    split
    · exact ⟨[], rfl, by simp, hin⟩
    · rfl
  have hT : SingleText cfg units keywords numerals w (.word (u, m)) := .unit h2 hk hopt hu
  have hT' : SingleText cfg units keywords numerals (49 :: w) (.number (b! "1") [] 0 (some (u, m))) :=
    .number hN (.present hdelim hw hne hu)
  constructor
  · rintro ⟨neg', r, item, k1, k2, k3, k4⟩
    obtain ⟨rfl, rfl, rfl⟩ := C27_unambiguous_single cfg units keywords numerals s _ _ _ _ _ _ h1 hT k1 k2
    exact ⟨neg, _, _, h1', hT', hden.1 k3, k4⟩
  · rintro ⟨neg', r, item, k1, k2, k3, k4⟩
    obtain ⟨rfl, rfl, rfl⟩ := C27_unambiguous_single cfg units keywords numerals s' _ _ _ _ _ _ h1' hT' k1 k2
    exact ⟨neg, _, _, h1, hT, hden.2 k3, k4⟩

example : WordStart singleConfig (b! "century") ∧ UnitSingle singleConfig exampleUnits (b! "century") (.year, ⟨100, 0⟩) [] ∧
    parse singleConfig exampleUnits none none (b! "-century") = .ok ⟨true, ⟨3155760000, 0⟩⟩ ∧
    parse singleConfig exampleUnits none none (b! "-1century") = .ok ⟨true, ⟨3155760000, 0⟩⟩ := by
  refine ⟨⟨by decide, ?_, ?_, ?_⟩, .plain rfl (split_self ?_) (by decide) (by decide), by decide +kernel,
    by decide +kernel⟩
  · rintro ⟨b, l, h1, h2⟩; cases h1; revert h2; decide
  · rintro ⟨b, l, h1, h2⟩; cases h1; revert h2; decide
  · rintro - ⟨r, h⟩
    have := (exists_afterWord_iff _ _).1 ⟨r, h⟩
    revert this; decide +kernel
  · decide

/-- C31: the hypothesis about the exponent cannot be dropped: the sign is lost (finding F1). -/
theorem C31_sign_lost :
    let units : TimeUnitsLike := ⟨false, fun id => if id = b! "x" then some (.second, ⟨1, 20⟩) else none⟩
    parse singleConfig units none none (b! "-1x") = .ok Duration.MIN ∧
    parse singleConfig units none none (b! "-x") = .ok Duration.MAX := by decide +kernel

/-- The duration of a multiplier `p`, which the sign of the text negates: `p.coefficient * 10^p.exponent` seconds,
cut off to nanoseconds, saturating. -/
def MultiplierValue (neg : Bool) (p : Multiplier) (d : Duration) : Prop :=
  d.WF ∧ nanos d = literalSign neg p.coefficient * min maxNanos ⌊(|p.coefficient| : ℚ) * 10 ^ p.exponent * 10 ^ 9⌋

theorem value_one {neg : Bool} {p : Multiplier} {d : Duration} (h : Value neg (b! "1") [] 0 p d)
    (he : -18 ≤ p.exponent) : MultiplierValue neg p d := by
  refine ⟨h.1, ?_⟩
  rw [h.2.1]
  have e1 : literalValue (b! "1") [] (0 + p.exponent) = 10 ^ p.exponent := by
    unfold literalValue
    have : decimal (b! "1") = 1 := by decide
    rw [this]
    simp [decimal]
  rw [e1, C17_exact _ _ (Or.inl ?_)]
  · congr 3; push_cast; ring
  · obtain ⟨n, hn⟩ := Int.eq_ofNat_of_zero_le (show 0 ≤ p.exponent + 18 by omega)
    refine ⟨10 ^ n, ?_⟩
    rw [show ((10 : ℚ) ^ 18) = 10 ^ (18 : ℤ) by norm_num, ← zpow_add₀ (by norm_num), hn]
    push_cast
    rw [zpow_natCast]

/-- C31: a keyword denotes the duration of its multiplier. (The exponents excluded are those of findings F1 and F2.) -/
theorem C31_keyword (s : Bytes) {w : Bytes} {neg : Bool} {k : TimeUnitsLike} {u : TimeUnit} {m : Multiplier}
    (hs : IsText s) (hc : CfgText cfg) (hm : cfg.allowMultiple = false) (hneg : cfg.allowNegative = true)
    (h1 : SignPart cfg s neg w) (h2 : WordStart cfg w) (hk : keywords = some k) (hw : k.get w = some (u, m))
    (hf : Fits u.multiplier m) (hx : neg = false ∨ u.multiplier.exponent + m.exponent ≤ 19)
    (hx' : -18 ≤ u.multiplier.exponent + m.exponent) :
    ∃ d, parse cfg units keywords numerals s = .ok d ∧ MultiplierValue neg (product u.multiplier m) d := by
  have hnn : (neg && decide ((product u.multiplier m).exponent ≤ 19)) = neg := by
    rcases hx with rfl | hx
    · rfl
    · have : (product u.multiplier m).exponent ≤ 19 := hx
      simp [this]
  obtain ⟨d, hd⟩ := value_exists neg (b! "1") [] 0 (product u.multiplier m)
  refine ⟨d, ?_, value_one hd hx'⟩
  rw [C27_single cfg units keywords numerals s d hs hc hm]
  exact ⟨neg, w, _, h1, .keyword h2 hk hw, .word hf (by rw [hnn]; exact hd), Or.inl hneg⟩

/-- C31: so does a time unit without a number. -/
theorem C31_unit_value (s : Bytes) {w : Bytes} {neg : Bool} {u : TimeUnit} {m : Multiplier}
    (hs : IsText s) (hc : CfgText cfg) (hm : cfg.allowMultiple = false) (hneg : cfg.allowNegative = true)
    (hopt : cfg.numberIsOptional = true)
    (h1 : SignPart cfg s neg w) (h2 : WordStart cfg w) (hk : ∀ k, keywords = some k → k.get w = none)
    (hu : UnitSingle cfg units w (u, m) [])
    (hf : Fits u.multiplier m) (hx : neg = false ∨ u.multiplier.exponent + m.exponent ≤ 19)
    (hx' : -18 ≤ u.multiplier.exponent + m.exponent) :
    ∃ d, parse cfg units keywords numerals s = .ok d ∧ MultiplierValue neg (product u.multiplier m) d := by
  have hnn : (neg && decide ((product u.multiplier m).exponent ≤ 19)) = neg := by
    rcases hx with rfl | hx
    · rfl
    · have : (product u.multiplier m).exponent ≤ 19 := hx
      simp [this]
  obtain ⟨d, hd⟩ := value_exists neg (b! "1") [] 0 (product u.multiplier m)
  refine ⟨d, ?_, value_one hd hx'⟩
  rw [C27_single cfg units keywords numerals s d hs hc hm]
  exact ⟨neg, w, _, h1, .unit h2 hk hopt hu, .word hf (by rw [hnn]; exact hd), Or.inl hneg⟩

example : parse singleConfig exampleUnits (some exampleKeywords) none (b! "-yesterday") = .ok ⟨false, ⟨86400, 0⟩⟩ ∧
    Fits TimeUnit.day.multiplier ⟨-1, 0⟩ ∧ WordStart singleConfig (b! "yesterday") := by
  refine ⟨by decide +kernel, by decide, by decide, ?_, ?_, ?_⟩
  · rintro ⟨b, l, h1, h2⟩; cases h1; revert h2; decide
  · rintro ⟨b, l, h1, h2⟩; cases h1; revert h2; decide
  · rintro - ⟨r, h⟩
    have := (exists_afterWord_iff _ _).1 ⟨r, h⟩
    revert this; decide +kernel

/-- Finding F2: a multiplier of 0.1 s with an exponent below -18 is zero as a word. -/
theorem C31_small_exponent :
    let units : TimeUnitsLike := ⟨false, fun id => if id = b! "x" then some (.second, ⟨10 ^ 18, -19⟩) else none⟩
    parse singleConfig units none none (b! "x") = .ok Duration.ZERO := by decide +kernel

/-! ## C32 -/

/-- C32: numeral, delimiters and time unit denote the product of the multipliers of numeral and unit. -/
theorem C32_numeral (s : Bytes) {r w r1 ds r2 : Bytes} {neg : Bool} {n : NumbersLike} {q : Multiplier}
    {u : TimeUnit} {m : Multiplier}
    (hs : IsText s) (hc : CfgText cfg) (hm : cfg.allowMultiple = false) (hneg : cfg.allowNegative = true)
    (h1 : SignPart cfg s neg r) (h2 : WordStart cfg r) (hk : ∀ k, keywords = some k → k.get r = none)
    (ho : cfg.numberIsOptional = true → ¬ ∃ u rest, UnitSingle cfg units r u rest)
    (hn : numerals = some n) (h3 : Split (¬ cfg.innerDelimiter · = true) r w r1) (hw : w ≠ []) (hq : n w = some q)
    (h4 : Split (cfg.innerDelimiter · = true) r1 ds r2) (h5 : r2 ≠ []) (hu : UnitSingle cfg units r2 (u, m) [])
    (hf : Fits q u.multiplier) (hf' : Fits (product q u.multiplier) m)
    (hx : neg = false ∨ q.exponent + u.multiplier.exponent + m.exponent ≤ 19)
    (hx' : -18 ≤ q.exponent + u.multiplier.exponent + m.exponent) :
    ∃ d, parse cfg units keywords numerals s = .ok d ∧
      MultiplierValue neg (product (product q u.multiplier) m) d := by
  have hnn : (neg && decide ((product (product q u.multiplier) m).exponent ≤ 19)) = neg := by
    rcases hx with rfl | hx
    · rfl
    · have : (product (product q u.multiplier) m).exponent ≤ 19 := hx
      simp [this]
  obtain ⟨d, hd⟩ := value_exists neg (b! "1") [] 0 (product (product q u.multiplier) m)
  refine ⟨d, ?_, value_one hd hx'⟩
  rw [C27_single cfg units keywords numerals s d hs hc hm]
  exact ⟨neg, r, _, h1, .numeral h2 hk ho hn h3 hw hq h4 h5 hu, .numeral hf hf' (by rw [hnn]; exact hd), Or.inl hneg⟩

/-- C32: a numeral without a time unit is not accepted. -/
theorem C32_numeral_without_unit (s : Bytes) (d : Duration) {r w r1 ds r2 : Bytes} {neg : Bool}
    (hs : IsText s) (hc : CfgText cfg) (hm : cfg.allowMultiple = false)
    (h1 : SignPart cfg s neg r) (h2 : WordStart cfg r) (hk : ∀ k, keywords = some k → k.get r = none)
    (ho : cfg.numberIsOptional = true → ¬ ∃ u rest, UnitSingle cfg units r u rest)
    (hinf : ¬ SameText r (b! "inf") ∧ ¬ SameText r (b! "infinity"))
    (h3 : Split (¬ cfg.innerDelimiter · = true) r w r1)
    (h4 : Split (cfg.innerDelimiter · = true) r1 ds r2) (h5 : r2 = [] ∨ ∀ u, ¬ UnitSingle cfg units r2 u []) :
    parse cfg units keywords numerals s ≠ .ok d := by
  rw [Ne, C27_single cfg units keywords numerals s d hs hc hm]
  rintro ⟨neg', r', item, k1, k2, -⟩
  obtain ⟨rfl, rfl⟩ := signPart_unique h1 k1
  cases k2 with
  | number g _ => exact wordStart_not_number h2 g
  | infinity _ g => exact g.elim hinf.1 hinf.2
  | keyword _ g1 g2 => rw [hk _ g1] at g2; cases g2
  | unit _ _ g1 g2 => exact ho g1 ⟨_, _, g2⟩
  | numeral _ _ _ _ g1 _ _ g2 g3 g4 =>
    rw [splitWord_iff] at h3 g1
    obtain ⟨rfl, rfl⟩ := h3
    obtain ⟨rfl, rfl⟩ := g1
    rw [splitDelim_iff] at h4 g2
    obtain ⟨rfl, rfl⟩ := h4
    obtain ⟨rfl, rfl⟩ := g2
    rcases h5 with h5 | h5
    · exact g3 h5
    · exact h5 _ g4

example : parse singleConfig exampleUnits none (some exampleNumerals) (b! "-two  century ago") =
      .ok ⟨false, ⟨6311520000, 0⟩⟩ ∧
    Fits ⟨2, 0⟩ TimeUnit.year.multiplier ∧ Fits (product ⟨2, 0⟩ TimeUnit.year.multiplier) ⟨-100, 0⟩ ∧
    (parse singleConfig exampleUnits none (some exampleNumerals) (b! "two")).toOption = none ∧
    (parse singleConfig exampleUnits none (some exampleNumerals) (b! "two x")).toOption = none := by decide +kernel

end
end Fundu.Props
