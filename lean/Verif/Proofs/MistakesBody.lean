import Verif.Proofs.Mistakes
/-! # The parser reports the mistakes: whole durations -/
namespace Fundu
open Spec Cursor

variable {I : Bytes} {p : Nat} {c : Cursor} {s : Bytes} {cfg : Config} {env : Env} {f : Fault}

/-! ## Numbers -/

theorem body_whole (mode : Mode) {r : DurationRepr} (hw : r.whole = none) (h : At I 0 c s) (hn : numHead s) :
    ∃ r' c', parseBody mode env r c = parseAfterWhole mode env r' c' ∧ IsWhole I r'.whole (s.takeWhile isDigit) ∧
      At I 0 c' (s.dropWhile isDigit) ∧ (s.takeWhile isDigit ≠ [] → 1 ≤ c'.pos) := by
  unfold parseBody
  cases hs : s with
  | nil => subst hs; rcases hn with h | h <;> cases h
  | cons b l =>
    have hc : c.cur = some b := by rw [hs] at h; exact h.cons
    rw [hc, ← hs]
    simp only
    have e (q : UInt8 → Bool) : L.headIs q s = q b := by rw [hs]; rfl
    by_cases h1 : isDigit b = true
    · obtain ⟨w, c', h2, h3, h4⟩ := whole_sim h (by rw [e]; exact h1)
      refine ⟨{ r with whole := some w }, c', ?_, h3, h4.zero, fun _ => h4.pos⟩
      rw [if_pos h1]
      unfold parseWhole
      rw [h2, ok_bind]
    · have h2 : b = 46 := by
        rcases hn with hn | hn
        · rw [e] at hn; exact absurd hn h1
        · rw [e] at hn; simpa using hn
      have hd : L.headIs isDigit s = false := by rw [e]; simpa using h1
      rw [takeWhile_of_head hd, dropWhile_of_head hd]
      refine ⟨r, c, ?_, by rw [hw]; exact isWhole_none, h, fun h => absurd rfl h⟩
      rw [if_neg h1, if_pos h2]

theorem numberMistake_head (hm : NumberMistake cfg s f) : numHead s := by
  have key : ∀ W r, Split IsDigit s W r → (W ≠ [] ∨ StartsWith (· = 46) r) → numHead s := by
    intro W r h1 h2
    rw [splitDigit_iff] at h1
    obtain ⟨rfl, rfl⟩ := h1
    cases hd : L.headIs isDigit s with
    | true => exact Or.inl hd
    | false =>
      rw [takeWhile_of_head hd, dropWhile_of_head hd] at h2
      rcases h2 with h2 | h2
      · exact absurd rfl h2
      · exact Or.inr ((startsWith_iff point_iff s).mp h2)
  cases hm with
  | fraction h1 h2 => exact key _ _ h1 (Or.inr (by cases h2 <;> exact ⟨_, _, rfl, rfl⟩))
  | exponent h1 h2 h3 =>
    cases h2 with
    | absent h2 _ => exact key _ _ h1 (Or.inl h2)
    | present => exact key _ _ h1 (Or.inr ⟨_, _, rfl, rfl⟩)

theorem exponentMistake_ne (h : ExponentMistake cfg s f) : s ≠ [] := by cases h <;> simp

/-- after whole digits and fraction, if there is more -/
theorem afterWhole_fract (mode : Mode) {r : DurationRepr} {W F t : Bytes} (hw : IsWhole I r.whole W) (h : At I 0 c s)
    (hp : W ≠ [] → 1 ≤ c.pos) (hf : FractionPart env.cfg W s F t) (ht : t ≠ []) :
    ∃ r' c', parseAfterWhole mode env r c = parseExponentPart mode env r' c' ∧ At I 1 c' t := by
  obtain ⟨k1, k2⟩ := (fract_iff W F).1 hf
  obtain ⟨⟨go, f, c3⟩, m1, m2, -, m3, -⟩ := (fract_sim (cfg := env.cfg) hw h hp
    (fun hW => k1.resolve_left (fun h => h hW))).some k2
  simp only at m2 m3
  have hgo : go = true := by
    cases go with
    | true => rfl
    | false => exact absurd (m2 rfl) ht
  subst hgo
  refine ⟨{ r with fract := f }, c3, ?_, m3⟩
  unfold parseAfterWhole
  rw [m1, ok_bind]
  rfl

theorem number_fails (mode : Mode) {r : DurationRepr} (hw : r.whole = none) (h : At I 0 c s)
    (hm : NumberMistake env.cfg s f) : Fails I (parseBody mode env r c) f := by
  obtain ⟨r1, c1, e1, h1, h2, h3⟩ := body_whole (env := env) mode hw h (numberMistake_head hm)
  rw [e1]
  cases hm with
  | fraction g1 g2 =>
    rw [splitDigit_iff] at g1
    obtain ⟨rfl, rfl⟩ := g1
    exact (fract_fails h1 h2 g2).bind _
  | exponent g1 g2 g3 =>
    rw [splitDigit_iff] at g1
    obtain ⟨rfl, rfl⟩ := g1
    obtain ⟨r2, c2, e2, h4⟩ := afterWhole_fract mode h1 h2 h3 g2 (exponentMistake_ne g3)
    rw [e2]
    exact (exp_fails h4 g3).bind _

theorem exponentPart_end {e : Int} {t : Bytes} (h : ExponentPart cfg s e t) (ht : t ≠ []) : s ≠ [] := by
  cases h with
  | absent h => exact ht
  | present => simp

/-- after a number, if there is more -/
theorem body_afterNumber (mode : Mode) {r : DurationRepr} (hw : r.whole = none) (h : At I 0 c s) {W F t : Bytes} {e : Int}
    (hn : NumberText env.cfg s W F e t) (ht : t ≠ []) :
    ∃ r' c', parseBody mode env r c = parseDelimiterPart mode env r' c' ∧ At I 1 c' t := by
  obtain ⟨r1, c1, e1, h1, h2, h3⟩ := body_whole (env := env) mode hw h (numberText_head hn)
  obtain ⟨t1, t2, g1, g2, g3⟩ := hn
  rw [splitDigit_iff] at g1
  obtain ⟨rfl, rfl⟩ := g1
  obtain ⟨r2, c2, e2, h4⟩ := afterWhole_fract mode h1 h2 h3 g2 (exponentPart_end g3 ht)
  rw [exp_iff] at g3
  obtain ⟨⟨go, e', c3⟩, m1, m2, m3, m4⟩ := (exp_sim (cfg := env.cfg) h4).some g3
  simp only at m2 m3 m4
  have hgo : go = true := by
    cases go with
    | true => rfl
    | false => exact absurd (m2 rfl) ht
  subst hgo
  refine ⟨{ r2 with exponent := e' }, c3, ?_, m4⟩
  rw [e1, e2]
  unfold parseExponentPart
  rw [m1, ok_bind]
  rfl

theorem delimiters_fails (ho : CfgOk env.cfg) (mode : Mode) (r : DurationRepr) (h : At I 1 c s)
    (ha : env.cfg.allowTimeUnitDelimiter = true) (hd : OnlyDelims env.cfg.innerDelimiter s) :
    Fails I (parseDelimiterPart mode env r c) (.syntax s .delimiterAtEnd) := by
  unfold parseDelimiterPart
  refine Fails.bind ?_ _
  unfold parseNumberDelimiter
  obtain ⟨b, l, hb⟩ := List.exists_cons_of_ne_nil hd.1
  have hc : c.cur = some b := by rw [hb] at h; exact h.cons
  have hbd : env.cfg.innerDelimiter b = true := hd.2 b (by rw [hb]; simp)
  simp only [hc, ha, if_true, hbd]
  exact (delims_fails ho.inner h (Nat.le_refl _) hd).bind _

/-- after the delimiters behind a number -/
theorem afterDelims_unit (ho : CfgOk env.cfg) (mode : Mode) (r : DurationRepr) (h : At I 1 c s) {t : Bytes}
    (hd : AfterDelims env.cfg.allowTimeUnitDelimiter env.cfg.innerDelimiter s t) (ht : t ≠ []) :
    ∃ c', parseDelimiterPart mode env r c = parseUnitPart mode env r c' ∧ At I 1 c' t := by
  have := (numDelim_iff t).mpr ⟨hd, fun h => absurd h ht⟩
  obtain ⟨⟨go, c1⟩, m1, m2, m3⟩ := (numDelim_sim ho h).some this
  simp only at m2 m3
  have hgo : go = true := by
    cases go with
    | true => rfl
    | false => exact absurd (m2 rfl) ht
  subst hgo
  refine ⟨c1, ?_, m3⟩
  unfold parseDelimiterPart
  rw [m1, ok_bind]
  rfl

theorem afterDelims_ne {a : Bool} {d : Delimiter} {t : Bytes} (h : AfterDelims a d s t) (ht : t ≠ []) : s ≠ [] := by
  rw [afterDelims_iff] at h
  rintro rfl
  apply ht
  rw [h]
  split <;> rfl

/-- a number, delimiters and what follows -/
theorem body_afterDelims (ho : CfgOk env.cfg) (mode : Mode) {r : DurationRepr} (hw : r.whole = none) (h : At I 0 c s)
    {W F t t' : Bytes} {e : Int} (hn : NumberText env.cfg s W F e t)
    (hd : AfterDelims env.cfg.allowTimeUnitDelimiter env.cfg.innerDelimiter t t') (ht : t' ≠ []) :
    ∃ r' c', parseBody mode env r c = parseUnitPart mode env r' c' ∧ At I 1 c' t' := by
  obtain ⟨r1, c1, e1, h1⟩ := body_afterNumber mode hw h hn (afterDelims_ne hd ht)
  obtain ⟨c2, e2, h2⟩ := afterDelims_unit ho mode r1 h1 hd ht
  exact ⟨r1, c2, e1.trans e2, h2⟩

/-! ## Units of numbers -/

theorem unitSingle_none_rest {units : TimeUnitsLike} {x : Bytes} (h : L.unitSingle cfg units s = some (none, x)) : x = s := by
  unfold L.unitSingle at h
  split at h
  · split at h
    · cases h; rfl
    · cases hg : units.get (L.word cfg.innerDelimiter s) with
      | none => rw [hg] at h; cases h; rfl
      | some y =>
        rw [hg] at h
        simp only [L.unitFound, L.agoSingle] at h
        split at h
        · cases h
        · rw [Option.bind_eq_some_iff] at h
          obtain ⟨t, _, h⟩ := h
          split at h
          · cases h
          · cases h; rfl
  · exact lookup_none h

theorem noUnitSingle_iff {units : TimeUnitsLike} : NoUnitSingle cfg units s ↔ L.unitSingle cfg units s = some (none, s) := by
  unfold NoUnitSingle
  constructor
  · rintro ⟨h1, h2⟩
    cases hu : L.unitSingle cfg units s with
    | none =>
      exfalso
      unfold L.unitSingle at hu
      split at hu
      · rename_i ha
        split at hu
        · cases hu
        · rename_i hw
          cases hg : units.get (L.word cfg.innerDelimiter s) with
          | none => rw [hg] at hu; cases hu
          | some x =>
            rw [hg] at hu
            simp only [L.unitFound, L.agoSingle] at hu
            split at hu
            · cases hu
            · rename_i hr
              unfold L.skipDelims at hu
              split at hu
              · rename_i hd
                exact h2 ⟨_, .delimiters ha ((splitWord_iff ..).mpr ⟨rfl, rfl⟩) hw hg
                  (onlyDelims_iff.mpr ⟨afterWord_head _ _ hr, hd⟩)⟩
              · simp only [Option.bind_some] at hu
                split at hu <;> cases hu
      · unfold L.lookup at hu
        cases hg : units.get s with
        | none => rw [hg] at hu; cases hu
        | some x => rw [hg] at hu; cases hu
    | some o =>
      obtain ⟨u, r⟩ := o
      cases u with
      | some u => exact absurd ⟨u, r, (unitSingle_iff ..).mpr hu⟩ h1
      | none => rw [unitSingle_none_rest hu]
  · intro h
    refine ⟨unitSingle_rest h, ?_⟩
    rintro ⟨f, hf⟩
    cases hf with
    | @delimiters w r u ha h1 h2 h3 h4 =>
      rw [splitWord_iff] at h1
      obtain ⟨rfl, rfl⟩ := h1
      obtain ⟨h5, h6⟩ := onlyDelims_iff.mp h4
      unfold L.unitSingle at h
      rw [if_pos ha, if_neg h2, h3] at h
      simp only [L.unitFound, L.agoSingle, if_neg h4.1, L.skipDelims, h6, if_true, Option.bind_none] at h
      cases h
    | more hu => exact unitSingle_rest h ⟨_, _, hu⟩

theorem numUnitSingle_fails (ho : CfgOk env.cfg) (hsc : env.scan = fun d c => c.advanceTo d) (r : DurationRepr)
    (h : At I 1 c s) (hs : s ≠ [])
    (hm : (env.units.isEmpty = true ∧ f = .timeUnit s (.noTimeUnitsAllowed s)) ∨
      (env.units.isEmpty = false ∧ NoUnitSingle env.cfg env.units s ∧ f = .timeUnit s (.invalidTimeUnit s)) ∨
      (env.units.isEmpty = false ∧ UnitSingleMistake env.cfg env.units s f)) :
    Fails I (parseUnitPart .single env r c) f := by
  obtain ⟨b, l, hb⟩ := List.exists_cons_of_ne_nil hs
  have hc : c.cur = some b := by rw [hb] at h; exact h.cons
  unfold parseUnitPart parseNumberTimeUnit
  simp only [hc]
  unfold numberTimeUnitSingle
  rcases hm with ⟨he, rfl⟩ | ⟨he, hn, rfl⟩ | ⟨he, hn⟩
  · rw [he]
    simp only [Bool.not_true, Bool.false_eq_true, if_false]
    refine Fails.bind (Fails.ok h.inv.getRemainderStrUnchecked ?_) _
    rw [h.rest]
    exact fails_timeUnit h _
  · rw [he]
    simp only [Bool.not_false, if_true]
    obtain ⟨⟨u, c'⟩, m1, m2, m3, -⟩ := (unit_at ho hsc .single h hs).some (noUnitSingle_iff.mp hn)
    simp only at m2 m3
    subst m2
    refine Fails.bind (Fails.ok m1 ?_) _
    simp only [unitOrError]
    refine Fails.ok m3.inv.getRemainderStr ?_
    rw [m3.rest]
    exact fails_timeUnit m3 _
  · rw [he]
    simp only [Bool.not_false, if_true]
    rw [bind_assoc]
    refine unitSingle_fails ho h hs hn _ ?_
    intro u c' t h1 h2 h3
    simp only [unitOrError, ok_bind, Bool.not_true, Bool.false_eq_true, if_false]
    exact finalizeSingle_fails h1 h3 _

theorem noUnitMulti_iff {units : TimeUnitsLike} : NoUnitMulti cfg units s ↔ L.unitMultiple cfg units s = some (none, s) :=
  ⟨unitMultiple_of_not, fun h => (unitMultiple_none h).2⟩

theorem numUnitMultiple_fails (ho : CfgOk env.cfg) (hsc : env.scan = fun d c => c.advanceTo d) (r : DurationRepr)
    (h : At I 1 c s) (hs : s ≠ [])
    (hm : (env.units.isEmpty = false ∧ UnitMultiMistake env.cfg env.units s f) ∨
      ((env.units.isEmpty = false → NoUnitMulti env.cfg env.units s) ∧ ConnectionMistake env.cfg s f)) :
    Fails I (parseUnitPart .multiple env r c) f := by
  obtain ⟨b, l, hb⟩ := List.exists_cons_of_ne_nil hs
  have hc : c.cur = some b := by rw [hb] at h; exact h.cons
  unfold parseUnitPart parseNumberTimeUnit
  simp only [hc]
  unfold numberTimeUnitMultiple
  rcases hm with ⟨he, hn⟩ | ⟨he, hn⟩
  · rw [he]
    simp only [Bool.not_false, if_true]
    exact ((unitMulti_fails ho hsc h hs hn).bind _).bind _
  · cases hu : env.units.isEmpty with
    | true =>
      simp only [Bool.not_true, Bool.false_eq_true, if_false]
      refine Fails.ok rfl ?_
      exact finalizeMultiple_fails ho h (Nat.le_refl _) hn _
    | false =>
      simp only [Bool.not_false, if_true]
      obtain ⟨⟨u, c'⟩, m1, m2, m3, -⟩ := (unit_at ho hsc .multiple h hs).some (noUnitMulti_iff.mp (he hu))
      simp only at m2 m3
      subst m2
      refine Fails.ok (a := (true, none, c')) (by rw [m1]; rfl) ?_
      exact finalizeMultiple_fails ho m3 (Nat.le_refl _) hn _

/-! ## Numerals -/

theorem numeral_fails (ho : CfgOk env.cfg) (hsc : env.scan = fun d c => c.advanceTo d) (mode : Mode) (r : DurationRepr)
    (h : At I 0 c s) {unitMistake : Bytes → Fault → Prop} {noUnit : Bytes → Prop}
    (hu : ∀ (c : Cursor) (t : Bytes) (f : Fault) (id : Bytes) (q : Multiplier), At I 1 c t → t ≠ [] → unitMistake t f →
      Fails I (parseTimeUnit mode env c >>= fun o => numeralUnit mode env r o.2 id q o.1) f)
    (hn : ∀ t, noUnit t → L.unit mode env.cfg env.units t = some (none, t))
    (hm : NumeralMistake env.cfg env.units env.numerals unitMistake noUnit s f) :
    Fails I (parseNumeralWord mode env r c) f := by
  unfold parseNumeralWord
  have key : ∀ w t, NumeralIn env.cfg env.numerals s w t →
      (OnlyDelims env.cfg.innerDelimiter t → Fails I (parseNumeral env c) (.syntax t .delimiterAtEnd)) ∧
      (∀ t', t' = t.dropWhile env.cfg.innerDelimiter → t' ≠ [] → ∃ q c', parseNumeral env c = .ok (some (w, q), c') ∧ At I 1 c' t') := by
    rintro w t ⟨n, q, h1, h2, h3, h4, h5⟩
    rw [splitWord_iff] at h2
    obtain ⟨rfl, rfl⟩ := h2
    have hw : ¬ (L.word env.cfg.innerDelimiter s).isEmpty = true := by simpa using h3
    have h6 := h.afterWord ho.inner
    have h7 := (word_pos hw).2
    have hh := afterWord_head _ _ h5
    obtain ⟨b, l, hb⟩ := List.exists_cons_of_ne_nil h5
    have hc : (c.advanceBy (L.word env.cfg.innerDelimiter s).length).cur = some b := by rw [hb] at h6; exact h6.cons
    have hbd : env.cfg.innerDelimiter b = true := by rw [hb] at hh; exact hh
    have e : parseNumeral env c = (do
        let c ← (c.advanceBy (L.word env.cfg.innerDelimiter s).length).tryConsumeDelimiter env.cfg.innerDelimiter
        return (some (L.word env.cfg.innerDelimiter s, q), c)) := by
      unfold parseNumeral
      rw [h1]
      simp only
      rw [scan_eq hsc _ h, ok_bind]
      simp only
      rw [if_neg hw, utf8Unchecked_ok (h.word_valid ho.inner), ok_bind, h4]
      unfold numeralFound
      simp only [hc, hbd, if_true]
    refine ⟨fun hd => ?_, ?_⟩
    · rw [e]
      exact (delims_fails ho.inner h6 (by omega) hd).bind _
    · rintro t' rfl ht
      obtain ⟨c', hx, h'⟩ := (skipDelims_sim ho.inner h6 (by omega) hh).some ((skipDelims_iff ..).mpr ⟨rfl, ht⟩)
      refine ⟨q, c', ?_, h'.le (by omega)⟩
      rw [e, hx]
      rfl
  cases hm with
  | delimiters h1 h2 => exact ((key _ _ h1).1 h2).bind _
  | unit h1 h2 h3 h4 =>
    rw [splitDelim_iff] at h2
    obtain ⟨q, c', hx, h'⟩ := (key _ _ h1).2 _ h2.2 h3
    refine Fails.ok hx ?_
    exact hu c' _ _ _ q h' h3 h4
  | noUnit h1 h2 h3 h4 =>
    rw [splitDelim_iff] at h2
    obtain ⟨q, c', hx, h'⟩ := (key _ _ h1).2 _ h2.2 h3
    refine Fails.ok hx ?_
    obtain ⟨⟨u, c2⟩, m1, m2, m3, -⟩ := (unit_at ho hsc mode h' h3).some (hn _ h4)
    simp only at m2 m3
    subst m2
    simp only [afterNumeral]
    refine Fails.ok m1 ?_
    simp only [numeralUnit]
    split
    · exact fails_timeUnit m3 _
    · exact fails_timeUnit m3 _
  | noNumeral h1 =>
    have hl : L.numeral env.cfg env.numerals s = some (none, s) := by
      unfold L.numeral
      cases hnum : env.numerals with
      | none => rfl
      | some n =>
        simp only
        split
        · rfl
        · rename_i hw
          cases hq : n (L.word env.cfg.innerDelimiter s) with
          | none => rfl
          | some q =>
            simp only [L.numeralFound]
            split
            · rename_i hh
              exfalso
              refine h1 ⟨_, _, n, q, hnum, (splitWord_iff ..).mpr ⟨rfl, rfl⟩, hw, hq, ?_⟩
              intro hx
              rw [hx] at hh
              cases hh
            · rfl
    obtain ⟨⟨o, c'⟩, m1, m2, m3, -⟩ := (numeral_at ho hsc h).some hl
    simp only at m2 m3
    have : o = none := by cases o with
      | none => rfl
      | some _ => cases m2
    subst this
    refine Fails.ok m1 ?_
    simp only [afterNumeral]
    refine Fails.ok m3.inv.getRemainderStr ?_
    rw [m3.rest]
    rfl

/-! ## Infinity -/

theorem inityLoop_prefix {x y z t : Bytes} (h : At I p c (x ++ t)) (hy : ∀ b ∈ y, b.toNat < 128) (hxy : SameText x y) :
    inityLoop c (y ++ z) = inityLoop (c.advanceBy x.length) z ∧ At I p (c.advanceBy x.length) t := by
  induction y generalizing x c with
  | nil =>
    have : x = [] := by simpa [SameText] using hxy
    subst this
    exact ⟨by rw [List.length_nil, advanceBy_zero]; rfl, by rw [List.length_nil, advanceBy_zero]; exact h⟩
  | cons b y ih =>
    cases x with
    | nil => cases hxy
    | cons a x =>
      unfold SameText at hxy
      simp only [List.map_cons, List.cons.injEq] at hxy
      rw [lower_eq, lower_eq] at hxy
      have h' : At I p (c.advance) (x ++ t) := (h.advance (ascii_of_toLower hxy.1 (hy b (by simp)))).le (by omega)
      obtain ⟨e1, e2⟩ := ih h' (fun b hb => hy b (by simp [hb])) hxy.2
      have e : c.advance.advanceBy x.length = c.advanceBy (a :: x).length := by
        unfold Cursor.advance Cursor.advanceBy
        simp only [List.length_cons]
        congr 1
        omega
      rw [e] at e1 e2
      refine ⟨?_, e2⟩
      simp only [List.cons_append]
      rw [inityLoop, show c.cur = some a from h.cons]
      simp only [if_pos hxy.1]
      exact e1

theorem lower_inity {y z : Bytes} {b : UInt8} (h : b! "inity" = y ++ b :: z) : toLower b = b := by
  have : b ∈ (b! "inity" : Bytes) := by rw [h]; simp
  have h2 : ∀ b ∈ (b! "inity" : Bytes), toLower b = b := by decide
  exact h2 b this

theorem inity_prefix_ascii {y z : Bytes} (h : b! "inity" = y ++ z) : ∀ b ∈ y, b.toNat < 128 := fun b hb =>
  inity_ascii b (by rw [h]; simp [hb])

theorem infinitySingle_fails (r : DurationRepr) (h : At I 1 c s) (hm : InfinitySingleMistake s f) :
    Fails I (parseInfinityRemainder .single cfg r c) f := by
  simp only [parseInfinityRemainder]
  have hs : s ≠ [] := by
    cases hm with
    | character => simp
    | endOfText _ _ h _ => exact h
    | more h1 h2 =>
      rintro rfl
      rw [afterWord_iff] at h1
      exact h2 (by rw [h1.2]; rfl)
  obtain ⟨b, l, hb⟩ := List.exists_cons_of_ne_nil hs
  have hc : c.cur = some b := by rw [hb] at h; exact h.cons
  unfold infinitySingle
  simp only [hc]
  cases hm with
  | @character x y a z b' t h1 h2 h3 =>
    obtain ⟨e1, e2⟩ := inityLoop_prefix (z := a :: z) h (inity_prefix_ascii h1) h2
    refine Fails.bind ?_ _
    rw [h1, e1, inityLoop, e2.cons]
    have hne : ¬ toLower b' = toLower a := by rw [lower_inity h1, ← lower_eq]; exact h3
    simp only [if_neg hne]
    exact fails_syntax e2 _
  | @endOfText _ y z h1 h2 h3 h4 =>
    have h' : At I 1 c (s ++ []) := by rw [List.append_nil]; exact h
    obtain ⟨e1, e2⟩ := inityLoop_prefix (z := z) h' (inity_prefix_ascii h1) h2
    refine Fails.bind ?_ _
    obtain ⟨a, z', rfl⟩ := List.exists_cons_of_ne_nil h4
    rw [h1, e1, inityLoop, e2.nil]
    exact fails_syntax e2 _
  | @more _ t h1 h2 =>
    rw [afterWord_iff] at h1
    have hl := inityLoop_at h (b! "inity") inity_ascii
    rw [if_pos h1.1] at hl
    obtain ⟨c', hx, h'⟩ := hl.some rfl
    rw [← h1.2] at h'
    refine Fails.ok hx ?_
    exact (checkEnd_fails h' h2).bind _

theorem inityLoopMultiple_prefix (start : Nat) {x y z t : Bytes} (h : At I p c (x ++ t)) (hy : ∀ b ∈ y, b.toNat < 128)
    (hxy : SameText x y) : inityLoopMultiple start c (y ++ z) = inityLoopMultiple start (c.advanceBy x.length) z ∧
      At I p (c.advanceBy x.length) t := by
  induction y generalizing x c with
  | nil =>
    have : x = [] := by simpa [SameText] using hxy
    subst this
    exact ⟨by rw [List.length_nil, advanceBy_zero]; rfl, by rw [List.length_nil, advanceBy_zero]; exact h⟩
  | cons b y ih =>
    cases x with
    | nil => cases hxy
    | cons a x =>
      unfold SameText at hxy
      simp only [List.map_cons, List.cons.injEq] at hxy
      rw [lower_eq, lower_eq] at hxy
      have h' : At I p (c.advance) (x ++ t) := (h.advance (ascii_of_toLower hxy.1 (hy b (by simp)))).le (by omega)
      obtain ⟨e1, e2⟩ := ih h' (fun b hb => hy b (by simp [hb])) hxy.2
      have e : c.advance.advanceBy x.length = c.advanceBy (a :: x).length := by
        unfold Cursor.advance Cursor.advanceBy
        simp only [List.length_cons]
        congr 1
        omega
      rw [e] at e1 e2
      refine ⟨?_, e2⟩
      simp only [List.cons_append]
      rw [inityLoopMultiple, show c.cur = some a from h.cons]
      simp only [if_pos hxy.1]
      exact e1

theorem sameText_ascii {x y : Bytes} (h : SameText x y) (hy : ∀ b ∈ y, b.toNat < 128) : ∀ b ∈ x, b.toNat < 128 := by
  induction x generalizing y with
  | nil => intro b hb; cases hb
  | cons a x ih =>
    cases y with
    | nil => cases h
    | cons c y =>
      unfold SameText at h
      simp only [List.map_cons, List.cons.injEq] at h
      rw [lower_eq, lower_eq] at h
      intro b hb
      rcases List.mem_cons.mp hb with rfl | hb
      · exact ascii_of_toLower h.1 (hy c (by simp))
      · exact ih h.2 (fun b hb => hy b (by simp [hb])) b hb

/-- `start` is where the text `S`, which starts with `inf`, starts -/
theorem infinityMultiple_fails (ho : CfgOk cfg) (r : DurationRepr) {start : Cursor} {S : Bytes} {q : Nat}
    (hS : At I q start S) (hst : start.pos + 3 = c.pos) (h : At I 1 c s) (hm : InfinityMultiMistake cfg S s f) :
    Fails I (parseInfinityRemainder .multiple cfg r c) f := by
  simp only [parseInfinityRemainder]
  generalize { r with isInfinite := true } = r
  have hs : s ≠ [] := by
    cases hm with
    | connection h1 => rintro rfl; have := connectionMistake_head h1; cases this
    | character _ h1 => rw [h1]; simp
    | endOfText _ _ _ h => exact h
    | noDelimiter _ h1 =>
      rintro rfl
      rw [afterWord_iff] at h1
      cases h1.1
    | connection' _ h1 h2 =>
      rintro rfl
      rw [afterWord_iff] at h1
      cases h1.1
  obtain ⟨b, l, hb⟩ := List.exists_cons_of_ne_nil hs
  have hc : c.cur = some b := by rw [hb] at h; exact h.cons
  have hbh : L.headIs cfg.outerDelimiter s = cfg.outerDelimiter b := by rw [hb]; rfl
  have hnot (hn : ¬ StartsWith (cfg.outerDelimiter · = true) s) : ¬ cfg.outerDelimiter b = true := by
    rw [startsWith_iff (delim_iff _), hbh] at hn
    exact hn
  unfold infinityMultiple
  simp only [hc]
  cases hm with
  | connection h1 =>
    have := connectionMistake_head h1
    rw [hbh] at this
    rw [if_pos this]
    exact connOut_fails ho h (Nat.le_refl _) h1 r
  | @character x y a z b' t hn h0 h1 h2 h3 =>
    rw [if_neg (hnot hn)]
    rw [h0] at h
    obtain ⟨e1, e2⟩ := inityLoopMultiple_prefix c.pos (z := a :: z) h (inity_prefix_ascii h1) h2
    refine Fails.bind ?_ _
    rw [h1, e1, inityLoopMultiple, e2.cons]
    have hne : ¬ toLower b' = toLower a := by rw [lower_inity h1, ← lower_eq]; exact h3
    simp only [if_neg hne]
    exact fails_syntax e2 _
  | @endOfText y z hn h1 h2 h3 h4 =>
    rw [if_neg (hnot hn)]
    have h' : At I 1 c (s ++ []) := by rw [List.append_nil]; exact h
    obtain ⟨e1, e2⟩ := inityLoopMultiple_prefix c.pos (z := z) h' (inity_prefix_ascii h1) h2
    refine Fails.bind ?_ _
    obtain ⟨a, z', rfl⟩ := List.exists_cons_of_ne_nil h4
    rw [h1, e1, inityLoopMultiple, e2.nil]
    simp only
    refine Fails.ok (a := start.pos) ?_ ?_
    · unfold subUsize
      rw [if_pos (by omega)]
      have : c.pos - 3 = start.pos := by omega
      rw [this]; rfl
    · refine Fails.ok (a := s) ?_ ?_
      · unfold getCurrentStrUnwrap
        have hsl := Cursor.sliceR_rest c s.length h.pos' (by rw [h.rest])
        rw [h.rest, List.take_length] at hsl
        have : sliceR (c.advanceBy s.length).input c.pos (c.advanceBy s.length).pos = .ok s := hsl
        rw [this, ok_bind, if_pos (utf8Valid_ascii (sameText_ascii h2 (inity_prefix_ascii h1)))]
      · exact fails_syntax hS _
  | @noDelimiter b' t hn h1 h2 =>
    rw [if_neg (hnot hn)]
    rw [afterWord_iff] at h1
    have hl := inityLoopMultiple_at c.pos h (b! "inity") inity_ascii
    rw [if_pos h1.1] at hl
    obtain ⟨c', hx, h'⟩ := hl.some rfl
    rw [← h1.2] at h'
    refine Fails.ok hx ?_
    unfold afterInfinity
    rw [h'.cons]
    simp only [h2, Bool.false_eq_true, if_false]
    exact fails_syntax h' _
  | @connection' t _ hn h1 h2 =>
    rw [if_neg (hnot hn)]
    rw [afterWord_iff] at h1
    have hl := inityLoopMultiple_at c.pos h (b! "inity") inity_ascii
    rw [if_pos h1.1] at hl
    obtain ⟨c', hx, h'⟩ := hl.some rfl
    rw [← h1.2] at h'
    refine Fails.ok hx ?_
    have hh := connectionMistake_head h2
    unfold afterInfinity
    cases ht : t with
    | nil => rw [ht] at hh; cases hh
    | cons b' t' =>
      have hc' : c'.cur = some b' := by rw [ht] at h'; exact h'.cons
      have hbd : cfg.outerDelimiter b' = true := by rw [ht] at hh; exact hh
      simp only [hc', hbd, if_true]
      exact connOut_fails ho h' (Nat.le_refl _) h2 r

/-! ## Whole durations -/

theorem body_of_word (mode : Mode) (r : DurationRepr) (h : At I 0 c s) (hw : WordStart env.cfg s) :
    parseBody mode env r c = parseWord mode env r c := by
  obtain ⟨h1, h2, h3⟩ := wordStart_iff.mp hw
  obtain ⟨b, l, hb⟩ := List.exists_cons_of_ne_nil h1
  have hc : c.cur = some b := by rw [hb] at h; exact h.cons
  have e (q : UInt8 → Bool) : L.headIs q s = q b := by rw [hb]; rfl
  unfold numHead at h2
  rw [e, e] at h2
  simp only [not_or, decide_eq_true_eq] at h2
  unfold parseBody
  simp only [hc, if_neg h2.1, if_neg h2.2, h.nextIs, h3, Bool.false_eq_true, if_false]

theorem body_of_infinity (mode : Mode) (r : DurationRepr) (h : At I 0 c s) (hd : env.cfg.disableInfinity = false) {t : Bytes}
    (hw : AfterWord (b! "inf") s t) : parseBody mode env r c = parseInfinityRemainder mode env.cfg r (c.advanceBy 3) ∧
      At I 1 (c.advanceBy 3) t := by
  rw [afterWord_iff] at hw
  obtain ⟨hw, rfl⟩ := hw
  obtain ⟨h1, h2⟩ := starts_inf_head hw
  obtain ⟨b, l, hb⟩ := List.exists_cons_of_ne_nil h1
  have hc : c.cur = some b := by rw [hb] at h; exact h.cons
  have e (q : UInt8 → Bool) : L.headIs q s = q b := by rw [hb]; rfl
  unfold numHead at h2
  rw [e, e] at h2
  simp only [not_or, decide_eq_true_eq] at h2
  refine ⟨?_, (h.skip inf_valid hw).le (by decide)⟩
  unfold parseBody
  simp only [hc, if_neg h2.1, if_neg h2.2, h.nextIs, hd, hw, Bool.not_false, Bool.and_self, if_true]

theorem keyword_absent (ho : CfgOk env.cfg) (hsc : env.scan = fun d c => c.advanceTo d) (mode : Mode) (r : DurationRepr)
    (h : At I 0 c s) (hs : s ≠ []) (hk : L.keyword mode env.cfg env.keywords s = some (none, s)) :
    ∃ c', parseWord mode env r c = parseUnitWord mode env r c' ∧ At I 0 c' s := by
  obtain ⟨⟨u, c'⟩, m1, m2, m3, -⟩ := (keyword_at ho hsc mode h hs).some hk
  simp only at m2 m3
  subst m2
  refine ⟨c', ?_, m3⟩
  unfold parseWord
  rw [m1, ok_bind]
  rfl

theorem unitWord_absent (ho : CfgOk env.cfg) (hsc : env.scan = fun d c => c.advanceTo d) (mode : Mode) (r : DurationRepr)
    (h : At I 0 c s) (hs : s ≠ [])
    (hu : env.cfg.numberIsOptional = true → L.unit mode env.cfg env.units s = some (none, s)) :
    ∃ c', parseUnitWord mode env r c = parseNumeralWord mode env r c' ∧ At I 0 c' s := by
  unfold parseUnitWord
  split
  · rename_i hn
    obtain ⟨⟨u, c'⟩, m1, m2, m3, -⟩ := (unit_at ho hsc mode h hs).some (hu hn)
    simp only at m2 m3
    subst m2
    refine ⟨c'.reset c.pos, ?_, h.reset m3⟩
    rw [m1, ok_bind]
    rfl
  · exact ⟨c, rfl, h⟩

theorem keywordSingle_of_not (h : ∀ k, env.keywords = some k → k.get s = none) :
    L.keyword .single env.cfg env.keywords s = some (none, s) := by
  unfold L.keyword
  cases hk : env.keywords with
  | none => rfl
  | some k => simp only [L.lookup, h k hk, L.unitFound]

theorem keywordMulti_of_not (h : ∀ k, env.keywords = some k → ¬ ∃ u r, WordIn (KeywordEnd env.cfg) k s u r) :
    L.keyword .multiple env.cfg env.keywords s = some (none, s) := by
  unfold L.keyword
  cases hk : env.keywords with
  | none => rfl
  | some k => exact keywordMultiple_of_not (h k hk)

theorem single_fails (ho : CfgOk env.cfg) (hsc : env.scan = fun d c => c.advanceTo d) {r : DurationRepr}
    (hw : r.whole = none) (h : At I 0 c s)
    (hm : SingleMistake env.cfg env.units env.keywords env.numerals s f) : Fails I (parseBody .single env r c) f := by
  cases hm with
  | number hm => exact number_fails .single hw h hm
  | delimiters h1 h2 h3 =>
    obtain ⟨r1, c1, e1, h4⟩ := body_afterNumber .single hw h h1 h3.1
    rw [e1]
    exact delimiters_fails ho .single r1 h4 h2 h3
  | noUnits h1 h2 h3 h4 =>
    obtain ⟨r1, c1, e1, h5⟩ := body_afterDelims ho .single hw h h1 h2 h3
    rw [e1]
    exact numUnitSingle_fails ho hsc r1 h5 h3 (Or.inl ⟨h4, rfl⟩)
  | noUnit h1 h2 h3 h4 h6 =>
    obtain ⟨r1, c1, e1, h5⟩ := body_afterDelims ho .single hw h h1 h2 h3
    rw [e1]
    exact numUnitSingle_fails ho hsc r1 h5 h3 (Or.inr (Or.inl ⟨h4, h6, rfl⟩))
  | unit h1 h2 h3 h4 h6 =>
    obtain ⟨r1, c1, e1, h5⟩ := body_afterDelims ho .single hw h h1 h2 h3
    rw [e1]
    exact numUnitSingle_fails ho hsc r1 h5 h3 (Or.inr (Or.inr ⟨h4, h6⟩))
  | infinity h1 h2 h3 =>
    obtain ⟨e1, h4⟩ := body_of_infinity .single r h h1 h2
    rw [e1]
    exact infinitySingle_fails r h4 h3
  | unitWord h1 h2 h3 h4 =>
    rw [body_of_word .single r h h1]
    obtain ⟨c1, e1, h5⟩ := keyword_absent ho hsc .single r h h1.1 (keywordSingle_of_not h2)
    rw [e1]
    unfold parseUnitWord
    rw [if_pos h3]
    refine unitSingle_fails ho h5 h1.1 h4 _ ?_
    intro u c' t g1 g2 g3
    simp only [afterUnitWord]
    exact finalizeSingle_fails g1 g3 _
  | numeral h1 h2 h3 h4 =>
    rw [body_of_word .single r h h1]
    obtain ⟨c1, e1, h5⟩ := keyword_absent ho hsc .single r h h1.1 (keywordSingle_of_not h2)
    obtain ⟨c2, e2, h6⟩ := unitWord_absent ho hsc .single r h5 h1.1 (fun hn => noUnitSingle_iff.mp (h3 hn))
    rw [e1, e2]
    refine numeral_fails ho hsc .single r h6 ?_ (fun t ht => noUnitSingle_iff.mp ht) h4
    intro c t f id q g1 g2 g3
    refine unitSingle_fails ho g1 g2 g3 _ ?_
    intro u c' t k1 k2 k3
    simp only [numeralUnit]
    exact finalizeSingle_fails k1 k3 _

theorem multi_fails (ho : CfgOk env.cfg) (hsc : env.scan = fun d c => c.advanceTo d) {r : DurationRepr}
    (hw : r.whole = none) (h : At I 0 c s)
    (hm : MultiMistake env.cfg env.units env.keywords env.numerals s f) : Fails I (parseBody .multiple env r c) f := by
  cases hm with
  | number hm => exact number_fails .multiple hw h hm
  | delimiters h1 h2 h3 =>
    obtain ⟨r1, c1, e1, h4⟩ := body_afterNumber .multiple hw h h1 h3.1
    rw [e1]
    exact delimiters_fails ho .multiple r1 h4 h2 h3
  | unit h1 h2 h3 h4 h6 =>
    obtain ⟨r1, c1, e1, h5⟩ := body_afterDelims ho .multiple hw h h1 h2 h3
    rw [e1]
    exact numUnitMultiple_fails ho hsc r1 h5 h3 (Or.inl ⟨h4, h6⟩)
  | connection h1 h2 h3 h4 h6 =>
    obtain ⟨r1, c1, e1, h5⟩ := body_afterDelims ho .multiple hw h h1 h2 h3
    rw [e1]
    exact numUnitMultiple_fails ho hsc r1 h5 h3 (Or.inr ⟨h4, h6⟩)
  | infinity h1 h2 h3 =>
    obtain ⟨e1, h4⟩ := body_of_infinity .multiple r h h1 h2
    rw [e1]
    exact infinityMultiple_fails ho r h rfl h4 h3
  | keyword h1 h2 h3 h4 =>
    rw [body_of_word .multiple r h h1]
    exact (keywordMultiple_fails ho hsc h h2 h3 h4).bind _
  | unitWord h1 h2 h3 h4 =>
    rw [body_of_word .multiple r h h1]
    obtain ⟨c1, e1, h5⟩ := keyword_absent ho hsc .multiple r h h1.1 (keywordMulti_of_not h2)
    rw [e1]
    unfold parseUnitWord
    rw [if_pos h3]
    exact (unitMulti_fails ho hsc h5 h1.1 h4).bind _
  | numeral h1 h2 h3 h4 =>
    rw [body_of_word .multiple r h h1]
    obtain ⟨c1, e1, h5⟩ := keyword_absent ho hsc .multiple r h h1.1 (keywordMulti_of_not h2)
    obtain ⟨c2, e2, h6⟩ := unitWord_absent ho hsc .multiple r h5 h1.1 (fun hn => noUnitMulti_iff.mp (h3 hn))
    rw [e1, e2]
    refine numeral_fails ho hsc .multiple r h6 ?_ (fun t ht => noUnitMulti_iff.mp ht) h4
    intro c t f id q g1 g2 g3
    exact (unitMulti_fails ho hsc g1 g2 g3).bind _

end Fundu
