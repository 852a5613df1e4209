import Verif.Proofs.Documented
import Verif.Props.Phrases
import Verif.Props.Options
import Verif.Spec.Literal
/-!
# Property C96: the documented format

The specification is `Verif/Spec/Documented.lean`, a transcription of the section "Format specification" of `fundu/src/lib.rs`.
-/
namespace Fundu.Props
open Fundu Fundu.Spec Fundu.Props.Documented

section
variable (cfg : Config) (units : TimeUnitsLike) (keywords : Option TimeUnitsLike) (numerals : Option NumbersLike)

/-- C96, any parser of several durations: the documented texts are parsed to the sum of their amounts, from left to right,
which sticks to the representable range at each step. -/
theorem C96_durations (f : Style) (ex : Prop) (hf : StyleOk cfg units keywords numerals f) (hd : DocOk cfg units f ex) (hc : CfgText cfg)
    (hm : cfg.allowMultiple = true) (s : Bytes) (hs : IsText s) (l : List (Bool × Int)) (h : DocDurations f ex s l)
    (ha : cfg.allowNegative = true ∨ ∀ p ∈ l, p.1 = false) :
    Gives (parse cfg units keywords numerals s) (saturatingSum (l.map fun p => clamp (signedAmount p))) := by
  obtain ⟨items, h1, h2⟩ := doc_durations hf hd h
  obtain ⟨ds, h3, h4⟩ := phrases_values h2 ha
  refine (C27_multiple cfg units keywords numerals s _ hs hc hm (Or.inl fun b hb => ?_)).2 ⟨ds, ⟨items, h1, h3⟩, by rw [h4]⟩
  exact (hf.format.outer b).1 ((hf.format.inner b).2 hb)

/-- C96, any parser of one duration: a documented duration is parsed to its amount, within the representable range. -/
theorem C96_duration (f : Style) (ex : Prop) (hf : StyleOk cfg units keywords numerals f) (hd : DocOk cfg units f ex) (hc : CfgText cfg)
    (hk : ∀ k, keywords = some k → ∀ w : Bytes, (∃ b ∈ w, f.space b) → k.get w = none)
    (hm : cfg.allowMultiple = false) (s : Bytes) (hs : IsText s) (p : Bool × Int) (h : DocDuration f ex s p)
    (ha : cfg.allowNegative = true ∨ p.1 = false) : Gives (parse cfg units keywords numerals s) (clamp (signedAmount p)) := by
  obtain ⟨neg, r, item, h1, h2, d, g1, g2, g3, g4⟩ := doc_single hf hd hk h
  refine ⟨d, (C27_single cfg units keywords numerals s d hs hc hm).2 ⟨neg, r, item, h1, h2, g1, ha.imp_right g4⟩, ?_, ?_⟩
  · cases g1 with
    | number h => exact h.1
    | numberUnit _ h => exact h.1
    | infinity h => exact h
    | word _ h => exact h.1
    | numeral _ _ h => exact h.1
  · rw [g2]
    have hM : (0 : Int) < maxNanos := by decide
    unfold signedAmount clamp
    cases p.1 <;> simp only [Bool.false_eq_true, if_false, if_true] <;> omega

end

/-! ## DurationParser -/

theorem standard_docOk (us : List TimeUnit) (cfg : Config) (did : Bytes) (len : Nat)
    (hdef : (cfg.defaultUnit, did, len) ∈ documentedUnits) (hp : ∀ w ∈ cfg.conjunctions.getD [], w.head? ≠ some 46) :
    DocOk cfg (DurationParser.withTimeUnits us).timeUnits.like (standardStyle us cfg len) (cfg.disableExponent = false) where
  exponents := id
  gaps := id
  points := hp
  pointUnits := by
    intro w hw
    cases hg : (DurationParser.withTimeUnits us).timeUnits.like.get w with
    | none => rfl
    | some r =>
      obtain ⟨u, -, rfl, -⟩ := (C34_get us w r).1 hg
      exfalso
      revert hw
      cases u <;> decide
  lengths := by
    rintro id n - u m hu
    obtain ⟨v, -, -, e⟩ := (C34_get us id _).1 hu
    cases e
    cases u <;> decide
  default := by
    generalize cfg.defaultUnit = u
    cases u <;> decide

/-- C96, DurationParser which parses several durations. -/
theorem C96_standard (us : List TimeUnit) (hne : us ≠ []) (calls : List SetterCall) (cfg : Config)
    (hcfg : cfg = (calls.foldl callStandardParser (DurationParser.withTimeUnits us)).config) (hc : CfgText cfg)
    (hm : cfg.allowMultiple = true) (did : Bytes) (len : Nat) (hdef : (cfg.defaultUnit, did, len) ∈ documentedUnits)
    (hsame : ∀ b, cfg.innerDelimiter b = cfg.outerDelimiter b) (hspace : ∀ b, cfg.outerDelimiter b = true → PosixSpace b)
    (hw : Conjunctions (standardStyle us cfg len)) (hp : ∀ w ∈ cfg.conjunctions.getD [], w.head? ≠ some 46)
    (s : Bytes) (hs : IsText s) (l : List (Bool × Int))
    (h : DocDurations (standardStyle us cfg len) (cfg.disableExponent = false) s l)
    (ha : cfg.allowNegative = true ∨ ∀ p ∈ l, p.1 = false) :
    Gives ((calls.foldl callStandardParser (DurationParser.withTimeUnits us)).parse s)
      (saturatingSum (l.map fun p => clamp (signedAmount p))) := by
  have ht := (C35_standard_setters (DurationParser.withTimeUnits us) calls).2
  generalize calls.foldl callStandardParser (DurationParser.withTimeUnits us) = p at hcfg ht
  subst hcfg
  have hok := standardStyle_ok us hne p.config did len hdef hsame hspace hw
  have hd := standard_docOk us p.config did len hdef hp
  rw [← ht] at hok hd
  exact C96_durations p.config p.timeUnits.like none none _ _ hok hd hc hm s hs l h ha

/-- C96, DurationParser which parses one duration. -/
theorem C96_standard_single (us : List TimeUnit) (hne : us ≠ []) (calls : List SetterCall) (cfg : Config)
    (hcfg : cfg = (calls.foldl callStandardParser (DurationParser.withTimeUnits us)).config) (hc : CfgText cfg)
    (hm : cfg.allowMultiple = false) (did : Bytes) (len : Nat) (hdef : (cfg.defaultUnit, did, len) ∈ documentedUnits)
    (hsame : ∀ b, cfg.innerDelimiter b = cfg.outerDelimiter b) (hspace : ∀ b, cfg.outerDelimiter b = true → PosixSpace b)
    (hw : cfg.conjunctions = none)
    (s : Bytes) (hs : IsText s) (q : Bool × Int)
    (h : DocDuration (standardStyle us cfg len) (cfg.disableExponent = false) s q)
    (ha : cfg.allowNegative = true ∨ q.1 = false) :
    Gives ((calls.foldl callStandardParser (DurationParser.withTimeUnits us)).parse s) (clamp (signedAmount q)) := by
  have ht := (C35_standard_setters (DurationParser.withTimeUnits us) calls).2
  generalize calls.foldl callStandardParser (DurationParser.withTimeUnits us) = p at hcfg ht
  subst hcfg
  have hnone : (standardStyle us p.config len).words = [] := by show p.config.conjunctions.getD [] = []; rw [hw]; rfl
  have hconj : Conjunctions (standardStyle us p.config len) := by
    constructor <;> simp [hnone]
  have hok := standardStyle_ok us hne p.config did len hdef hsame hspace hconj
  have hd := standard_docOk us p.config did len hdef (by rw [hw]; simp)
  rw [← ht] at hok hd
  exact C96_duration p.config p.timeUnits.like none none _ _ hok hd hc (fun k hk => by cases hk) hm s hs q h ha

/-! ## CustomDurationParser -/

theorem custom_docOk (units : List CustomTimeUnit) (keywords : List TimeKeyword) (numerals : List Numeral) (cfg : Config) (len : Nat)
    (hv : Vocabulary units keywords numerals (customStyle units keywords numerals cfg len))
    (hp : ∀ w ∈ cfg.conjunctions.getD [], w.head? ≠ some 46) :
    DocOk cfg (CustomTimeUnits.withTimeUnits units).like (customStyle units keywords numerals cfg len) (cfg.disableExponent = false) where
  exponents := id
  gaps := id
  points := hp
  pointUnits := by
    intro w hw
    cases hg : (CustomTimeUnits.withTimeUnits units).like.get w with
    | none => rfl
    | some r =>
      obtain ⟨-, q, hq, h⟩ := (C36_resolves _ w).1 ⟨r, hg⟩
      exact absurd rfl ((hv.unitText q hq w h).2.2 46 hw).1
  lengths := by
    rintro id n ⟨r, hr, hid, q, hq, ht, -⟩ u m hg
    rw [C36_unique _ id r hr hid (hv.unitText r hr id hid).1 fun r' hr' h' => hv.unitOnce r hr r' hr' id hid h'] at hg
    cases hg
    rw [ht.1]
    show r.baseUnit.multiplier.exponent + 0 ≤ 9
    generalize r.baseUnit = u
    cases u <;> decide
  default := by
    generalize cfg.defaultUnit = u
    cases u <;> decide

/-- C96, CustomDurationParser which parses several durations; the conditions are those of `C78_custom`. -/
theorem C96_custom (calls : List CustomCall) (p : CustomDurationParser)
    (hp : p = calls.foldl callCustomSetter CustomDurationParser.new) (hc : CfgText p.config)
    (units : List CustomTimeUnit) (hunits : units = calls.flatMap CustomCall.units)
    (keywords : List TimeKeyword) (hkeywords : keywords = calls.flatMap CustomCall.keywordUnits)
    (numerals : List Numeral) (hnumerals : numerals = calls.flatMap CustomCall.numeralList)
    (hm : p.config.allowMultiple = true) (did : Bytes) (len : Nat) (hdef : (p.config.defaultUnit, did, len) ∈ documentedUnits)
    (hsame : ∀ b, p.config.innerDelimiter b = p.config.outerDelimiter b)
    (hspace : ∀ b, p.config.outerDelimiter b = true → PosixSpace b)
    (hu : ∃ r ∈ units, r.identifiers ≠ []) (hcu : ∀ r ∈ units, Constructed r) (hck : ∀ k ∈ keywords, Constructed k.timeUnit)
    (hcn : ∀ n ∈ numerals, ∀ r ∈ units, Fits n.multiplier r.baseUnit.multiplier ∧
      Fits (product n.multiplier r.baseUnit.multiplier) r.multiplier ∧
      Fits (product n.multiplier r.baseUnit.multiplier) ⟨-r.multiplier.coefficient, r.multiplier.exponent⟩)
    (hv : Vocabulary units keywords numerals (customStyle units keywords numerals p.config len))
    (hw : Conjunctions (customStyle units keywords numerals p.config len))
    (hpt : ∀ w ∈ p.config.conjunctions.getD [], w.head? ≠ some 46)
    (s : Bytes) (hs : IsText s) (l : List (Bool × Int))
    (h : DocDurations (customStyle units keywords numerals p.config len) (p.config.disableExponent = false) s l)
    (ha : p.config.allowNegative = true ∨ ∀ q ∈ l, q.1 = false) :
    Gives (p.parse s) (saturatingSum (l.map fun q => clamp (signedAmount q))) := by
  have hok := customStyle_ok units keywords numerals p.config did len hdef hsame hspace hu hcu hck hcn hv hw
  have hd := custom_docOk units keywords numerals p.config len hv hpt
  obtain ⟨h1, h2, h3⟩ := C35_custom_tables calls
  rw [← hp, ← hunits] at h1
  rw [← hp, ← hkeywords] at h2
  rw [← hp, ← hnumerals] at h3
  rw [← h1, ← h2, ← h3] at hok
  rw [← h1, ← h3] at hd
  exact C96_durations p.config p.timeUnits.like _ _ _ _ hok hd hc hm s hs l (h3 ▸ h) ha

/-! ### Examples -/

/-- `.5e1 m ago and 1E-3h -2.25 +infinity`, see `phraseCalls` -/
example : DocDurations phraseStyle (phraseConfig.disableExponent = false) (b! ".5e1 m ago and 1E-3h -2.25 +infinity")
    [(true, docNanos [] (b! "5") 1 60000000000), (false, docNanos (b! "1") [] (-3) 3600000000000), (true, docNanos (b! "2") (b! "25") 0 1000000000),
      (false, maxNanos)] := by
  have gap : phraseStyle.Gap (b! " ") := by
    intro b hb
    rw [List.mem_singleton] at hb
    rw [hb]; rfl
  have hh : phraseStyle.ids (b! "h") 3600000000000 := ⟨.hour, by decide, by decide⟩
  have hmin : phraseStyle.ids (b! "m") 60000000000 := ⟨.minute, by decide, by decide⟩
  have n1 : DocNumber phraseStyle (phraseConfig.disableExponent = false) (b! ".5e1") [] (b! "5") 1 :=
    ⟨b! ".5", b! "e1", rfl, .fraction (W := []) rfl (by decide) (by decide) (by decide),
      .present (sign := []) (D := b! "1") (neg := false) rfl (Or.inl rfl) (Or.inl ⟨rfl, rfl⟩) (by decide) (by decide) (by decide) (by decide) (by decide)⟩
  have n2 : DocNumber phraseStyle (phraseConfig.disableExponent = false) (b! "1E-3") (b! "1") [] (-3) :=
    ⟨b! "1", b! "E-3", rfl, .whole (by decide) (by decide),
      .present (sign := b! "-") (D := b! "3") (neg := true) rfl (Or.inr rfl) (Or.inr (Or.inr ⟨rfl, rfl⟩)) (by decide) (by decide) (by decide) (by decide) (by decide)⟩
  have n3 : DocNumber phraseStyle (phraseConfig.disableExponent = false) (b! "2.25") (b! "2") (b! "25") 0 :=
    ⟨b! "2.25", [], rfl, .point (W := b! "2") rfl (by decide) (by decide) (by decide), .absent⟩
  exact .more (sign := []) (t := b! ".5e1 m ago") (joint := b! " and ") (rest := b! "1E-3h -2.25 +infinity") .absent
    (.numberAgo (t := b! ".5e1") (gap := b! " ") (id := b! "m") (gap' := b! " ") (a := b! "ago") rfl n1 gap (Or.inr rfl) hmin gap (by decide) rfl)
    (.word (gap := b! " ") (w := b! "and") (x := b! "and") (gap' := b! " ") gap (by decide) (List.mem_cons_self ..) (by decide) gap
      (Or.inl (by decide)))
    (.more (sign := []) (t := b! "1E-3h") (joint := b! " ") (rest := b! "-2.25 +infinity") .absent
      (.number (t := b! "1E-3") (gap := []) (id := b! "h") n2 (by intro b hb; cases hb) (Or.inl rfl) hh) (.gap gap (Or.inl (by decide)))
      (.moreNumber (sign := b! "-") (t := b! "2.25") (joint := b! " ") (rest := b! "+infinity")
        (.minus (gap := []) (by intro b hb; cases hb) (Or.inl rfl)) n3 (.gap gap (Or.inl (by decide))) (Or.inl (by decide))
        (fun _ => ⟨gap, 43, b! "infinity", rfl, Or.inl (Or.inr (Or.inl rfl))⟩)
        (.last (.infinity (sign := b! "+") (.plus (gap := []) (by intro b hb; cases hb) (Or.inl rfl)) ⟨rfl, Or.inr rfl⟩))))

/-- the same by evaluation: the maximum minus 298.65 seconds -/
example : (phraseCalls.foldl callStandardParser (DurationParser.withTimeUnits [.minute, .hour, .day])).parse
    (b! ".5e1 m ago and 1E-3h -2.25 +infinity") = .ok ⟨false, ⟨18446744073709551317, 349999999⟩⟩ := by decide +kernel

/-! ### Where the documented rules do not hold -/

/-- C96: an exponent alone, with or without a sign, is not a number, although `Number` is documented as `( Digits Exp? ) | Exp`
(finding F26): no `DurationParser` accepts a text which starts with `e`. -/
theorem C96_exponent_alone (us : List TimeUnit) (calls : List SetterCall) (p : DurationParser)
    (hp : p = calls.foldl callStandardParser (DurationParser.withTimeUnits us)) (hc : CfgText p.config)
    (he : p.config.innerDelimiter 101 = false ∧ p.config.innerDelimiter 69 = false)
    (s : Bytes) (hs : IsText s) (sign r : Bytes) (neg : Bool) (hsign : SignText sign neg) (e : s = sign ++ r)
    (hr : StartsWith (fun b => b = 101 ∨ b = 69) r) (d : Duration) : p.parse s ≠ .ok d := by
  have ht : p.timeUnits = (DurationParser.withTimeUnits us).timeUnits := by
    rw [hp]; exact (C35_standard_setters (DurationParser.withTimeUnits us) calls).2
  obtain ⟨c, l, rfl, hcl⟩ := hr
  have hci : p.config.innerDelimiter c = false := by rcases hcl with rfl | rfl; exacts [he.1, he.2]
  have hrest : ∀ {neg' : Bool} {r' : Bytes}, SignPart p.config s neg' r' → r' = c :: l := by
    intro neg' r' h
    have hdel : ∀ {r'' : Bytes}, AfterDelims p.config.allowSignDelimiter p.config.innerDelimiter (c :: l) r'' → r'' = c :: l := by
      intro r'' h
      unfold AfterDelims at h
      split at h
      · obtain ⟨ds, h1, h2, -⟩ := h
        cases ds with
        | nil => exact h1.symm
        | cons a ds =>
          rw [List.cons_append] at h1
          injection h1 with h1
          subst h1
          have : p.config.innerDelimiter c = true := h2 c (by simp)
          rw [hci] at this
          cases this
      · exact h
    rcases hsign with ⟨rfl, -⟩ | ⟨rfl, -⟩ | ⟨rfl, -⟩
    · subst e
      cases h with
      | absent => rfl
      | plus => rcases hcl with h | h <;> cases h
      | minus => rcases hcl with h | h <;> cases h
    · subst e
      cases h with
      | absent _ h => exact absurd ⟨43, _, rfl, Or.inl rfl⟩ h
      | plus h => exact hdel h
    · subst e
      cases h with
      | absent _ h => exact absurd ⟨45, _, rfl, Or.inr rfl⟩ h
      | minus h => exact hdel h
  have hnum : ∀ {W F r : Bytes} {x : Int}, ¬ NumberText p.config (c :: l) W F x r := by
    intro W F r x h
    rcases numberText_head h with h | h <;> rw [startsWith_cons] at h
    · rcases hcl with rfl | rfl <;> revert h <;> decide
    · rcases hcl with rfl | rfl <;> revert h <;> decide
  have hget : ∀ {w : Bytes} {x}, w.head? = some c → p.timeUnits.like.get w ≠ some x := by
    intro w x hw h
    rw [ht] at h
    obtain ⟨u, -, rfl, -⟩ := (C34_get us w x).1 h
    revert hw
    rcases hcl with rfl | rfl <;> cases u <;> decide
  have hinf : ∀ {r : Bytes}, ¬ AfterWord (b! "inf") (c :: l) r := by
    rintro r ⟨x, h1, h2⟩
    cases x with
    | nil => cases h2
    | cons a x =>
      rw [List.cons_append] at h1
      injection h1 with h1
      subst h1
      have := (sameText_cons.1 h2).1
      revert this
      rcases hcl with rfl | rfl <;> decide
  have hword : ∀ {q : UInt8 → Prop} {w r : Bytes}, Split q (c :: l) w r → w ≠ [] → w.head? = some c := by
    intro q w r h hne
    cases w with
    | nil => exact absurd rfl hne
    | cons a w =>
      have h1 := h.1
      rw [List.cons_append] at h1
      injection h1 with h1
      rw [h1]; rfl
  intro hparse
  replace hparse : parse p.config p.timeUnits.like none none s = .ok d := hparse
  cases hm : p.config.allowMultiple with
  | false =>
    obtain ⟨neg', r', item, h1, h2, -⟩ := (C27_single _ _ _ _ s d hs hc hm).1 hparse
    rw [hrest h1] at h2
    cases h2 with
    | number h => exact hnum h
    | infinity _ h =>
      rcases h with h | h
      · exact hinf (r := []) ⟨c :: l, (List.append_nil _).symm, h⟩
      · have := (sameText_cons.1 h).1
        revert this
        rcases hcl with rfl | rfl <;> decide
    | keyword _ h => cases h
    | unit _ _ _ h =>
      cases h with
      | whole _ h => exact hget rfl h
      | plain _ _ _ h => exact hget rfl h
      | ago _ h1 h2 h3 => exact hget (hword h1 h2) h3
    | numeral _ _ _ h => cases h
  | true =>
    obtain ⟨ds, ⟨items, h1, -⟩, -⟩ := (C27_multiple _ _ _ _ s (nanos d) hs hc hm (Or.inr ⟨rfl, rfl⟩)).1 ⟨d, hparse, parse_wf hs hc hparse, rfl⟩
    have key : ∀ {item : Item} {rest : Bytes}, ¬ MultiText p.config p.timeUnits.like none none (c :: l) item rest := by
      intro item rest h
      cases h with
      | numberEnd h => exact hnum h
      | numberUnit h => exact hnum h
      | number h => exact hnum h
      | inf _ h => exact hinf h
      | infinity _ h => exact hinf h
      | keyword _ h => cases h
      | unit _ _ _ h =>
        cases h with
        | mk h =>
          obtain ⟨w, h1, h2, h3⟩ := h
          exact hget (hword h1 h2) h3
      | numeral _ _ _ h => cases h
    cases h1 with
    | last h1 h2 => rw [hrest h1] at h2; exact key h2
    | more h1 h2 => rw [hrest h1] at h2; exact key h2

example (d : Duration) : (DurationParser.withTimeUnits [.second, .minute]).parse (b! "+e5") ≠ .ok d :=
  C96_exponent_alone [.second, .minute] [] (DurationParser.withTimeUnits [.second, .minute]) rfl defaultConfig_text ⟨rfl, rfl⟩ (b! "+e5")
    (isText_ascii (by decide)) (b! "+") (b! "e5") false (Or.inr (Or.inl ⟨rfl, rfl⟩)) rfl ⟨101, _, rfl, Or.inl rfl⟩ d
example : (DurationParser.withTimeUnits [.second, .minute]).parse (b! "+1e5") = .ok ⟨false, ⟨100000, 0⟩⟩ := by decide +kernel

/-- C96, the other deviations from the documented rules (finding F26): infinity is not followed by a digit; a number without a
unit which is followed by a digit is another number; a sign need not be preceded by a delimiter, nor need a point behind a
number with a point. -/
theorem C96_deviations (p : DurationParser) (hp : p = (DurationParser.withTimeUnits [.second]).parseMultiple true none) :
    p.parse (b! "inf1s") = fail (.syntax 3 (.infinityInvalidCharacter 49)) ∧ p.parse (b! "inf 1s") = .ok Duration.MAX ∧
    p.parse (b! "12") = .ok ⟨false, ⟨12, 0⟩⟩ ∧ p.parse (b! "1.5.") = fail (.syntax 3 .wholeOrFractionMustBePresent) ∧
    p.parse (b! "1s+2s") = .ok ⟨false, ⟨3, 0⟩⟩ ∧ p.parse (b! "1.5.5") = .ok ⟨false, ⟨2, 0⟩⟩ := by
  subst hp
  refine ⟨by decide +kernel, by decide +kernel, by decide +kernel, by decide +kernel, by decide +kernel, by decide +kernel⟩

end Fundu.Props
