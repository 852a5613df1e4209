import Verif.Proofs.LocalParse
import Verif.Spec.Local
import Verif.Props.OutOfRange
import Verif.Props.MoreWords
import Verif.Props.Buffer
/-! # C104: what does not occur in the text has no influence -/
namespace Fundu.Props
open Fundu Spec Local

theorem occursIn_iff {w s : Bytes} : OccursIn w s ↔ w <:+: s :=
  ⟨fun ⟨a, b, h⟩ => ⟨a, b, h.symm⟩, fun ⟨a, b, h⟩ => ⟨a, b, h.symm⟩⟩

variable {cfg cfg' : Config} {units units' : TimeUnitsLike} {keywords keywords' : Option TimeUnitsLike}
  {numerals numerals' : Option NumbersLike} {s : Bytes}

/-- C104, for all bytes, UTF-8 or not, and all settings: two parsers whose options are the same, whose delimiters decide the same for
the bytes of the text and whose tables give the same answers for the words which occur in the text have the same result, value, error
or panic. -/
theorem C104_bytes (hc : SameOptions s cfg cfg') (hu : SameAnswers s units.get units'.get) (he : units'.isEmpty = units.isEmpty)
    (hk : SameAnswers s (keywordAnswers keywords) (keywordAnswers keywords')) (hk' : keywords'.isSome = keywords.isSome)
    (hn : SameAnswers s (numeralAnswers numerals) (numeralAnswers numerals')) (hn' : numerals'.isSome = numerals.isSome) :
    parse cfg' units' keywords' numerals' s = parse cfg units keywords numerals s := by
  unfold parse
  have H : Local.Same False s { cfg := cfg, units := units, keywords := keywords, numerals := numerals }
      { cfg := cfg', units := units', keywords := keywords', numerals := numerals' } :=
    { inner := fun b hb => (hc.inner b hb).symm
      outer := fun b hb => (hc.outer b hb).symm
      opts := hc
      units := fun w hw => (hu w (occursIn_iff.2 hw)).symm
      isEmpty := he.symm
      keywords := fun w hw => (hk w (occursIn_iff.2 hw)).symm
      keywordsSome := Or.inl hk'.symm
      numerals := fun w hw => (hn w (occursIn_iff.2 hw)).symm
      numeralsSome := Or.inl hn'.symm
      scan := fun d d' c hd h => bufferedAdvanceTo_agrees hd h }
  rcases parseWith_same H with h | ⟨h, -⟩
  · exact h.symm
  · exact h.elim

/-- the smaller of two settings -/
theorem unbuffered_more (hs : IsText s) (ht : CfgText cfg')
    (hd : (∀ b, cfg'.innerDelimiter b = true → cfg'.outerDelimiter b = true) ∨ cfg'.allowMultiple = false)
    (hc : SameOptions s cfg cfg') (hu : SameAnswers s units.get units'.get) (he : units'.isEmpty = units.isEmpty)
    (hk : SameAnswers s (keywordAnswers keywords) (keywordAnswers keywords')) (hk' : keywords'.isSome = keywords.isSome ∨ keywords = none)
    (hn : SameAnswers s (numeralAnswers numerals) (numeralAnswers numerals')) (hn' : numerals'.isSome = numerals.isSome ∨ numerals = none) :
    parse cfg' units' keywords' numerals' s = parseUnbuffered cfg units keywords numerals s := by
  have e := C33_buffer_transparent cfg' units' keywords' numerals' s (hd.imp_right Or.inr)
  have H : Local.Same True s { cfg := cfg, units := units, keywords := keywords, numerals := numerals, scan := fun d c => c.advanceTo d }
      { cfg := cfg', units := units', keywords := keywords', numerals := numerals', scan := fun d c => c.advanceTo d } :=
    { inner := fun b hb => (hc.inner b hb).symm
      outer := fun b hb => (hc.outer b hb).symm
      opts := hc
      units := fun w hw => (hu w (occursIn_iff.2 hw)).symm
      isEmpty := he.symm
      keywords := fun w hw => (hk w (occursIn_iff.2 hw)).symm
      keywordsSome := hk'.imp (·.symm) (fun h => ⟨h, trivial, rfl⟩)
      numerals := fun w hw => (hn w (occursIn_iff.2 hw)).symm
      numeralsSome := hn'.imp (·.symm) (fun h => ⟨h, trivial, rfl⟩)
      scan := fun d d' c hd h => advanceTo_agrees hd h }
  rcases parseWith_same H with h | ⟨-, p, hp, h⟩
  · exact e.trans h.symm
  · exact absurd (C93_unwrap _ _ _ _ s hs ht p (e.trans h)) hp

theorem sameAnswers_symm {α : Type} {t t' : Bytes → Option α} (h : SameAnswers s t t') : SameAnswers s t' t := fun w hw => (h w hw).symm
theorem sameAnswers_trans {α : Type} {t t' t'' : Bytes → Option α} (h : SameAnswers s t t') (h' : SameAnswers s t' t'') :
    SameAnswers s t t'' := fun w hw => (h' w hw).trans (h w hw)

/-- two tables which agree on the text have a common part -/
theorem common_keywords (hk : SameAnswers s (keywordAnswers keywords) (keywordAnswers keywords')) :
    ∃ k, SameAnswers s (keywordAnswers k) (keywordAnswers keywords) ∧ (keywords.isSome = k.isSome ∨ k = none) ∧
      SameAnswers s (keywordAnswers k) (keywordAnswers keywords') ∧ (keywords'.isSome = k.isSome ∨ k = none) := by
  cases keywords' with
  | none => exact ⟨none, sameAnswers_symm hk, Or.inr rfl, fun _ _ => rfl, Or.inr rfl⟩
  | some t =>
    refine ⟨keywords, fun _ _ => rfl, Or.inl rfl, hk, ?_⟩
    cases keywords with
    | none => exact Or.inr rfl
    | some t => exact Or.inl rfl

theorem common_numerals (hk : SameAnswers s (numeralAnswers numerals) (numeralAnswers numerals')) :
    ∃ k, SameAnswers s (numeralAnswers k) (numeralAnswers numerals) ∧ (numerals.isSome = k.isSome ∨ k = none) ∧
      SameAnswers s (numeralAnswers k) (numeralAnswers numerals') ∧ (numerals'.isSome = k.isSome ∨ k = none) := by
  cases numerals' with
  | none => exact ⟨none, sameAnswers_symm hk, Or.inr rfl, fun _ _ => rfl, Or.inr rfl⟩
  | some t =>
    refine ⟨numerals, fun _ _ => rfl, Or.inl rfl, hk, ?_⟩
    cases numerals with
    | none => exact Or.inr rfl
    | some t => exact Or.inl rfl

theorem sameOptions_refl (cfg : Config) : SameOptions s cfg cfg :=
  ⟨fun _ _ => rfl, fun _ _ => rfl, rfl, rfl, rfl, rfl, fun _ _ => rfl, fun _ => rfl, fun _ => rfl, fun _ => rfl, fun _ => rfl, fun _ => rfl, fun _ => rfl⟩

/-- only the delimiters differ -/
theorem sameOptions_delimiters {inner outer : Delimiter} (hi : ∀ b ∈ s, inner b = cfg.innerDelimiter b)
    (ho : ∀ b ∈ s, outer b = cfg.outerDelimiter b) :
    SameOptions s cfg { cfg with innerDelimiter := inner, outerDelimiter := outer } :=
  { sameOptions_refl cfg with inner := hi, outer := ho }

/-- C104, for all texts: a parser without keywords or numerals has the result of one whose keywords and numerals do not occur in the
text, too, if each inner delimiter is an outer delimiter or if one duration only is parsed. -/
theorem C104_text (hs : IsText s) (ht : CfgText cfg) (ht' : CfgText cfg')
    (hd : (∀ b, cfg.innerDelimiter b = true → cfg.outerDelimiter b = true) ∨ cfg.allowMultiple = false)
    (hd' : (∀ b, cfg'.innerDelimiter b = true → cfg'.outerDelimiter b = true) ∨ cfg'.allowMultiple = false)
    (hc : SameOptions s cfg cfg') (hu : SameAnswers s units.get units'.get) (he : units'.isEmpty = units.isEmpty)
    (hk : SameAnswers s (keywordAnswers keywords) (keywordAnswers keywords'))
    (hn : SameAnswers s (numeralAnswers numerals) (numeralAnswers numerals')) :
    parse cfg' units' keywords' numerals' s = parse cfg units keywords numerals s := by
  obtain ⟨k, k1, k2, k3, k4⟩ := common_keywords hk
  obtain ⟨n, n1, n2, n3, n4⟩ := common_numerals hn
  rw [unbuffered_more hs ht' hd' hc hu he k3 k4 n3 n4,
    unbuffered_more (units := units) hs ht hd (sameOptions_refl cfg) (fun _ _ => rfl) rfl k1 k2 n1 n2]

/-! ### Words which were added -/

theorem custom_get_append (regs more : List CustomTimeUnit) (id : Bytes) (h : ∀ r ∈ more, id ∉ r.identifiers) :
    (CustomTimeUnits.withTimeUnits (regs ++ more)).like.get id = (CustomTimeUnits.withTimeUnits regs).like.get id := by
  have e : ∀ p, RegisteredFor (regs ++ more) p id ↔ RegisteredFor regs p id := by
    intro p
    unfold RegisteredFor
    refine and_congr_right fun _ => ⟨?_, ?_⟩
    · rintro ⟨r, hr, hp, hid⟩
      rcases List.mem_append.1 hr with hr | hr
      · exact ⟨r, hr, hp, hid⟩
      · exact absurd hid (h r hr)
    · rintro ⟨r, hr, hp, hid⟩
      exact ⟨r, List.mem_append_left _ hr, hp, hid⟩
  have e' : (fun p => decide (RegisteredFor (regs ++ more) p id)) = fun p => decide (RegisteredFor regs p id) := by
    funext p; simp only [e]
  rw [C36_get, C36_get, e', List.filter_append, List.map_append, List.find?_append]
  cases g : ((regs.filter (fun r => decide (Usable r))).map pair).find? (fun p => decide (RegisteredFor regs p id)) with
  | some x => rfl
  | none =>
    show List.find? _ _ = none
    rw [List.find?_eq_none] at g ⊢
    intro p _ hp
    simp only [decide_eq_true_eq] at hp
    have ⟨hne, r, hr, hp', hid⟩ := hp
    refine g p ?_ (by simpa using hp)
    rw [List.mem_map]
    refine ⟨r, ?_, hp'⟩
    rw [List.mem_filter]
    exact ⟨hr, by simp only [decide_eq_true_eq]; exact ⟨id, hid, hne⟩⟩

theorem numeralsGet_append (ns more : List Numeral) (w : Bytes) (h : ∀ n ∈ more, w ∉ n.identifiers) :
    numeralsGet (ns ++ more) w = numeralsGet ns w := by
  cases e : numeralsGet ns w with
  | some m => exact numerals_append _ _ e
  | none =>
    rw [C37_none] at e ⊢
    intro n hn
    rcases List.mem_append.1 hn with hn | hn
    · exact e n hn
    · exact h n hn

theorem keywordAnswers_custom (ks : List TimeKeyword) :
    keywordAnswers (if !(CustomTimeUnits.withKeywords ks).isEmpty then some (CustomTimeUnits.withKeywords ks).like else none) =
      (CustomTimeUnits.withTimeUnits (ks.map (·.timeUnit))).like.get := by
  rw [← C36_keywords]
  cases e : (CustomTimeUnits.withKeywords ks).isEmpty with
  | false => rfl
  | true =>
    funext w
    show none = _
    cases g : (CustomTimeUnits.withKeywords ks).like.get w with
    | none => rfl
    | some x =>
      replace e : (CustomTimeUnits.withKeywords ks).like.isEmpty = true := e
      rw [C36_keywords] at e g
      rw [C36_is_empty] at e
      obtain ⟨hne, r, hr, hid⟩ := (C36_resolves _ w).1 ⟨_, g⟩
      exact absurd (e r hr w hid) hne

theorem numeralAnswers_custom (ns : List Numeral) :
    numeralAnswers (if !ns.isEmpty then some (numeralsGet ns) else none) = numeralsGet ns := by
  cases ns with
  | nil => rfl
  | cons n l => rfl

/-- C104, CustomDurationParser: further calls which add time units, keywords or numerals do not change the result, value, error or
panic, for a text in which none of the added words occurs; the parser must have had a time unit if time units are added. -/
theorem C104_custom (calls more : List CustomCall) (hmore : ∀ c ∈ more, AddsWords c) (p p' : CustomDurationParser)
    (hp : p = calls.foldl callCustomSetter CustomDurationParser.new) (hp' : p' = more.foldl callCustomSetter p)
    (hc : CfgText p.config)
    (hd : (∀ b, p.config.innerDelimiter b = true → p.config.outerDelimiter b = true) ∨ p.config.allowMultiple = false)
    (hu : p'.isEmpty = p.isEmpty)
    (s : Bytes) (hs : IsText s) (ho : ∀ c ∈ more, ∀ w ∈ addedWords c, ¬ OccursIn w s) :
    p'.parse s = p.parse s := by
  have hcfg : p'.config = p.config := by rw [hp']; exact adds_config more hmore p
  have e' : p' = (calls ++ more).foldl callCustomSetter CustomDurationParser.new := by rw [hp', hp, List.foldl_append]
  obtain ⟨t1, t2, t3⟩ := C35_custom_tables calls
  obtain ⟨t1', t2', t3'⟩ := C35_custom_tables (calls ++ more)
  rw [← hp] at t1 t2 t3
  rw [← e'] at t1' t2' t3'
  have added : ∀ w, OccursIn w s → (∀ r ∈ more.flatMap CustomCall.units, w ∉ r.identifiers) ∧
      (∀ r ∈ (more.flatMap CustomCall.keywordUnits).map (·.timeUnit), w ∉ r.identifiers) ∧
      (∀ n ∈ more.flatMap CustomCall.numeralList, w ∉ n.identifiers) := by
    intro w hw
    refine ⟨?_, ?_, ?_⟩
    · intro r hr hid
      obtain ⟨c, hc, hr⟩ := List.mem_flatMap.1 hr
      refine ho c hc w ?_ hw
      unfold addedWords
      simp only [List.mem_append, List.mem_flatMap]
      exact Or.inl (Or.inl ⟨r, hr, hid⟩)
    · intro r hr hid
      obtain ⟨k, hk, rfl⟩ := List.mem_map.1 hr
      obtain ⟨c, hc, hr⟩ := List.mem_flatMap.1 hk
      refine ho c hc w ?_ hw
      unfold addedWords
      simp only [List.mem_append, List.mem_flatMap]
      exact Or.inl (Or.inr ⟨k, hr, hid⟩)
    · intro r hr hid
      obtain ⟨c, hc, hr⟩ := List.mem_flatMap.1 hr
      refine ho c hc w ?_ hw
      unfold addedWords
      simp only [List.mem_append, List.mem_flatMap]
      exact Or.inr ⟨r, hr, hid⟩
  unfold CustomDurationParser.parse
  rw [hcfg]
  refine C104_text hs hc hc hd hd (sameOptions_refl _) ?_ hu ?_ ?_
  · intro w hw
    rw [t1, t1', List.flatMap_append]
    exact custom_get_append _ _ _ (added w hw).1
  · intro w hw
    rw [t2, t2', keywordAnswers_custom, keywordAnswers_custom, List.flatMap_append, List.map_append]
    exact custom_get_append _ _ _ (added w hw).2.1
  · intro w hw
    rw [t3, t3', numeralAnswers_custom, numeralAnswers_custom, List.flatMap_append]
    exact numeralsGet_append _ _ _ (added w hw).2.2

/-- C104, DurationParser, for all bytes: two parsers with the same options whose time units differ only by units whose identifier does
not occur in the text have the same result, if both have time units or both have none. -/
theorem C104_standard (us us' : List TimeUnit) (p p' : DurationParser) (hu : p.timeUnits = (DurationParser.withTimeUnits us).timeUnits)
    (hu' : p'.timeUnits = (DurationParser.withTimeUnits us').timeUnits) (hc : p'.config = p.config) (he : us' = [] ↔ us = []) (s : Bytes)
    (ho : ∀ u : TimeUnit, OccursIn u.defaultIdentifier s → (u ∈ us' ↔ u ∈ us)) : p'.parse s = p.parse s := by
  unfold DurationParser.parse
  rw [hc, hu, hu']
  refine C104_bytes (sameOptions_refl _) ?_ ?_ (fun _ _ => rfl) rfl (fun _ _ => rfl) rfl
  · intro w hw
    apply Option.ext
    intro r
    rw [C34_get, C34_get]
    constructor
    · rintro ⟨u, hu, rfl, hr⟩
      exact ⟨u, (ho u hw).1 hu, rfl, hr⟩
    · rintro ⟨u, hu, rfl, hr⟩
      exact ⟨u, (ho u hw).2 hu, rfl, hr⟩
  · rw [Bool.eq_iff_iff, C34_is_empty, C34_is_empty]
    exact he

/-! ### Options the text has no use for -/

/-- the options after one call -/
theorem standard_one (p : DurationParser) (call : SetterCall) : (callStandardParser p call).timeUnits = p.timeUnits ∧
    (Unused s p.config call → SameOptions s p.config (callStandardParser p call).config) := by
  have r := sameOptions_refl (s := s) p.config
  cases call with
  | defaultUnit u => exact ⟨rfl, fun h => { r with defaultUnit := h }⟩
  | allowTimeUnitDelimiter v => exact ⟨rfl, fun h => { r with unitDelimiter := fun g => absurd g h }⟩
  | allowSignDelimiter v => exact ⟨rfl, fun h => { r with signDelimiter := fun g => absurd g h }⟩
  | allowNegative v => exact ⟨rfl, fun h => { r with negative := h }⟩
  | allowAgo v =>
    cases v with
    | false => exact ⟨rfl, fun h => { r with ago := fun ⟨b, hb, g⟩ => by rw [h.2 b hb] at g; cases g }⟩
    | true => exact ⟨rfl, fun h => { r with ago := fun ⟨b, hb, g⟩ => by rw [h.2 b hb] at g; cases g
                                            negative := (h.1 rfl).symm }⟩
  | disableExponent v => exact ⟨rfl, fun h => { r with exponent := fun g => absurd g h }⟩
  | disableFraction v => exact ⟨rfl, fun h => { r with fraction := fun g => absurd g h }⟩
  | disableInfinity v => exact ⟨rfl, fun h => { r with infinity := fun g => absurd g h }⟩
  | numberIsOptional v => exact ⟨rfl, fun h => { r with optional := h }⟩
  | parseMultiple v c => exact ⟨rfl, fun h => { r with multiple := h.1, conjunctions := Local.found_of_occurring h.2 }⟩
  | setInnerDelimiter d => exact ⟨rfl, fun h => { r with inner := h }⟩
  | setOuterDelimiter d => exact ⟨rfl, fun h => { r with outer := h }⟩

theorem custom_one (p : CustomDurationParser) (call : SetterCall) : (callCustomParser p call).timeUnits = p.timeUnits ∧
    (callCustomParser p call).keywords = p.keywords ∧ (callCustomParser p call).numerals = p.numerals ∧
    (Unused s p.config call → SameOptions s p.config (callCustomParser p call).config) := by
  have r := sameOptions_refl (s := s) p.config
  cases call with
  | defaultUnit u => exact ⟨rfl, rfl, rfl, fun h => { r with defaultUnit := h }⟩
  | allowTimeUnitDelimiter v => exact ⟨rfl, rfl, rfl, fun h => { r with unitDelimiter := fun g => absurd g h }⟩
  | allowSignDelimiter v => exact ⟨rfl, rfl, rfl, fun h => { r with signDelimiter := fun g => absurd g h }⟩
  | allowNegative v => exact ⟨rfl, rfl, rfl, fun h => { r with negative := h }⟩
  | allowAgo v =>
    cases v with
    | false => exact ⟨rfl, rfl, rfl, fun h => { r with ago := fun ⟨b, hb, g⟩ => by rw [h.2 b hb] at g; cases g }⟩
    | true => exact ⟨rfl, rfl, rfl, fun h => { r with ago := fun ⟨b, hb, g⟩ => by rw [h.2 b hb] at g; cases g
                                                      negative := (h.1 rfl).symm }⟩
  | disableExponent v => exact ⟨rfl, rfl, rfl, fun h => { r with exponent := fun g => absurd g h }⟩
  | disableFraction v => exact ⟨rfl, rfl, rfl, fun h => { r with fraction := fun g => absurd g h }⟩
  | disableInfinity v => exact ⟨rfl, rfl, rfl, fun h => { r with infinity := fun g => absurd g h }⟩
  | numberIsOptional v => exact ⟨rfl, rfl, rfl, fun h => { r with optional := h }⟩
  | parseMultiple v c => exact ⟨rfl, rfl, rfl, fun h => { r with multiple := h.1, conjunctions := Local.found_of_occurring h.2 }⟩
  | setInnerDelimiter d => exact ⟨rfl, rfl, rfl, fun h => { r with inner := h }⟩
  | setOuterDelimiter d => exact ⟨rfl, rfl, rfl, fun h => { r with outer := h }⟩

/-- C104, options, DurationParser, for all bytes: a call of a setter which changes something the text has no use for does not change
the result, value, error or panic. -/
theorem C104_option_standard (p : DurationParser) (call : SetterCall) (s : Bytes) (h : Unused s p.config call) :
    (callStandardParser p call).parse s = p.parse s := by
  have ⟨ht, hc⟩ := standard_one (s := s) p call
  unfold DurationParser.parse
  rw [ht]
  exact C104_bytes (hc h) (fun _ _ => rfl) rfl (fun _ _ => rfl) rfl (fun _ _ => rfl) rfl

/-- C104, options, CustomDurationParser -/
theorem C104_option_custom (p : CustomDurationParser) (call : SetterCall) (s : Bytes) (h : Unused s p.config call) :
    (callCustomParser p call).parse s = p.parse s := by
  have ⟨ht, hk, hn, hc⟩ := custom_one (s := s) p call
  unfold CustomDurationParser.parse
  rw [ht, hk, hn]
  exact C104_bytes (hc h) (fun _ _ => rfl) rfl (fun _ _ => rfl) rfl (fun _ _ => rfl) rfl

/-! ### Examples -/

/-- a text without a point; `1e3x` is an error anyhow -/
example (p : DurationParser) (v : Bool) : (p.disableFraction v).parse (b! "1e3x") = p.parse (b! "1e3x") :=
  C104_option_standard p (.disableFraction v) _ (by show _ ∉ _; decide)

/-- a text with the letter e, but not after a number -/
example (p : DurationParser) (v : Bool) : (p.disableExponent v).parse (b! "1.5 e") = p.parse (b! "1.5 e") := by
  refine C104_option_standard p (.disableExponent v) _ ?_
  rintro ⟨a, b, ho, ha, hb⟩
  have key : ∀ a b : UInt8, [a, b] <:+: b! "1.5 e" → (b = 101 ∨ b = 69) → a = 32 := by
    rintro a b ⟨x, y, e⟩ hb
    match x, e with
    | [], e => cases e; rcases hb with h | h <;> cases h
    | [_], e => cases e; rcases hb with h | h <;> cases h
    | [_, _], e => cases e; rcases hb with h | h <;> cases h
    | [_, _, _], e => cases e; rfl
    | _ :: _ :: _ :: _ :: l, e =>
      have := congrArg List.length e
      simp only [List.cons_append, List.length_cons, List.length_append, List.length_nil] at this
      omega
  rw [key a b (occursIn_iff.1 ho) hb] at ha
  rcases ha with h | h
  · exact absurd h (by decide)
  · cases h

/-- without the condition the options matter -/
theorem C104_option_needed :
    (∃ p : DurationParser, ∃ s, (p.disableFraction true).parse s ≠ p.parse s) ∧
    (∃ p : DurationParser, ∃ s, (p.disableExponent true).parse s ≠ p.parse s) ∧
    (∃ p : DurationParser, ∃ s, (p.disableInfinity true).parse s ≠ p.parse s) ∧
    (∃ p : DurationParser, ∃ s, (p.allowTimeUnitDelimiter true).parse s ≠ p.parse s) ∧
    (∃ p : DurationParser, ∃ s, (p.allowSignDelimiter true).parse s ≠ p.parse s) ∧
    (∃ p : DurationParser, p.config.allowNegative = true ∧ ∃ s, (p.allowAgo true).parse s ≠ p.parse s) :=
  ⟨⟨DurationParser.new, b! "1.5s", by decide +kernel⟩, ⟨DurationParser.new, b! "1e3", by decide +kernel⟩,
    ⟨DurationParser.new, b! "+inf", by decide +kernel⟩, ⟨DurationParser.new, b! "1 s", by decide +kernel⟩,
    ⟨DurationParser.new, b! "+ 1s", by decide +kernel⟩,
    ⟨DurationParser.new.allowNegative true, rfl, b! "1s ago", by decide +kernel⟩⟩

/-- a text without an `s`, an `n`, an `M` or a `y` has the same result whether these time units are known or not; it is an error here,
at the same position and with the same message -/
example : (DurationParser.withTimeUnits [.minute, .hour, .day]).parse (b! "1.5h 3x") = DurationParser.withAllTimeUnits.parse (b! "1.5h 3x") := by
  refine C104_standard allUnits [.minute, .hour, .day] _ _ rfl rfl rfl (by decide) _ ?_
  intro u hu
  rw [occursIn_iff] at hu
  revert hu
  cases u <;> decide

/-- neither do the bytes matter which are no bytes of the text -/
example (cfg : Config) (s : Bytes) (h9 : (9 : UInt8) ∉ s) (units : TimeUnitsLike) :
    parse { cfg with innerDelimiter := fun b => b == 9 || cfg.innerDelimiter b } units none none s = parse cfg units none none s := by
  refine C104_bytes (sameOptions_delimiters ?_ fun _ _ => rfl) (fun _ _ => rfl) rfl (fun _ _ => rfl) rfl (fun _ _ => rfl) rfl
  intro b hb
  have : (b == 9) = false := by
    rw [beq_eq_false_iff_ne]
    rintro rfl
    exact h9 hb
  show (b == 9 || cfg.innerDelimiter b) = _
  rw [this, Bool.false_or]

/-- the further words of C86 do not matter for this text, which is an error -/
example : (furtherCalls.foldl callCustomSetter moreParser).parse (b! "3 hours or 2 weeks") = moreParser.parse (b! "3 hours or 2 weeks") := by
  refine C104_custom moreCalls furtherCalls (by
      intro c hc
      simp only [furtherCalls, List.mem_cons, List.not_mem_nil, or_false] at hc
      rcases hc with rfl | rfl | rfl <;> trivial) moreParser _ rfl rfl
    ⟨defaultConfig_text.inner, defaultConfig_text.outer, by
      intro ws h
      cases h
      intro w hw
      obtain rfl : w = b! "and" := List.mem_singleton.1 hw
      exact isText_ascii (by decide)⟩ (Or.inl fun b h => h) (by decide +kernel) _ (isText_ascii (by decide)) ?_
  intro c hc w hw
  rw [occursIn_iff]
  have key : ∀ w ∈ furtherCalls.flatMap addedWords, ¬ w <:+: b! "3 hours or 2 weeks" := by decide +kernel
  exact key w (List.mem_flatMap.2 ⟨c, hc, hw⟩)

/-- the condition about the first time unit is needed: a parser without time units takes the rest of the text for a mistake in the
syntax, one with time units for an unknown time unit -/
theorem C104_condition_needed :
    ∃ (more : List CustomCall) (s : Bytes), (∀ c ∈ more, AddsWords c) ∧ IsText s ∧ (∀ c ∈ more, ∀ w ∈ addedWords c, ¬ OccursIn w s) ∧
      (more.foldl callCustomSetter CustomDurationParser.new).parse s ≠ CustomDurationParser.new.parse s := by
  refine ⟨[.timeUnit ⟨.second, ⟨1, 0⟩, [b! "s"]⟩], b! "1x", ?_, isText_ascii (by decide), ?_, by decide +kernel⟩
  · intro c hc; obtain rfl := List.mem_singleton.1 hc; trivial
  · intro c hc w hw
    obtain rfl := List.mem_singleton.1 hc
    obtain rfl : w = b! "s" := by simpa [addedWords, CustomCall.units, CustomCall.keywordUnits, CustomCall.numeralList] using hw
    rw [occursIn_iff]
    decide

end Fundu.Props
