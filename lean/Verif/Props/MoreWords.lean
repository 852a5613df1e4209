import Verif.Proofs.MoreWords
import Verif.Props.Options
import Verif.Props.Phrases
/-!
# Property C86: a parser which knows more words keeps the meaning of what it accepted

The specification is `Verif/Spec/MoreWords.lean` and `Verif/Spec/Options.lean`.
-/
namespace Fundu.Props
open Fundu Fundu.Spec

section
variable (cfg cfg' : Config) (units units' : TimeUnitsLike) (keywords keywords' : Option TimeUnitsLike)
  (numerals numerals' : Option NumbersLike) (s : Bytes) (d : Duration)

/-- C86, one duration: if one parser knows all time units, keywords and numerals of another one with the same meaning and allows all it
allows, and its words are orderly, then it accepts what the other accepts, with the same result. -/
theorem C86_single (hs : IsText s) (hc : CfgText cfg) (hm : cfg.allowMultiple = false) (hmore : AllowsMore cfg cfg')
    (hunits : UnitsMore units units') (hkeywords : KeywordsMore keywords keywords') (hnumerals : NumeralsMore numerals numerals')
    (ho : Orderly cfg units' keywords' numerals') (h : parse cfg units keywords numerals s = .ok d) :
    parse cfg' units' keywords' numerals' s = .ok d := by
  refine C63_single cfg cfg' units units' keywords' numerals' s d hs hc hm hmore hunits ho ?_
  exact (C27_single cfg units keywords' numerals' s d hs hc hm).2 (words_denotesSingle hkeywords hnumerals (ho.more hunits)
    ((C27_single cfg units keywords numerals s d hs hc hm).1 h))

/-- C86, several durations. -/
theorem C86_multiple (hs : IsText s) (hc : CfgText cfg) (hm : cfg.allowMultiple = true) (hmore : AllowsMore cfg cfg')
    (hcomp : CompatibleMultiple cfg cfg')
    (hunits : UnitsMore units units') (hkeywords : KeywordsMore keywords keywords') (hnumerals : NumeralsMore numerals numerals')
    (ho : Orderly cfg units' keywords' numerals') (h : parse cfg units keywords numerals s = .ok d) :
    ∃ d', parse cfg' units' keywords' numerals' s = .ok d' ∧ d'.WF ∧ nanos d' = nanos d := by
  have hd := hcomp.delimiters
  obtain ⟨ds, h1, h2⟩ := (C27_multiple cfg units keywords numerals s (nanos d) hs hc hm (Or.inl hd)).1 ⟨d, h, parse_wf hs hc h, rfl⟩
  obtain ⟨d1, h3, h4, h5⟩ := (C27_multiple cfg units keywords' numerals' s (nanos d) hs hc hm (Or.inl hd)).2
    ⟨ds, words_denotesMultiple hd hkeywords hnumerals (ho.more hunits) h1, h2⟩
  obtain ⟨d2, h6, h7, h8⟩ := C63_multiple cfg cfg' units units' keywords' numerals' s d1 hs hc hm hmore hcomp hunits ho h3
  exact ⟨d2, h6, h7, h8.trans h5⟩

end

/-! ## CustomDurationParser -/

theorem custom_get_more {units units' : List CustomTimeUnit} (h : ∀ r ∈ units, r ∈ units') (ho : Once units') {id : Bytes} {x}
    (hx : (CustomTimeUnits.withTimeUnits units).like.get id = some x) : (CustomTimeUnits.withTimeUnits units').like.get id = some x := by
  obtain ⟨u, m⟩ := x
  obtain ⟨r, hr, rfl, rfl, hid⟩ := C36_sound units id u m hx
  exact C36_unique units' id r (h r hr) hid ((C36_resolves units id).1 ⟨_, hx⟩).1 fun r' hr' hid' => ho r (h r hr) r' hr' id hid hid'

theorem custom_units_more {units units' : List CustomTimeUnit} (h : ∀ r ∈ units, r ∈ units') (ho : Once units') :
    UnitsMore (CustomTimeUnits.withTimeUnits units).like (CustomTimeUnits.withTimeUnits units').like := by
  refine ⟨fun id u hu => custom_get_more h ho hu, ?_, ?_⟩
  · rw [C36_is_empty, C36_is_empty]
    exact fun g r hr => g r (h r hr)
  · rw [C36_is_empty]
    intro g id
    cases hg : (CustomTimeUnits.withTimeUnits units).like.get id with
    | none => rfl
    | some x =>
      obtain ⟨hne, r, hr, hid⟩ := (C36_resolves units id).1 ⟨x, hg⟩
      exact absurd (g r hr id hid) hne

theorem numerals_append (l l' : List Numeral) {w : Bytes} {q : Multiplier} (h : numeralsGet l w = some q) :
    numeralsGet (l ++ l') w = some q := by
  obtain ⟨before, n, after, rfl, h1, h2, h3⟩ := (C37_get l w q).1 h
  exact (C37_get _ w q).2 ⟨before, n, after ++ l', by simp, h1, h2, h3⟩

theorem keywords_get {ks : List TimeKeyword} {k : TimeUnitsLike}
    (h : (if !(CustomTimeUnits.withKeywords ks).isEmpty then some (CustomTimeUnits.withKeywords ks).like else none) = some k)
    {w : Bytes} {u} (hw : k.get w = some u) : w ∈ ks.flatMap (·.timeUnit.identifiers) := by
  split at h
  · cases h
    rw [C36_keywords] at hw
    obtain ⟨-, r, hr, hid⟩ := (C36_resolves _ w).1 ⟨_, hw⟩
    obtain ⟨t, ht, rfl⟩ := List.mem_map.1 hr
    exact List.mem_flatMap.2 ⟨t, ht, hid⟩
  · cases h

theorem numerals_get {ns : List Numeral} {n : NumbersLike} (h : (if !ns.isEmpty then some (numeralsGet ns) else none) = some n)
    {w : Bytes} {q} (hw : n w = some q) : w ∈ ns.flatMap (·.identifiers) := by
  split at h
  · cases h
    obtain ⟨before, n, after, rfl, h1, h2, -⟩ := (C37_get ns w q).1 hw
    exact List.mem_flatMap.2 ⟨n, by simp, h1⟩
  · cases h

theorem units_get {us : List CustomTimeUnit} {w : Bytes} {u} (hw : (CustomTimeUnits.withTimeUnits us).like.get w = some u) :
    w ∈ us.flatMap (·.identifiers) := by
  obtain ⟨-, r, hr, hid⟩ := (C36_resolves _ w).1 ⟨_, hw⟩
  exact List.mem_flatMap.2 ⟨r, hr, hid⟩

/-- orderly words make orderly tables -/
theorem orderly_words {cfg : Config} {us : List CustomTimeUnit} {ks : List TimeKeyword} {ns : List Numeral}
    (h : OrderlyTables cfg us ks ns) :
    Orderly cfg (CustomTimeUnits.withTimeUnits us).like
      (if !(CustomTimeUnits.withKeywords ks).isEmpty then some (CustomTimeUnits.withKeywords ks).like else none)
      (if !ns.isEmpty then some (numeralsGet ns) else none) := by
  have hw : ∀ id, IsIdentifier (CustomTimeUnits.withTimeUnits us).like
      (if !(CustomTimeUnits.withKeywords ks).isEmpty then some (CustomTimeUnits.withKeywords ks).like else none)
      (if !ns.isEmpty then some (numeralsGet ns) else none) id →
      id ∈ us.flatMap (·.identifiers) ++ ks.flatMap (·.timeUnit.identifiers) ++ ns.flatMap (·.identifiers) := by
    rintro id (⟨x, h⟩ | ⟨k, x, h, h'⟩ | ⟨n, q, h, h'⟩)
    · simp only [List.mem_append]; exact Or.inl (Or.inl (units_get h))
    · simp only [List.mem_append]; exact Or.inl (Or.inr (keywords_get h h'))
    · simp only [List.mem_append]; exact Or.inr (numerals_get h h')
  refine ⟨h.delimiters, fun id hi => (h.word id (hw id hi)).1, fun id hi => (h.word id (hw id hi)).2.1, ?_, ?_,
    fun id hi => (h.word id (hw id hi)).2.2.2.2, ?_, ?_, ?_⟩
  · rintro id hi ⟨b, l, rfl, rfl⟩
    exact (h.word _ (hw _ hi)).2.2.1 rfl
  · rintro id hi ⟨r, x, rfl, hx⟩
    have h3 : x.length = 3 := (sameText_length hx).trans (by decide)
    refine (h.word _ (hw _ hi)).2.2.2.1 ?_
    rw [List.take_left' h3]
    exact hx
  · intro k hk id u hu
    cases hg : k.get id with
    | none => rfl
    | some x => exact absurd (keywords_get hk hg) (h.unitsKeywords id (units_get hu))
  · intro n hn id u hu
    cases hg : n id with
    | none => rfl
    | some x => exact absurd (numerals_get hn hg) (h.unitsNumerals id (units_get hu))
  · intro k n hk hn id u hu
    cases hg : n id with
    | none => rfl
    | some x => exact absurd (numerals_get hn hg) (h.keywordsNumerals id (keywords_get hk hu))

theorem keywords_more {calls more : List CustomCall}
    (ho : Once (((calls ++ more).flatMap CustomCall.keywordUnits).map (·.timeUnit))) :
    KeywordsMore
      (if !(calls.foldl callCustomSetter CustomDurationParser.new).keywords.isEmpty then
        some (calls.foldl callCustomSetter CustomDurationParser.new).keywords.like else none)
      (if !((calls ++ more).foldl callCustomSetter CustomDurationParser.new).keywords.isEmpty then
        some ((calls ++ more).foldl callCustomSetter CustomDurationParser.new).keywords.like else none) := by
  obtain ⟨-, h1, -⟩ := C35_custom_tables calls
  obtain ⟨-, h2, -⟩ := C35_custom_tables (calls ++ more)
  rw [h1, h2]
  intro k hk w u hw
  by_cases he : (!(CustomTimeUnits.withKeywords (calls.flatMap CustomCall.keywordUnits)).isEmpty) = true
  · rw [if_pos he] at hk
    cases hk
    rw [C36_keywords] at hw
    have hg := custom_get_more (units' := ((calls ++ more).flatMap CustomCall.keywordUnits).map (·.timeUnit))
      (by intro r hr; rw [List.flatMap_append, List.map_append]; exact List.mem_append_left _ hr) ho hw
    refine ⟨_, if_pos ?_, by rw [C36_keywords]; exact hg⟩
    cases he' : (CustomTimeUnits.withKeywords ((calls ++ more).flatMap CustomCall.keywordUnits)).isEmpty with
    | false => rfl
    | true =>
      replace he' : (CustomTimeUnits.withKeywords ((calls ++ more).flatMap CustomCall.keywordUnits)).like.isEmpty = true := he'
      rw [C36_keywords, C36_is_empty] at he'
      obtain ⟨hne, r, hr, hid⟩ := (C36_resolves _ w).1 ⟨_, hg⟩
      exact absurd (he' r hr w hid) hne
  · rw [if_neg he] at hk; cases hk

theorem numerals_more {calls more : List CustomCall} :
    NumeralsMore
      (if !(calls.foldl callCustomSetter CustomDurationParser.new).numerals.isEmpty then
        some (numeralsGet (calls.foldl callCustomSetter CustomDurationParser.new).numerals) else none)
      (if !((calls ++ more).foldl callCustomSetter CustomDurationParser.new).numerals.isEmpty then
        some (numeralsGet ((calls ++ more).foldl callCustomSetter CustomDurationParser.new).numerals) else none) := by
  obtain ⟨-, -, h1⟩ := C35_custom_tables calls
  obtain ⟨-, -, h2⟩ := C35_custom_tables (calls ++ more)
  rw [h1, h2]
  intro n hn w q hw
  by_cases he : (!(calls.flatMap CustomCall.numeralList).isEmpty) = true
  · rw [if_pos he] at hn
    cases hn
    have hg := numerals_append _ (more.flatMap CustomCall.numeralList) hw
    rw [← List.flatMap_append] at hg
    refine ⟨_, if_pos ?_, hg⟩
    rw [List.flatMap_append]
    cases h : calls.flatMap CustomCall.numeralList with
    | nil => rw [h] at he; cases he
    | cons a l => rfl
  · rw [if_neg he] at hn; cases hn

/-- a call which adds words, and does not set an option -/
def AddsWords : CustomCall → Prop
  | .option _ => False
  | _ => True

theorem config_foldl_time_unit (l : List CustomTimeUnit) (p : CustomDurationParser) :
    (l.foldl CustomDurationParser.timeUnit p).config = p.config := by
  induction l generalizing p with
  | nil => rfl
  | cons a l ih => exact (ih _).trans rfl

theorem config_foldl_keyword (l : List TimeKeyword) (p : CustomDurationParser) :
    (l.foldl CustomDurationParser.keyword p).config = p.config := by
  induction l generalizing p with
  | nil => rfl
  | cons a l ih => exact (ih _).trans rfl

theorem config_foldl_numeral (l : List Numeral) (p : CustomDurationParser) :
    (l.foldl CustomDurationParser.numeral p).config = p.config := by
  induction l generalizing p with
  | nil => rfl
  | cons a l ih => exact (ih _).trans rfl

theorem adds_config (more : List CustomCall) (h : ∀ c ∈ more, AddsWords c) (p : CustomDurationParser) :
    (more.foldl callCustomSetter p).config = p.config := by
  induction more generalizing p with
  | nil => rfl
  | cons c l ih =>
    rw [List.foldl_cons, ih (fun c hc => h c (by simp [hc]))]
    have := h c (by simp)
    cases c with
    | timeUnit _ => rfl
    | timeUnits us => exact config_foldl_time_unit us p
    | keyword _ => rfl
    | keywords ks => exact config_foldl_keyword ks p
    | numeral _ => rfl
    | numerals ns => exact config_foldl_numeral ns p
    | option _ => exact absurd this id

/-- C86, CustomDurationParser: after further calls which add time units, keywords or numerals the parser accepts what it accepted
before, with the same result, if its words are orderly and no identifier of a time unit or keyword was given a second meaning. -/
theorem C86_custom (calls more : List CustomCall) (hmore : ∀ c ∈ more, AddsWords c) (p p' : CustomDurationParser)
    (hp : p = calls.foldl callCustomSetter CustomDurationParser.new) (hp' : p' = more.foldl callCustomSetter p)
    (hc : CfgText p.config)
    (ho : OrderlyTables p.config ((calls ++ more).flatMap CustomCall.units) ((calls ++ more).flatMap CustomCall.keywordUnits)
      ((calls ++ more).flatMap CustomCall.numeralList))
    (hu : Once ((calls ++ more).flatMap CustomCall.units))
    (hk : Once (((calls ++ more).flatMap CustomCall.keywordUnits).map (·.timeUnit)))
    (hd : p.config.allowMultiple = true → ∀ b, p.config.innerDelimiter b = true → p.config.outerDelimiter b = true)
    (s : Bytes) (hs : IsText s) (d : Duration) (h : p.parse s = .ok d) :
    ∃ d', p'.parse s = .ok d' ∧ d'.WF ∧ nanos d' = nanos d := by
  have hcfg : p'.config = p.config := by rw [hp']; exact adds_config more hmore p
  have e' : p' = (calls ++ more).foldl callCustomSetter CustomDurationParser.new := by rw [hp', hp, List.foldl_append]
  obtain ⟨t1, -, -⟩ := C35_custom_tables calls
  obtain ⟨t2, t3, t4⟩ := C35_custom_tables (calls ++ more)
  have ho := orderly_words ho
  rw [← t2, ← t3, ← t4, ← e'] at ho
  have k1 : UnitsMore p.timeUnits.like p'.timeUnits.like := by
    rw [hp, e', t1, t2]
    exact custom_units_more (by intro r hr; rw [List.flatMap_append]; exact List.mem_append_left _ hr) hu
  have k2 := keywords_more hk
  have k3 := numerals_more (calls := calls) (more := more)
  rw [← hp, ← e'] at k2 k3
  unfold CustomDurationParser.parse at h ⊢
  rw [hcfg]
  have hrefl : AllowsMore p.config p.config :=
    ⟨rfl, rfl, rfl, rfl, rfl, id, id, id, id, id, id, id, id⟩
  cases hm : p.config.allowMultiple with
  | false =>
    have := C86_single p.config p.config _ _ _ _ _ _ s d hs hc hm hrefl k1 k2 k3 ho h
    exact ⟨d, this, parse_wf hs hc this, rfl⟩
  | true =>
    exact C86_multiple p.config p.config _ _ _ _ _ _ s d hs hc hm hrefl ⟨hd hm, Or.inl rfl, Or.inl rfl⟩ k1 k2 k3 ho h

/-! ### Examples -/

local instance (b : UInt8) : Decidable (IsLetter b) := by unfold IsLetter; infer_instance

/-- a parser with time units only -/
def moreCalls : List CustomCall := [.timeUnits holidayUnits, .option .allowTimeUnitDelimiter, .option (.parseMultiple (some [b! "and"]))]

def moreParser : CustomDurationParser := moreCalls.foldl callCustomSetter CustomDurationParser.new

/-- further words -/
def furtherCalls : List CustomCall := [.keywords holidayKeywords, .numeral ⟨[b! "a", b! "one"], ⟨1, 0⟩⟩, .timeUnit ⟨.year, ⟨10, 0⟩, [b! "decade"]⟩]

theorem moreParser_delimiter {b : UInt8} (h : IsDelimiter moreParser.config b) : PosixSpace b := h.elim whitespace_posix whitespace_posix

theorem moreParser_orderly : OrderlyTables moreParser.config ((moreCalls ++ furtherCalls).flatMap CustomCall.units)
    ((moreCalls ++ furtherCalls).flatMap CustomCall.keywordUnits) ((moreCalls ++ furtherCalls).flatMap CustomCall.numeralList) where
  delimiters b hb := by
    have key : ∀ n < 256, PosixSpace (UInt8.ofNat n) →
        ¬ IsLetter (UInt8.ofNat n) ∧ ¬ IsDigit (UInt8.ofNat n) ∧ UInt8.ofNat n ≠ 46 := by decide +kernel
    have := key b.toNat b.toNat_lt
    rw [UInt8.ofNat_toNat] at this
    exact this (moreParser_delimiter hb)
  word := by
    have key : ∀ w ∈ ((moreCalls ++ furtherCalls).flatMap CustomCall.units).flatMap (·.identifiers) ++
        ((moreCalls ++ furtherCalls).flatMap CustomCall.keywordUnits).flatMap (·.timeUnit.identifiers) ++
        ((moreCalls ++ furtherCalls).flatMap CustomCall.numeralList).flatMap (·.identifiers),
        w ≠ [] ∧ (∀ b ∈ w, ¬ PosixSpace b ∧ ¬ NextDuration b) ∧ w.head? ≠ some 46 ∧ ¬ SameText (w.take 3) (b! "inf") ∧
          ¬ SameText w (b! "ago") := by decide +kernel
    intro w hw
    obtain ⟨h1, h2, h3⟩ := key w hw
    exact ⟨h1, fun b hb => ⟨fun g => (h2 b hb).1 (moreParser_delimiter g), (h2 b hb).2⟩, h3⟩
  unitsKeywords := by decide +kernel
  unitsNumerals := by decide +kernel
  keywordsNumerals := by decide +kernel

/-- C86 for every text: the parser with further words, among them keywords and numerals, gives what it gave before -/
theorem further_words (s : Bytes) (hs : IsText s) (d : Duration) (h : moreParser.parse s = .ok d) :
    ∃ d', (furtherCalls.foldl callCustomSetter moreParser).parse s = .ok d' ∧ d'.WF ∧ nanos d' = nanos d :=
  C86_custom moreCalls furtherCalls (by
      intro c hc
      simp only [furtherCalls, List.mem_cons, List.not_mem_nil, or_false] at hc
      rcases hc with rfl | rfl | rfl <;> trivial) moreParser _ rfl rfl
    ⟨defaultConfig_text.inner, defaultConfig_text.outer, by
      intro ws h
      cases h
      intro w hw
      obtain rfl : w = b! "and" := List.mem_singleton.1 hw
      exact isText_ascii (by decide)⟩
    moreParser_orderly (by unfold Once; decide +kernel) (by unfold Once; decide +kernel) (fun _ b h => h) s hs d h

/-- the parser accepts such texts -/
example : moreParser.parse (b! "1.5h and 3 days 2 fortnight") = .ok ⟨false, ⟨2683800, 0⟩⟩ := by decide +kernel

/-- the further words are read -/
example : (furtherCalls.foldl callCustomSetter moreParser).parse (b! "one decade 1h and 3 days") = .ok ⟨false, ⟨315838800, 0⟩⟩ := by
  decide +kernel

/-- the condition is needed: if the identifier of a time unit is also made a keyword, then its meaning changes -/
theorem C86_condition_needed :
    ∃ (calls more : List CustomCall) (s : Bytes) (d : Duration), (∀ c ∈ more, AddsWords c) ∧
      (calls.foldl callCustomSetter CustomDurationParser.new).parse s = .ok d ∧
      ((calls ++ more).foldl callCustomSetter CustomDurationParser.new).parse s ≠ .ok d :=
  ⟨[.timeUnit ⟨.second, ⟨1, 0⟩, [b! "s"]⟩, .option .allowTimeUnitDelimiter,
      .option (.numberIsOptional)],
    [.keyword ⟨⟨.hour, ⟨1, 0⟩, [b! "s"]⟩⟩], b! "s", ⟨false, ⟨1, 0⟩⟩, by
      intro c hc; obtain rfl := List.mem_singleton.1 hc; trivial, by decide +kernel, by decide +kernel⟩

end Fundu.Props
