import Verif.Proofs.Regex
import Verif.Props.Options
import Verif.Props.Standard
/-!
# Property C79: the regular expressions of the project's fuzz target

The specification is `Verif/Spec/Regex.lean`.
-/
namespace Fundu.Props
open Fundu Fundu.Spec

section
variable (cfg : Config) (units : TimeUnitsLike) (keywords : Option TimeUnitsLike) (numerals : Option NumbersLike)

/-- C79: a text which a parser of one duration accepts, or rejects only because it is negative, matches the regular
expression of the parser's settings and words. -/
theorem C79_accepted_matches (U K N : List Bytes) (hl : WordLists units keywords numerals U K N) (s : Bytes) (hs : IsText s)
    (hc : CfgText cfg) (hm : cfg.allowMultiple = false)
    (h : (∃ d, parse cfg units keywords numerals s = .ok d) ∨ parse cfg units keywords numerals s = fail .negativeNumber) :
    (durationRegex cfg U K N).Matches s := by
  rcases h with ⟨d, h⟩ | h
  · obtain ⟨neg, r, item, h1, h2, -⟩ := (C27_single cfg units keywords numerals s d hs hc hm).1 h
    exact duration_matches hl h1 h2
  · obtain ⟨f, hf, he⟩ := (C71_single cfg units keywords numerals s _ hs hc hm).1 h
    cases hf with
    | empty => cases he
    | sign h => cases h <;> cases he
    | text h1 h2 => exact absurd he.symm (single_mistake_error h2)
    | negative h1 h2 => exact duration_matches hl h1 h2

theorem orderly_of_words {U K N : List Bytes} (hl : WordLists units keywords numerals U K N)
    (hw : OrderlyWords cfg U K N) : Orderly cfg units keywords numerals := by
  have hid : ∀ id, IsIdentifier units keywords numerals id → id ∈ U ++ K ++ N := by
    rintro id (h | h | h)
    · exact List.mem_append_left _ (List.mem_append_left _ ((hl.ofUnits id).1 h))
    · exact List.mem_append_left _ (List.mem_append_right _ ((hl.ofKeywords id).1 h))
    · exact List.mem_append_right _ ((hl.ofNumerals id).1 h)
  refine ⟨hw.delimiters, fun id h => hw.nonempty id (hid id h), fun id h => hw.plain id (hid id h),
    fun id h => hw.point id (hid id h), fun id h => hw.inf id (hid id h), fun id h => hw.ago id (hid id h), ?_, ?_, ?_⟩
  · intro k hk id u hu
    cases hg : k.get id with
    | none => rfl
    | some v => exact absurd ((hl.ofKeywords id).1 ⟨k, v, hk, hg⟩) (hw.apart.1 id ((hl.ofUnits id).1 ⟨u, hu⟩)).1
  · intro n hn id u hu
    cases hg : n id with
    | none => rfl
    | some v => exact absurd ((hl.ofNumerals id).1 ⟨n, v, hn, hg⟩) (hw.apart.1 id ((hl.ofUnits id).1 ⟨u, hu⟩)).2
  · intro k n hk hn id u hu
    cases hg : n id with
    | none => rfl
    | some v => exact absurd ((hl.ofNumerals id).1 ⟨n, v, hn, hg⟩) (hw.apart.2 id ((hl.ofKeywords id).1 ⟨k, u, hk, hu⟩))

theorem regex_outcome {U K N : List Bytes} (hl : WordLists units keywords numerals U K N) (hw : OrderlyWords cfg U K N)
    (s : Bytes) (hs : IsText s) (hc : CfgText cfg) (hm : cfg.allowMultiple = false)
    (hnp : (∃ d, parse cfg units keywords numerals s = .ok d ∧ d.WF) ∨ ∃ e, parse cfg units keywords numerals s = fail e)
    (h : (durationRegex cfg U K N).Matches s) :
    (∃ d, parse cfg units keywords numerals s = .ok d) ∨
    (cfg.allowNegative = false ∧ parse cfg units keywords numerals s = fail .negativeNumber) ∨
    (cfg.disableExponent = false ∧ HugeExponent s ∧ (parse cfg units keywords numerals s = fail .negativeExponentOverflow ∨
      parse cfg units keywords numerals s = fail .positiveExponentOverflow)) := by
  obtain ⟨neg, r, h1, ⟨item, h2⟩ | h2⟩ := duration_text (orderly_of_words cfg units keywords numerals hl hw) hl hw.noExponent h
  · rcases single_outcome units keywords numerals hs hc hm h1 h2 with hd | hd | ⟨p, hp⟩
    · exact Or.inl hd
    · exact Or.inr (Or.inl hd)
    · rcases hnp with ⟨d, hd, -⟩ | ⟨e, hd⟩
      · exact Or.inl ⟨d, hd⟩
      · rw [hd] at hp; cases hp
  · refine Or.inr (Or.inr ⟨?_, overflow_huge h1 h2, ?_⟩)
    · obtain ⟨W, r1, F, x, q, n, q', E, rest, -, -, -, h, -⟩ := h2
      exact h
    · obtain ⟨W, r1, F, x, q, n, q', E, rest, k1, k2, k3, k4, k5, k6, k7, k8⟩ := h2
      have := C20_overflow cfg units keywords numerals s hs hc h1 k1 k2 k3 k4 k5 k6 (by
        unfold IsI16 I16_MIN I16_MAX at k8
        omega)
      cases n
      · exact Or.inr this
      · exact Or.inl this

/-- C79: if the words are orderly, each text which matches the regular expression is accepted,
or rejected because it is negative and negative durations are not allowed, or because its exponent does not
fit into 16 bits. -/
theorem C79_matches_accepted (U K N : List Bytes) (hl : WordLists units keywords numerals U K N)
    (hw : OrderlyWords cfg U K N)
    (hu : TableFits units) (hk : ∀ k, keywords = some k → TableFits k) (hn : ∀ n, numerals = some n → NumeralsFit n units)
    (s : Bytes) (hs : IsText s) (hc : CfgText cfg) (hm : cfg.allowMultiple = false) (h : (durationRegex cfg U K N).Matches s) :
    (∃ d, parse cfg units keywords numerals s = .ok d) ∨
    (cfg.allowNegative = false ∧ parse cfg units keywords numerals s = fail .negativeNumber) ∨
    (cfg.disableExponent = false ∧ HugeExponent s ∧ (parse cfg units keywords numerals s = fail .negativeExponentOverflow ∨
      parse cfg units keywords numerals s = fail .positiveExponentOverflow)) :=
  regex_outcome cfg units keywords numerals hl hw s hs hc hm (C23_no_panic cfg units keywords numerals s hs hc hu hk hn) h

/-- C79: without exponents the regular expression describes exactly the texts which are accepted or rejected only because
they are negative. -/
theorem C79_without_exponent (U K N : List Bytes) (hl : WordLists units keywords numerals U K N)
    (hw : OrderlyWords cfg U K N)
    (hu : TableFits units) (hk : ∀ k, keywords = some k → TableFits k) (hn : ∀ n, numerals = some n → NumeralsFit n units)
    (s : Bytes) (hs : IsText s) (hc : CfgText cfg) (hm : cfg.allowMultiple = false) (hx : cfg.disableExponent = true) :
    (durationRegex cfg U K N).Matches s ↔
      (∃ d, parse cfg units keywords numerals s = .ok d) ∨ parse cfg units keywords numerals s = fail .negativeNumber := by
  refine ⟨fun h => ?_, C79_accepted_matches cfg units keywords numerals U K N hl s hs hc hm⟩
  rcases C79_matches_accepted cfg units keywords numerals U K N hl hw hu hk hn s hs hc hm h with h | ⟨-, h⟩ | ⟨h, -⟩
  · exact Or.inl h
  · exact Or.inr h
  · rw [hx] at h; cases h

end

/-! ## the parsers -/

theorem standard_words (us : List TimeUnit) :
    WordLists (DurationParser.withTimeUnits us).timeUnits.like none none (unitWords us) [] [] := by
  refine ⟨fun id => ?_, fun h => ?_, fun id => ?_, fun id => ?_⟩
  · unfold unitWords
    constructor
    · rintro ⟨u, h⟩
      obtain ⟨v, hv, rfl, -⟩ := (C34_get us id u).1 h
      refine List.mem_map.2 ⟨(v, v.defaultIdentifier, (documentedUnits.find? (fun e => decide (e.1 = v))).elim 0 (·.2.2)), List.mem_filter.2 ⟨?_, by simpa using hv⟩, rfl⟩
      clear h hv
      cases v <;> decide +kernel
    · intro h
      obtain ⟨⟨u, id', len⟩, h1, rfl⟩ := List.mem_map.1 h
      obtain ⟨h2, h3⟩ := List.mem_filter.1 h1
      exact ⟨(u, ⟨1, 0⟩), (C34_get us _ _).2 ⟨u, by simpa using h3, (documented_id h2).2.2.1, rfl⟩⟩
  · have := (C34_is_empty us).1 h
    subst this
    decide
  · exact ⟨(fun ⟨_, _, h, _⟩ => by cases h), (fun h => by cases h)⟩
  · exact ⟨(fun ⟨_, _, h, _⟩ => by cases h), (fun h => by cases h)⟩

theorem standard_words_orderly (cfg : Config) (us : List TimeUnit)
    (hd : ∀ b, IsDelimiter cfg b → ¬ IsLetter b ∧ ¬ IsDigit b ∧ b ≠ 46) : OrderlyWords cfg (unitWords us) [] [] := by
  have ho := standard_orderly cfg us hd
  have hl := standard_words us
  have hid : ∀ id ∈ unitWords us ++ [] ++ [], IsIdentifier (DurationParser.withTimeUnits us).timeUnits.like none none id := by
    intro id h
    rw [List.append_nil, List.append_nil] at h
    exact Or.inl ((hl.ofUnits id).2 h)
  refine ⟨hd, fun id h => ho.nonempty id (hid id h), fun id h => ho.plain id (hid id h),
    fun id h => ho.point id (hid id h), fun id h => ho.inf id (hid id h), fun id h => ho.ago id (hid id h),
    ⟨fun id _ => ⟨(fun h => by cases h), (fun h => by cases h)⟩, fun id h => by cases h⟩, ?_⟩
  intro id h
  obtain ⟨⟨u, id', len⟩, h1, rfl⟩ := List.mem_map.1 h
  rintro ⟨b, t, h2, h3⟩
  have := (documented_id (List.mem_filter.1 h1).1).2.2.2 b (by rw [show id' = b :: t from h2]; rfl)
  rcases h3 with h3 | h3
  · exact this.2.2.1 h3
  · exact this.2.2.2 h3

/-- C79: a `DurationParser` with any time units and any settings for one duration (whose delimiters are not letters, digits
or the point): the texts which it accepts match the regular expression; the texts which match are
accepted, or rejected because they are negative or their exponent does not fit into 16 bits. -/
theorem C79_standard (us : List TimeUnit) (calls : List SetterCall) (s : Bytes) (hs : IsText s)
    (p : DurationParser) (hp : p = calls.foldl callStandardParser (DurationParser.withTimeUnits us))
    (hc : CfgText p.config) (hm : p.config.allowMultiple = false)
    (hd : ∀ b, IsDelimiter p.config b → ¬ IsLetter b ∧ ¬ IsDigit b ∧ b ≠ 46) :
    ((∃ d, p.parse s = .ok d) ∨ p.parse s = fail .negativeNumber → (durationRegex p.config (unitWords us) [] []).Matches s) ∧
    ((durationRegex p.config (unitWords us) [] []).Matches s →
      (∃ d, p.parse s = .ok d) ∨ (p.config.allowNegative = false ∧ p.parse s = fail .negativeNumber) ∨
      (p.config.disableExponent = false ∧ HugeExponent s ∧
        (p.parse s = fail .negativeExponentOverflow ∨ p.parse s = fail .positiveExponentOverflow))) := by
  have ht : p.timeUnits = (DurationParser.withTimeUnits us).timeUnits := by
    rw [hp]; exact (C35_standard_setters (DurationParser.withTimeUnits us) calls).2
  have e : p.parse s = Fundu.parse p.config (DurationParser.withTimeUnits us).timeUnits.like none none s := by
    rw [← ht]; rfl
  rw [e]
  exact ⟨C79_accepted_matches _ _ _ _ _ _ _ (standard_words us) s hs hc hm,
    C79_matches_accepted _ _ _ _ _ _ _ (standard_words us) (standard_words_orderly _ us hd) (standard_fits us)
      (fun k h => by cases h) (fun n h => by cases h) s hs hc hm⟩

theorem custom_words_iff (regs : List CustomTimeUnit) (id : Bytes) :
    (∃ u, (CustomTimeUnits.withTimeUnits regs).like.get id = some u) ↔ id ∈ customWords regs := by
  rw [C36_resolves]
  unfold customWords
  rw [List.mem_filter, List.mem_flatMap]
  cases id <;> simp

theorem custom_words_empty (regs : List CustomTimeUnit) (h : (CustomTimeUnits.withTimeUnits regs).like.isEmpty = true) :
    customWords regs = [] := by
  have := (C36_is_empty regs).1 h
  unfold customWords
  rw [List.filter_eq_nil_iff]
  intro id hid
  obtain ⟨r, hr, hi⟩ := List.mem_flatMap.1 hid
  rw [this r hr id hi]
  simp

theorem table_words (p : CustomDurationParser) (regs kws : List CustomTimeUnit) (nums : List Numeral)
    (h1 : p.timeUnits = CustomTimeUnits.withTimeUnits regs) (h2 : p.keywords = CustomTimeUnits.withTimeUnits kws)
    (h3 : p.numerals = nums) :
    WordLists p.timeUnits.like (if !p.keywords.isEmpty then some p.keywords.like else none)
      (if !p.numerals.isEmpty then some (numeralsGet p.numerals) else none)
      (customWords regs) (customWords kws) (numeralWords nums) := by
  refine ⟨fun id => ?_, fun h => ?_, fun id => ?_, fun id => ?_⟩
  · rw [h1]; exact custom_words_iff _ id
  · rw [h1] at h; exact custom_words_empty _ h
  · rw [← custom_words_iff, ← h2]
    constructor
    · rintro ⟨k, u, hk, hu⟩
      by_cases he : (!p.keywords.isEmpty) = true
      · rw [if_pos he] at hk; cases hk; exact ⟨u, hu⟩
      · rw [if_neg he] at hk; cases hk
    · rintro ⟨u, hu⟩
      by_cases he : (!p.keywords.isEmpty) = true
      · exact ⟨_, u, if_pos he, hu⟩
      · exfalso
        have h4 : p.keywords.like.isEmpty = true := by
          show p.keywords.isEmpty = true
          cases hb : p.keywords.isEmpty
          · rw [hb] at he; exact absurd rfl he
          · rfl
        rw [h2] at h4 hu
        have h5 := (custom_words_iff _ id).1 ⟨u, hu⟩
        rw [custom_words_empty _ h4] at h5
        cases h5
  · rw [h3]
    have key : (∃ q, numeralsGet nums id = some q) ↔
        id ∈ numeralWords nums := by
      unfold numeralWords
      rw [List.mem_flatMap]
      constructor
      · rintro ⟨q, hq⟩
        obtain ⟨a, n, b, rfl, hi, -⟩ := (C37_get _ _ _).1 hq
        exact ⟨n, by simp, hi⟩
      · rintro ⟨n, hn, hi⟩
        cases hg : numeralsGet nums id with
        | some q => exact ⟨q, rfl⟩
        | none =>
          exfalso
          unfold numeralsGet at hg
          have := List.findSome?_eq_none_iff.1 hg n hn
          have := List.findSome?_eq_none_iff.1 this id hi
          simp at this
    rw [← key]
    constructor
    · rintro ⟨n, q, hn, hq⟩
      by_cases he : (!nums.isEmpty) = true
      · rw [if_pos he] at hn; cases hn; exact ⟨q, hq⟩
      · rw [if_neg he] at hn; cases hn
    · rintro ⟨q, hq⟩
      by_cases he : (!nums.isEmpty) = true
      · exact ⟨_, q, if_pos he, hq⟩
      · exfalso
        cases nums with
        | nil => cases hq
        | cons x l => exact he rfl

theorem custom_words (calls : List CustomCall) (p : CustomDurationParser)
    (hp : p = calls.foldl callCustomSetter CustomDurationParser.new) :
    WordLists p.timeUnits.like (if !p.keywords.isEmpty then some p.keywords.like else none)
      (if !p.numerals.isEmpty then some (numeralsGet p.numerals) else none)
      (customWords (calls.flatMap CustomCall.units))
      (customWords ((calls.flatMap CustomCall.keywordUnits).map (·.timeUnit)))
      (numeralWords (calls.flatMap CustomCall.numeralList)) := by
  obtain ⟨h1, h2, h3⟩ := C35_custom_tables calls
  rw [← hp] at h1 h2 h3
  rw [C36_keywords] at h2
  exact table_words p _ _ _ h1 h2 h3

/-- C79: the same for a `CustomDurationParser` made by any sequence of calls, whose time units and keywords were made by their
constructors, if its words are orderly and each product of a numeral and a time unit (or its negation) is representable. -/
theorem C79_custom (calls : List CustomCall) (s : Bytes) (hs : IsText s)
    (p : CustomDurationParser) (hp : p = calls.foldl callCustomSetter CustomDurationParser.new)
    (hc : CfgText p.config) (hm : p.config.allowMultiple = false)
    (U K N : List Bytes) (hU : U = customWords (calls.flatMap CustomCall.units))
    (hK : K = customWords ((calls.flatMap CustomCall.keywordUnits).map (·.timeUnit)))
    (hN : N = numeralWords (calls.flatMap CustomCall.numeralList)) (hw : OrderlyWords p.config U K N)
    (hu : ∀ r ∈ calls.flatMap CustomCall.units, Constructed r)
    (hk : ∀ k ∈ calls.flatMap CustomCall.keywordUnits, Constructed k.timeUnit)
    (hn : ∀ n ∈ calls.flatMap CustomCall.numeralList, ∀ r ∈ calls.flatMap CustomCall.units,
      Fits n.multiplier r.baseUnit.multiplier ∧
      Fits (product n.multiplier r.baseUnit.multiplier) r.multiplier ∧
      Fits (product n.multiplier r.baseUnit.multiplier) ⟨-r.multiplier.coefficient, r.multiplier.exponent⟩) :
    ((∃ d, p.parse s = .ok d) ∨ p.parse s = fail .negativeNumber → (durationRegex p.config U K N).Matches s) ∧
    ((durationRegex p.config U K N).Matches s →
      (∃ d, p.parse s = .ok d) ∨ (p.config.allowNegative = false ∧ p.parse s = fail .negativeNumber) ∨
      (p.config.disableExponent = false ∧ HugeExponent s ∧
        (p.parse s = fail .negativeExponentOverflow ∨ p.parse s = fail .positiveExponentOverflow))) := by
  have hl := custom_words calls p hp
  subst hU hK hN
  refine ⟨C79_accepted_matches _ _ _ _ _ _ _ hl s hs hc hm, regex_outcome _ _ _ _ hl hw s hs hc hm ?_⟩
  have := C57_no_panic calls s hs (by rw [← hp]; exact hc) hu hk hn
  rw [← hp] at this
  exact this

/-! ## the parser of the fuzz target -/

/-- words of letters which do not start with `inf` and are not `ago` -/
def plainWord (w : Bytes) : Bool :=
  !w.isEmpty && w.all (fun b => decide (IsLetter b)) && !((w.map lower).take 3 == b! "inf") && !(w.map lower == b! "ago")

theorem letter_facts (b : UInt8) (h : IsLetter b) : ¬ NextDuration b ∧ b ≠ 46 := by
  unfold IsLetter at h
  constructor
  · rintro (h' | rfl | rfl)
    · unfold IsDigit at h'; omega
    · revert h; decide
    · revert h; decide
  · rintro rfl; revert h; decide

theorem plain_words {cfg : Config} {U K N : List Bytes} (hd : ∀ b, IsDelimiter cfg b → ¬ IsLetter b ∧ ¬ IsDigit b ∧ b ≠ 46)
    (hw : ∀ w ∈ U ++ K ++ N, plainWord w = true) (ha : (∀ id ∈ U, id ∉ K ∧ id ∉ N) ∧ ∀ id ∈ K, id ∉ N)
    (he : ∀ id ∈ U, ¬ (id.head? = some 101 ∨ id.head? = some 69)) : OrderlyWords cfg U K N := by
  have hp : ∀ w ∈ U ++ K ++ N, w ≠ [] ∧ (∀ b ∈ w, IsLetter b) ∧ (w.map lower).take 3 ≠ b! "inf" ∧ w.map lower ≠ b! "ago" := by
    intro w h
    have := hw w h
    unfold plainWord at this
    simp only [Bool.and_eq_true, Bool.not_eq_true', List.isEmpty_eq_false_iff, List.all_eq_true, decide_eq_true_eq,
      beq_eq_false_iff_ne, ne_eq] at this
    exact ⟨this.1.1.1, this.1.1.2, this.1.2, this.2⟩
  refine ⟨hd, fun w h => (hp w h).1, fun w h b hb => ⟨fun h' => (hd b h').1 ((hp w h).2.1 b hb),
    (letter_facts b ((hp w h).2.1 b hb)).1⟩, fun w h => ?_, fun w h => ?_, fun w h => ?_, ha, fun w h => ?_⟩
  · rintro ⟨b, l, h1, h2⟩
    exact (letter_facts b ((hp w h).2.1 b (by rw [h1]; simp))).2 h2
  · rintro ⟨r, x, h1, h2⟩
    apply (hp w h).2.2.1
    unfold SameText at h2
    have hl : (x.map lower).length = 3 := by rw [h2]; rfl
    rw [h1, List.map_append, List.take_append_of_le_length (by omega), List.take_of_length_le (by omega), h2]
    decide
  · intro h1
    apply (hp w h).2.2.2
    unfold SameText at h1
    rw [h1]
    decide
  · rintro ⟨b, l, h1, h2⟩
    apply he w h
    rw [h1]
    rcases h2 with rfl | rfl
    · exact Or.inl rfl
    · exact Or.inr rfl

/-- the keywords of the fuzz target (parse_single.rs:60-73) -/
def fuzzKeywords : List TimeKeyword :=
  [⟨⟨.day, ⟨-1, 0⟩, [b! "yesterday"]⟩⟩, ⟨⟨.day, ⟨1, 0⟩, [b! "tomorrow"]⟩⟩, ⟨⟨.second, ⟨0, 0⟩, [b! "today"]⟩⟩]

/-- the calls with which the fuzz target makes its parser (parse_single.rs:125-141) -/
def fuzzCalls (negative infinity fraction exponent optional sign unit ago : Bool) : List SetterCall :=
  [.allowNegative negative, .disableInfinity infinity, .disableFraction fraction, .disableExponent exponent,
    .numberIsOptional optional, .allowSignDelimiter sign, .allowTimeUnitDelimiter unit, .allowAgo ago,
    .setInnerDelimiter isPosixSpace, .setOuterDelimiter isPosixSpace]

theorem posix_space (b : UInt8) (h : isPosixSpace b = true) : ¬ IsLetter b ∧ ¬ IsDigit b ∧ b ≠ 46 := by
  have key : ∀ n < 256, isPosixSpace (UInt8.ofNat n) = true →
      ¬ IsLetter (UInt8.ofNat n) ∧ ¬ IsDigit (UInt8.ofNat n) ∧ UInt8.ofNat n ≠ 46 := by decide +kernel
  have := key b.toNat b.toNat_lt
  rw [UInt8.ofNat_toNat] at this
  exact this h

theorem posix_ascii : AsciiDelimiter isPosixSpace := by
  intro b h
  have key : ∀ n < 256, isPosixSpace (UInt8.ofNat n) = true → (UInt8.ofNat n).toNat < 128 := by decide +kernel
  have := key b.toNat b.toNat_lt
  rw [UInt8.ofNat_toNat] at this
  exact this h

/-- C79: the fuzz target of the project: whatever its settings, its choice of keywords and its input are, an accepted input
matches the regular expression, and an input which matches is accepted, negative or has a huge exponent. -/
theorem C79_fuzz_target (negative infinity fraction exponent optional sign unit ago : Bool) (keywords : List TimeKeyword)
    (hk : ∀ k ∈ keywords, k ∈ fuzzKeywords) (s : Bytes) (hs : IsText s) (p : CustomDurationParser)
    (hp : p = (((fuzzCalls negative infinity fraction exponent optional sign unit ago).foldl callCustomParser
      (CustomDurationParser.withTimeUnits DEFAULT_TIME_UNITS)).addKeywords keywords)) (r : Regex)
    (hr : r = durationRegex p.config [b! "ns", b! "Ms", b! "ms", b! "s", b! "m", b! "h", b! "d", b! "w"]
      (keywords.flatMap (·.timeUnit.identifiers)) []) :
    ((∃ d, p.parse s = .ok d) → r.Matches s) ∧
    (r.Matches s → (∃ d, p.parse s = .ok d) ∨ (negative = false ∧ ago = false ∧ p.parse s = fail .negativeNumber) ∨
      (exponent = false ∧ HugeExponent s ∧
        (p.parse s = fail .negativeExponentOverflow ∨ p.parse s = fail .positiveExponentOverflow))) := by
  have hcalls := C35_custom_setters (CustomDurationParser.withTimeUnits DEFAULT_TIME_UNITS)
    (fuzzCalls negative infinity fraction exponent optional sign unit ago)
  generalize hq : (fuzzCalls negative infinity fraction exponent optional sign unit ago).foldl callCustomParser
      (CustomDurationParser.withTimeUnits DEFAULT_TIME_UNITS) = q at hp hcalls
  have hadd : ∀ (l : List TimeKeyword) (q : CustomDurationParser), (q.addKeywords l).timeUnits = q.timeUnits ∧
      (q.addKeywords l).numerals = q.numerals ∧ (q.addKeywords l).config = q.config ∧
      (q.addKeywords l).keywords = (l.map (·.timeUnit)).foldl CustomTimeUnits.addCustomTimeUnit q.keywords := by
    intro l
    induction l with
    | nil => intro q; exact ⟨rfl, rfl, rfl, rfl⟩
    | cons k l ih =>
      intro q
      obtain ⟨a1, a2, a3, a4⟩ := ih (q.keyword k)
      exact ⟨a1, a2, a3, a4⟩
  obtain ⟨a1, a2, a3, a4⟩ := hadd keywords q
  rw [← hp] at a1 a2 a3 a4
  have h1 : p.timeUnits = CustomTimeUnits.withTimeUnits DEFAULT_TIME_UNITS := by rw [a1, hcalls.2.1]; rfl
  have h2 : p.keywords = CustomTimeUnits.withTimeUnits (keywords.map (·.timeUnit)) := by rw [a4, hcalls.2.2.1]; rfl
  have h3 : p.numerals = [] := by rw [a2, hcalls.2.2.2]; rfl
  have hin : p.config.innerDelimiter = isPosixSpace := by
    rw [a3, hcalls.1.innerDelimiter]; rfl
  have hout : p.config.outerDelimiter = isPosixSpace := by
    rw [a3, hcalls.1.outerDelimiter]; rfl
  have hcj : p.config.conjunctions = none := by
    rw [a3, hcalls.1.conjunctions]; rfl
  have hm : p.config.allowMultiple = false := by
    rw [a3, hcalls.1.allowMultiple]; rfl
  have hneg : p.config.allowNegative = false → negative = false ∧ ago = false := by
    rw [a3, hcalls.1.allowNegative]
    cases ago
    · intro h; exact ⟨h, rfl⟩
    · intro h; cases h
  have hexp : p.config.disableExponent = exponent := by
    rw [a3, hcalls.1.disableExponent]; rfl
  have hc : CfgText p.config := by
    refine ⟨?_, ?_, ?_⟩
    · rw [hin]; exact posix_ascii
    · rw [hout]; exact posix_ascii
    · intro ws h; rw [hcj] at h; cases h
  have hl := table_words p _ _ _ h1 h2 h3
  have hKw : ∀ w ∈ keywords.flatMap (·.timeUnit.identifiers), w ∈ [b! "yesterday", b! "tomorrow", b! "today"] := by
    intro w h
    obtain ⟨k, h4, h5⟩ := List.mem_flatMap.1 h
    have := hk k h4
    revert h5
    simp only [fuzzKeywords, List.mem_cons, List.not_mem_nil, or_false] at this
    rcases this with rfl | rfl | rfl <;> intro h5 <;> simp only [List.mem_cons, List.not_mem_nil, or_false] at h5 <;>
      rw [h5] <;> decide
  have hU : customWords DEFAULT_TIME_UNITS = [b! "ns", b! "Ms", b! "ms", b! "s", b! "m", b! "h", b! "d", b! "w"] := by decide
  have hK : customWords (keywords.map (·.timeUnit)) = keywords.flatMap (·.timeUnit.identifiers) := by
    unfold customWords
    rw [List.flatMap_map, List.filter_eq_self]
    intro w h
    have := hKw w h
    simp only [List.mem_cons, List.not_mem_nil, or_false] at this
    rcases this with rfl | rfl | rfl <;> rfl
  rw [hU, hK, show numeralWords [] = [] from rfl] at hl
  have hw : OrderlyWords p.config [b! "ns", b! "Ms", b! "ms", b! "s", b! "m", b! "h", b! "d", b! "w"]
      (keywords.flatMap (·.timeUnit.identifiers)) [] := by
    refine plain_words ?_ ?_ ?_ ?_
    · rintro b (h | h)
      · rw [hin] at h; exact posix_space b h
      · rw [hout] at h; exact posix_space b h
    · intro w h
      rw [List.append_nil] at h
      rcases List.mem_append.1 h with h | h
      · clear * - h
        revert w; decide
      · have := hKw w h
        clear * - this
        revert w; decide
    · refine ⟨fun w h => ⟨fun h' => ?_, fun h => by cases h⟩, fun w _ h => by cases h⟩
      have := hKw w h'
      clear * - h this
      revert w; decide
    · decide
  have hfit : TableFits p.timeUnits.like := by
    rw [h1]
    refine custom_fits ?_
    intro r h
    simp only [DEFAULT_TIME_UNITS, List.mem_cons, List.not_mem_nil, or_false] at h
    rcases h with rfl | rfl | rfl | rfl | rfl | rfl | rfl | rfl <;> exact Or.inr ⟨_, _, rfl⟩
  have hnp := C23_no_panic p.config _ (if !p.keywords.isEmpty then some p.keywords.like else none)
      (if !p.numerals.isEmpty then some (numeralsGet p.numerals) else none) s hs hc hfit (by
    intro k h
    by_cases he : (!p.keywords.isEmpty) = true
    · rw [if_pos he] at h
      cases h
      rw [h2]
      refine custom_fits ?_
      intro r h
      obtain ⟨k, h4, rfl⟩ := List.mem_map.1 h
      have := hk k h4
      simp only [fuzzKeywords, List.mem_cons, List.not_mem_nil, or_false] at this
      rcases this with rfl | rfl | rfl
      · exact Or.inl ⟨.day, [b! "yesterday"], some ⟨-1, 0⟩, by intro q h; cases h; decide, by decide +kernel⟩
      · exact Or.inl ⟨.day, [b! "tomorrow"], some ⟨1, 0⟩, by intro q h; cases h; decide, by decide +kernel⟩
      · exact Or.inl ⟨.second, [b! "today"], some ⟨0, 0⟩, by intro q h; cases h; decide, by decide +kernel⟩
    · rw [if_neg he] at h; cases h) (by
    intro n h
    rw [h3] at h
    cases h)
  rw [hr]
  refine ⟨fun h => C79_accepted_matches _ _ _ _ _ _ _ hl s hs hc hm (Or.inl h), fun h => ?_⟩
  rcases regex_outcome _ _ _ _ hl hw s hs hc hm hnp h with h | ⟨g1, g2⟩ | ⟨g1, g2, g3⟩
  · exact Or.inl h
  · exact Or.inr (Or.inl ⟨(hneg g1).1, (hneg g1).2, g2⟩)
  · exact Or.inr (Or.inr ⟨by rw [← hexp]; exact g1, g2, g3⟩)

/-- the fuzz target with the settings of the examples: everything is allowed but negative durations and `ago` -/
def fuzzExample : CustomDurationParser :=
  ((fuzzCalls false false false false true true true false).foldl callCustomParser
    (CustomDurationParser.withTimeUnits DEFAULT_TIME_UNITS)).addKeywords fuzzKeywords

/-- accepted, therefore matching -/
example : (durationRegex fuzzExample.config [b! "ns", b! "Ms", b! "ms", b! "s", b! "m", b! "h", b! "d", b! "w"]
    (fuzzKeywords.flatMap (·.timeUnit.identifiers)) []).Matches (b! "+ .5e-3 Ms") :=
  (C79_fuzz_target false false false false true true true false fuzzKeywords (fun _ h => h) _ (isText_ascii (by decide))
    fuzzExample rfl _ rfl).1 ⟨⟨false, ⟨0, 0⟩⟩, by decide +kernel⟩

/-- matching, therefore accepted, negative or with a huge exponent: all three happen -/
example : fuzzExample.parse (b! "today") = .ok ⟨false, ⟨0, 0⟩⟩ ∧ fuzzExample.parse (b! "- 1d") = fail .negativeNumber ∧
    fuzzExample.parse (b! "1e32768w") = fail .positiveExponentOverflow ∧
    fuzzExample.parse (b! "1e-32769") = fail .negativeExponentOverflow := by decide +kernel

/-- texts about which the fuzz target would raise a false alarm: with the delimiter of signs allowed it does not expect the
sign to be followed by delimiters when it makes an exception for the negative keyword -/
example : fuzzExample.parse (b! "- yesterday") = .ok ⟨false, ⟨86400, 0⟩⟩ ∧
    fuzzExample.parse (b! "+ yesterday") = fail .negativeNumber := by decide +kernel

/-- the custom parser of `exampleCalls` and its words -/
example : OrderlyWords (exampleCalls.foldl callCustomSetter CustomDurationParser.new).config
      (customWords (exampleCalls.flatMap CustomCall.units))
      (customWords ((exampleCalls.flatMap CustomCall.keywordUnits).map (·.timeUnit)))
      (numeralWords (exampleCalls.flatMap CustomCall.numeralList)) ∧
    customWords (exampleCalls.flatMap CustomCall.units) = [b! "century", b! "s"] ∧
    customWords ((exampleCalls.flatMap CustomCall.keywordUnits).map (·.timeUnit)) = [b! "yesterday"] ∧
    numeralWords (exampleCalls.flatMap CustomCall.numeralList) = [b! "two"] :=
  ⟨plain_words (whitespace_delimiters _ rfl rfl) (by decide) (by decide) (by decide), by decide, by decide, by decide⟩

/-- the hypotheses of `C79_standard` are met by the default parser -/
example : (durationRegex (DurationParser.withTimeUnits [.week, .second]).config (unitWords [.week, .second]) [] []).Matches
    (b! "-1.5e2w") :=
  (C79_standard [.week, .second] [] _ (isText_ascii (by decide)) _ rfl defaultConfig_text rfl (whitespace_delimiters _ rfl rfl)).1
    (Or.inr (by decide +kernel))

/-- a time unit which starts with `e` is the reason for the last condition on the words: `1eon` is the number `1` and the
unit `eon`, but it is rejected -/
example : parse {} ⟨false, fun id => if id = b! "eon" then some (.second, ⟨1, 0⟩) else none⟩ none none (b! "1eon") =
    fail (.«syntax» 2 .exponentWithoutDigit) := by decide +kernel

end Fundu.Props
