import Verif.Spec.Vocabulary
import Verif.Props.Sentences
import Verif.Props.Standard
/-!
# Property C78 for `CustomDurationParser`: phrases with custom time units, keywords, numerals and infinity

The specification is `Verif/Spec/Sentences.lean` and `Verif/Spec/Vocabulary.lean`.
-/
namespace Fundu.Props
open Fundu Fundu.Spec

theorem documented_base {u : TimeUnit} {did : Bytes} {n : Nat} (h : (u, did, n) ∈ documentedUnits) :
    -18 ≤ u.multiplier.exponent ∧ u.multiplier.exponent ≤ 19 ∧ (u.multiplier.exponent ≠ 0 → n < 1000000000) := by
  simp only [documentedUnits, List.mem_cons, List.not_mem_nil, or_false, Prod.mk.injEq] at h
  rcases h with ⟨rfl, -, rfl⟩ | ⟨rfl, -, rfl⟩ | ⟨rfl, -, rfl⟩ | ⟨rfl, -, rfl⟩ | ⟨rfl, -, rfl⟩ | ⟨rfl, -, rfl⟩ | ⟨rfl, -, rfl⟩ |
    ⟨rfl, -, rfl⟩ | ⟨rfl, -, rfl⟩ | ⟨rfl, -, rfl⟩ <;> decide

theorem timesUnit_word {r : CustomTimeUnit} {q x : Int} (h : TimesUnit r q x) :
    WordLength (product r.baseUnit.multiplier r.multiplier) x := by
  obtain ⟨hm, did, n, hd, rfl⟩ := h
  obtain ⟨-, -, h3⟩ := documented_multiplier hd
  obtain ⟨h4, h5, -⟩ := documented_base hd
  rw [hm]
  refine ⟨by simpa [product] using h4, by simpa [product] using h5, ?_⟩
  show ((r.baseUnit.multiplier.coefficient * q : Int) : ℚ) * 10 ^ (r.baseUnit.multiplier.exponent + 0) * 10 ^ 9 = _
  push_cast
  rw [← h3, add_zero]
  ring

theorem timesUnit_length {r : CustomTimeUnit} {q : Int} {len : Nat} (hq : 0 < q) (h : TimesUnit r q len)
    (hs : q = 1 ∨ 1000000000 * q ≤ len) : Length (product r.baseUnit.multiplier r.multiplier) len := by
  obtain ⟨h1, h2, h3⟩ := timesUnit_word h
  obtain ⟨hm, did, n, hd, hx⟩ := h
  obtain ⟨h4, h5, -⟩ := documented_multiplier hd
  obtain ⟨-, -, h6⟩ := documented_base hd
  rw [hm] at h1 h2 h3 ⊢
  refine ⟨Int.mul_pos h4 hq, ?_, h1, h2, by rw [mul_comm ((10 : ℚ) ^ _)]; exact_mod_cast h3⟩
  rcases hs with rfl | hs
  · rcases h5 with h5 | h5
    · left; show r.baseUnit.multiplier.exponent + 0 = 0; omega
    · right; show r.baseUnit.multiplier.coefficient * 1 = 1; omega
  · left
    show r.baseUnit.multiplier.exponent + 0 = 0
    by_contra hne
    have hn := h6 (by omega)
    have : q * (n : Int) < q * 1000000000 := Int.mul_lt_mul_of_pos_left (by omega) hq
    omega

theorem customStyle_ok (units : List CustomTimeUnit) (keywords : List TimeKeyword) (numerals : List Numeral) (cfg : Config)
    (did : Bytes) (len : Nat) (hdef : (cfg.defaultUnit, did, len) ∈ documentedUnits)
    (hsame : ∀ b, cfg.innerDelimiter b = cfg.outerDelimiter b) (hspace : ∀ b, cfg.outerDelimiter b = true → PosixSpace b)
    (hu : ∃ r ∈ units, r.identifiers ≠ []) (hcu : ∀ r ∈ units, Constructed r) (hck : ∀ k ∈ keywords, Constructed k.timeUnit)
    (hcn : ∀ n ∈ numerals, ∀ r ∈ units, Fits n.multiplier r.baseUnit.multiplier ∧
      Fits (product n.multiplier r.baseUnit.multiplier) r.multiplier ∧
      Fits (product n.multiplier r.baseUnit.multiplier) ⟨-r.multiplier.coefficient, r.multiplier.exponent⟩)
    (hv : Vocabulary units keywords numerals (customStyle units keywords numerals cfg len))
    (hw : Conjunctions (customStyle units keywords numerals cfg len)) :
    StyleOk cfg (CustomTimeUnits.withTimeUnits units).like
      (if !(CustomTimeUnits.withKeywords keywords).isEmpty then some (CustomTimeUnits.withKeywords keywords).like else none)
      (if !numerals.isEmpty then some (numeralsGet numerals) else none) (customStyle units keywords numerals cfg len) := by
  have hkget : ∀ k ∈ keywords, ∀ w ∈ k.timeUnit.identifiers, (CustomTimeUnits.withKeywords keywords).like.get w =
      some (k.timeUnit.baseUnit, k.timeUnit.multiplier) := by
    intro k hk w hw
    rw [C36_keywords]
    refine C36_unique _ w k.timeUnit (List.mem_map_of_mem hk) hw (hv.keywordText k hk w hw).ne ?_
    intro r' hr' h'
    obtain ⟨k', hk', rfl⟩ := List.mem_map.1 hr'
    exact hv.keywordOnce k hk k' hk' w hw h'
  have hknone : ∀ w, (∀ k ∈ keywords, w ∉ k.timeUnit.identifiers) → (CustomTimeUnits.withKeywords keywords).like.get w = none := by
    intro w h
    cases he : (CustomTimeUnits.withKeywords keywords).like.get w with
    | none => rfl
    | some p =>
      rw [C36_keywords] at he
      obtain ⟨-, r, hr, h'⟩ := (C36_resolves _ w).1 ⟨p, he⟩
      obtain ⟨k, hk, rfl⟩ := List.mem_map.1 hr
      exact absurd h' (h k hk)
  have hkey : ∀ k', (if !(CustomTimeUnits.withKeywords keywords).isEmpty then some (CustomTimeUnits.withKeywords keywords).like
      else none) = some k' → k' = (CustomTimeUnits.withKeywords keywords).like := by
    intro k' h
    by_cases he : (!(CustomTimeUnits.withKeywords keywords).isEmpty) = true
    · rw [if_pos he] at h; cases h; rfl
    · rw [if_neg he] at h; cases h
  have huget : ∀ r ∈ units, ∀ id ∈ r.identifiers, (CustomTimeUnits.withTimeUnits units).like.get id =
      some (r.baseUnit, r.multiplier) := by
    intro r hr id hid
    exact C36_unique _ id r hr hid (hv.unitText r hr id hid).1 fun r' hr' h' => hv.unitOnce r hr r' hr' id hid h'
  exact {
    format := {
      inner := fun b => by rw [hsame]; exact Iff.rfl
      outer := fun _ => Iff.rfl
      spaces := fun b h => by
        obtain ⟨h1, h2, h3, h4, -⟩ := posixSpace_facts (hspace b h)
        exact ⟨h1, h2, h3, h4⟩
      gaps := id
      bare := id
      fraction := id
      nonempty := by
        cases he : (CustomTimeUnits.withTimeUnits units).like.isEmpty with
        | false => rfl
        | true =>
          exfalso
          obtain ⟨r, hr, h⟩ := hu
          obtain ⟨id, hid⟩ := List.exists_mem_of_ne_nil _ h
          exact (hv.unitText r hr id hid).1 ((C36_is_empty units).1 he r hr id hid)
      ids := by
        rintro id n ⟨r, hr, hid, q, hq, ht, hs⟩
        exact ⟨r.baseUnit, r.multiplier, huget r hr id hid, (constructed_fits (hcu r hr)).2.2, timesUnit_length hq ht hs⟩
      idText := by
        rintro id n ⟨r, hr, hid, -⟩
        exact hv.unitText r hr id hid
      keywords := by
        rintro hb k' hk' id n ⟨r, hr, hid, -⟩
        rw [hkey k' hk']
        exact hknone id fun k hk h => hv.keywordNotUnit hb k hk r hr id h hid }
    letters := fun b h => (posixSpace_facts (hspace b h)).2.2.2.2
    signGaps := id
    ago := Iff.rfl
    words := rfl
    conjunctions := hw
    default := by
      have := documented_length hdef
      have e : product cfg.defaultUnit.multiplier ⟨1, 0⟩ = cfg.defaultUnit.multiplier := by simp [product]
      rwa [e] at this
    infinite := Iff.rfl
    keyword := by
      rintro w x ⟨k, hk, hw, q, ht⟩
      refine ⟨hv.keywordText k hk w hw, (CustomTimeUnits.withKeywords keywords).like, k.timeUnit.baseUnit, k.timeUnit.multiplier, ?_,
        hkget k hk w hw, (constructed_fits (hck k hk)).2.2, timesUnit_word ht⟩
      rw [if_pos]
      cases he : (CustomTimeUnits.withKeywords keywords).isEmpty with
      | false => rfl
      | true =>
        exfalso
        replace he : (CustomTimeUnits.withKeywords keywords).like.isEmpty = true := he
        rw [C36_keywords, C36_is_empty] at he
        exact (hv.keywordText k hk w hw).ne (he k.timeUnit (List.mem_map_of_mem hk) w hw)
    numeral := by
      rintro w q ⟨n, hn, hw, hq⟩
      refine ⟨hv.numeralText n hn w hw, ?_, ?_, numeralsGet numerals, ?_, ?_⟩
      · intro k' hk'
        rw [hkey k' hk']
        exact hknone w fun k hk h => hv.keywordNotNumeral k hk n hn w h hw
      · intro hb
        cases he : (CustomTimeUnits.withTimeUnits units).like.get w with
        | none => rfl
        | some p =>
          obtain ⟨-, r, hr, h'⟩ := (C36_resolves _ w).1 ⟨p, he⟩
          exact absurd h' (hv.numeralNotUnit hb n hn r hr w hw)
      · cases numerals with
        | nil => cases hn
        | cons a l => rfl
      · cases he : numeralsGet numerals w with
        | none => exact absurd hw ((C37_none numerals w).1 he n hn)
        | some m =>
          obtain ⟨before, n', after, e, h1, h2, -⟩ := (C37_get numerals w m).1 he
          have := hv.numeralOnce n hn n' (by rw [e]; simp) w hw h1
          rw [← h2, this, hq]
    products := by
      rintro w q ⟨n, hn, hw, hq⟩ id len' ⟨r, hr, hid, q', hq', ht, -⟩ u m hg
      rw [huget r hr id hid] at hg
      cases hg
      obtain ⟨h1, h2, h3⟩ := hcn n hn r hr
      rw [hq] at h1 h2 h3
      refine ⟨h1, h2, ?_⟩
      have e : negated r.multiplier = ⟨-r.multiplier.coefficient, r.multiplier.exponent⟩ := by
        unfold negated
        rw [if_neg]
        rw [ht.1]
        show ¬ q' = -2 ^ 63
        omega
      rwa [e] }

/-- C78, CustomDurationParser: let a `CustomDurationParser` be made by any calls, so that several durations are allowed and the
two kinds of delimiters are the same white space characters. If its identifiers are words which cannot be mistaken for each
other, phrases - made of signs, numbers, time units, keywords, numerals, infinity, `ago`, white space and conjunctions, each
if the setting allows it - are parsed to the sum of what they say. -/
theorem C78_custom (calls : List CustomCall) (p : CustomDurationParser)
    (hp : p = calls.foldl callCustomSetter CustomDurationParser.new) (hc : CfgText p.config)
    (units : List CustomTimeUnit) (hunits : units = calls.flatMap CustomCall.units)
    (keywords : List TimeKeyword) (hkeywords : keywords = calls.flatMap CustomCall.keywordUnits)
    (numerals : List Numeral) (hnumerals : numerals = calls.flatMap CustomCall.numeralList)
    (hm : p.config.allowMultiple = true) (did : Bytes) (len : Nat) (hdef : (p.config.defaultUnit, did, len) ∈ documentedUnits)
    (hsame : ∀ b, p.config.innerDelimiter b = p.config.outerDelimiter b)
    (hspace : ∀ b, p.config.outerDelimiter b = true → PosixSpace b)
    (hu : ∃ r ∈ units, r.identifiers ≠ []) (hcu : ∀ r ∈ units, Constructed r) (hck : ∀ k ∈ keywords, Constructed k.timeUnit)
    (hcn : ∀ n ∈ numerals, ∀ r ∈ units, Fits n.multiplier r.baseUnit.multiplier ∧
      Fits (product n.multiplier r.baseUnit.multiplier) r.multiplier ∧
      Fits (product n.multiplier r.baseUnit.multiplier) ⟨-r.multiplier.coefficient, r.multiplier.exponent⟩)
    (hv : Vocabulary units keywords numerals (customStyle units keywords numerals p.config len))
    (hw : Conjunctions (customStyle units keywords numerals p.config len))
    (s : Bytes) (hs : IsText s) (l : List (Bool × Int)) (h : Phrases (customStyle units keywords numerals p.config len) s l)
    (ha : p.config.allowNegative = true ∨ ∀ q ∈ l, q.1 = false) :
    ∃ d, p.parse s = .ok d ∧ d.WF ∧ nanos d = saturatingSum (l.map fun q => clamp (signedAmount q)) := by
  have hok := customStyle_ok units keywords numerals p.config did len hdef hsame hspace hu hcu hck hcn hv hw
  obtain ⟨h1, h2, h3⟩ := C35_custom_tables calls
  rw [← hp, ← hunits] at h1
  rw [← hp, ← hkeywords] at h2
  rw [← hp, ← hnumerals] at h3
  rw [← h1, ← h2, ← h3] at hok
  have := C78_phrases p.config p.timeUnits.like _ _ _ hok hc hm s hs l (h3 ▸ h) ha
  exact this

/-! ### An example -/

def holidayUnits : List CustomTimeUnit :=
  [.withDefault .hour [b! "h", b! "hours"], .withDefault .day [b! "day", b! "days"], ⟨.week, ⟨2, 0⟩, [b! "fortnight"]⟩]

def holidayKeywords : List TimeKeyword := [⟨⟨.day, ⟨-1, 0⟩, [b! "yesterday"]⟩⟩]

def holidayNumerals : List Numeral := [⟨[b! "a", b! "one"], ⟨1, 0⟩⟩, ⟨[b! "last"], ⟨-1, 0⟩⟩]

def holidayCalls : List CustomCall :=
  [.timeUnits holidayUnits, .keywords holidayKeywords, .numerals holidayNumerals, .option .allowAgo,
    .option .allowTimeUnitDelimiter, .option (.parseMultiple (some [b! "and"]))]

def holidayParser : CustomDurationParser := holidayCalls.foldl callCustomSetter CustomDurationParser.new

def holidayStyle : Style := customStyle holidayUnits holidayKeywords holidayNumerals holidayParser.config 1000000000

theorem holiday_space {b : UInt8} (h : holidayStyle.space b) : PosixSpace b := whitespace_posix h

/-- the text does not start with the word, if its first letters are not the word -/
theorem no_word {w s : Bytes} (h : ¬ SameText (s.take w.length) w) : ¬ ∃ r, AfterWord w s r := by
  rintro ⟨r, x, e, hx⟩
  apply h
  rwa [e, List.take_left' (sameText_length hx)]

theorem holiday_word {w : Bytes} (h : w ≠ [] ∧ (∀ b ∈ w, ¬ PosixSpace b ∧ ¬ (IsDigit b ∨ b = 43 ∨ b = 45)) ∧ w.head? ≠ some 46 ∧
    ¬ SameText (w.take 3) (b! "inf") ∧ ¬ SameText w (b! "ago")) : PhraseWord holidayStyle w where
  ne := h.1
  letters b hb := ⟨fun hs => (h.2.1 b hb).1 (holiday_space hs), (h.2.1 b hb).2⟩
  point := by
    rintro ⟨b, l, rfl, hb⟩
    exact h.2.2.1 (by rw [List.head?_cons, hb])
  inf _ := no_word h.2.2.2.1
  ago _ := h.2.2.2.2

theorem holiday_vocabulary : Vocabulary holidayUnits holidayKeywords holidayNumerals holidayStyle where
  unitOnce := by decide +kernel
  keywordOnce := by decide +kernel
  numeralOnce := by decide +kernel
  unitText := by
    have : ∀ r ∈ holidayUnits, ∀ id ∈ r.identifiers, id ≠ [] ∧ (∀ b ∈ id, ¬ PosixSpace b ∧ ¬ (IsDigit b ∨ b = 43 ∨ b = 45)) ∧
        ∀ b ∈ id.head?, b ≠ 46 ∧ b ≠ 101 ∧ b ≠ 69 ∧ lower b ≠ 105 ∧ lower b ≠ 97 := by decide +kernel
    intro r hr id hid
    obtain ⟨h1, h2, h3⟩ := this r hr id hid
    exact ⟨h1, fun b hb => ⟨fun hs => (h2 b hb).1 (holiday_space hs), (h2 b hb).2⟩, h3⟩
  keywordText := by
    intro k hk w hw
    refine holiday_word ?_
    revert k w
    decide +kernel
  numeralText := by
    intro n hn w hw
    refine holiday_word ?_
    revert n w
    decide +kernel
  keywordNotUnit := by
    intro _
    decide +kernel
  keywordNotNumeral := by decide +kernel
  numeralNotUnit := by
    intro _
    decide +kernel

theorem holiday_conjunctions : Conjunctions holidayStyle where
  letters := by
    intro w hw
    obtain rfl : w = b! "and" := List.mem_singleton.1 hw
    have : ∀ b ∈ b! "and", ¬ PosixSpace b ∧ ¬ (IsDigit b ∨ b = 43 ∨ b = 45) := by decide +kernel
    exact ⟨by decide, fun b hb => ⟨fun hs => (this b hb).1 (holiday_space hs), (this b hb).2⟩⟩
  distinct := by
    intro w hw v hv x y e hx
    obtain rfl : w = b! "and" := List.mem_singleton.1 hw
    obtain rfl : v = b! "and" := List.mem_singleton.1 hv
    have hl := sameText_length hx
    have := congrArg List.length e
    rw [List.length_append] at this
    exact List.eq_nil_of_length_eq_zero (by omega)
  notAgo := by
    intro _ w hw
    obtain rfl : w = b! "and" := List.mem_singleton.1 hw
    decide
  notUnit := by
    intro h
    cases h
  notKeyword := by
    rintro w hw v x ⟨k, hk, hv, -⟩
    obtain rfl : w = b! "and" := List.mem_singleton.1 hw
    have : ∀ k ∈ holidayKeywords, ∀ v ∈ k.timeUnit.identifiers, ¬ SameText (v.take 3) (b! "and") := by decide +kernel
    exact no_word (this k hk v hv)
  notNumeral := by
    rintro w hw v x ⟨n, hn, hv, -⟩
    obtain rfl : w = b! "and" := List.mem_singleton.1 hw
    have : ∀ n ∈ holidayNumerals, ∀ v ∈ n.identifiers, ¬ SameText (v.take 3) (b! "and") := by decide +kernel
    exact no_word (this n hn v hv)
  notInfinity := by
    intro _ w hw
    obtain rfl : w = b! "and" := List.mem_singleton.1 hw
    exact no_word (by decide)

/-- `yesterday and last fortnight ago 1.5h a day`: minus one day, plus 14 days, plus 1.5 hours, plus one day -/
theorem holidayExample : Phrases holidayStyle (b! "yesterday and last fortnight ago 1.5h a day")
    [(true, 86400000000000), (false, 1209600000000000), (false, 5400000000000), (false, 86400000000000)] := by
  have gap : holidayStyle.Gap (b! " ") := by
    intro b hb
    rw [List.mem_singleton] at hb
    rw [hb]; rfl
  have hfort : holidayStyle.ids (b! "fortnight") 1209600000000000 :=
    ⟨⟨.week, ⟨2, 0⟩, [b! "fortnight"]⟩, by decide, by decide, 2, by decide, ⟨rfl, b! "w", 604800000000000, by decide, by decide⟩,
      Or.inr (by decide)⟩
  have hday : holidayStyle.ids (b! "day") 86400000000000 :=
    ⟨.withDefault .day [b! "day", b! "days"], by decide, by decide, 1, by decide, ⟨rfl, b! "d", 86400000000000, by decide, by decide⟩,
      Or.inl rfl⟩
  have hh : holidayStyle.ids (b! "h") 3600000000000 :=
    ⟨.withDefault .hour [b! "h", b! "hours"], by decide, by decide, 1, by decide, ⟨rfl, b! "h", 3600000000000, by decide, by decide⟩,
      Or.inl rfl⟩
  have a1 : Amount holidayStyle (b! "yesterday") true 86400000000000 := by
    have := Amount.keyword (f := holidayStyle) (w := b! "yesterday") (x := -86400000000000)
      ⟨⟨⟨.day, ⟨-1, 0⟩, [b! "yesterday"]⟩⟩, by decide, by decide, -1, rfl, b! "d", 86400000000000, by decide, by decide⟩
    exact this
  have a2 : Amount holidayStyle (b! "last fortnight ago") false 1209600000000000 := by
    have := Amount.numeralAgo (f := holidayStyle) (w := b! "last") (gap := b! " ") (id := b! "fortnight") (gap' := b! " ")
      (a := b! "ago") (q := -1) rfl ⟨⟨[b! "last"], ⟨-1, 0⟩⟩, by decide, by decide, rfl⟩ gap (by decide) hfort gap (by decide) rfl
    exact this
  have a3 : Amount holidayStyle (b! "1.5h") false 5400000000000 := by
    have := Amount.plain (SpanText.fraction (f := holidayStyle.toSpanFormat) (W := b! "1")
      (F := b! "5") (gap := []) (by decide) (by decide) (by decide) (by decide) rfl (by simp) (Or.inl rfl) hh)
    have e : ⌊((decimal (b! "1") : ℚ) + (decimal (b! "5") : ℚ) / 10 ^ (b! "5").length) * (3600000000000 : Nat)⌋ = 5400000000000 := by
      rw [show decimal (b! "1") = 1 by decide, show decimal (b! "5") = 5 by decide, Int.floor_eq_iff]
      norm_num
    rw [e] at this
    exact this
  have a4 : Amount holidayStyle (b! "a day") false 86400000000000 := by
    have := Amount.numeral (f := holidayStyle) (w := b! "a") (gap := b! " ") (id := b! "day") (q := 1)
      ⟨⟨[b! "a", b! "one"], ⟨1, 0⟩⟩, by decide, by decide, rfl⟩ gap (by decide) hday
    exact this
  exact .more (sign := []) (t := b! "yesterday") (joint := b! " and ") (rest := b! "last fortnight ago 1.5h a day") .absent a1
    (.word (gap := b! " ") (w := b! "and") (x := b! "and") (gap' := b! " ") gap (by decide) (List.mem_cons_self ..) (by decide) gap
      (Or.inl (by decide)))
    (.more (sign := []) (t := b! "last fortnight ago") (joint := b! " ") (rest := b! "1.5h a day") .absent a2
      (.gap gap (Or.inl (by decide)))
      (.more (sign := []) (t := b! "1.5h") (joint := b! " ") (rest := b! "a day") .absent a3 (.gap gap (Or.inl (by decide)))
        (.last (sign := []) .absent a4)))

theorem holidayConfig_text : CfgText holidayParser.config :=
  ⟨defaultConfig_text.inner, defaultConfig_text.outer, by
    intro ws h
    cases h
    intro w hw
    obtain rfl : w = b! "and" := List.mem_singleton.1 hw
    exact isText_ascii (by decide)⟩

example : ∃ d, holidayParser.parse (b! "yesterday and last fortnight ago 1.5h a day") = .ok d ∧ nanos d = 1215000000000000 := by
  obtain ⟨d, h1, -, h2⟩ := C78_custom holidayCalls holidayParser rfl holidayConfig_text holidayUnits rfl holidayKeywords rfl
    holidayNumerals rfl rfl (b! "s") 1000000000 (by decide) (fun _ => rfl) (fun b h => whitespace_posix h)
    ⟨.withDefault .hour [b! "h", b! "hours"], by decide, by decide⟩
    (by
      intro r hr
      simp only [holidayUnits, List.mem_cons, List.not_mem_nil, or_false] at hr
      rcases hr with rfl | rfl | rfl
      · exact Or.inr ⟨_, _, rfl⟩
      · exact Or.inr ⟨_, _, rfl⟩
      · exact Or.inl ⟨.week, [b! "fortnight"], some ⟨2, 0⟩, by intro q h; cases h; decide, by decide +kernel⟩)
    (by
      intro k hk
      simp only [holidayKeywords, List.mem_cons, List.not_mem_nil, or_false] at hk
      subst hk
      exact Or.inl ⟨.day, [b! "yesterday"], some ⟨-1, 0⟩, by intro q h; cases h; decide, by decide +kernel⟩)
    (by decide +kernel) holiday_vocabulary holiday_conjunctions _ (isText_ascii (by decide)) _ holidayExample (Or.inl rfl)
  exact ⟨d, h1, by rw [h2]; decide⟩

/-- the same by evaluation -/
example : holidayParser.parse (b! "yesterday and last fortnight ago 1.5h a day") = .ok ⟨false, ⟨1215000, 0⟩⟩ := by decide +kernel

/-- infinity in a sequence -/
example : Phrases holidayStyle (b! "-inf and a day") [(true, maxNanos), (false, 86400000000000)] := by
  have gap : holidayStyle.Gap (b! " ") := by
    intro b hb
    rw [List.mem_singleton] at hb
    rw [hb]; rfl
  have hday : holidayStyle.ids (b! "day") 86400000000000 :=
    ⟨.withDefault .day [b! "day", b! "days"], by decide, by decide, 1, by decide, ⟨rfl, b! "d", 86400000000000, by decide, by decide⟩,
      Or.inl rfl⟩
  have a4 : Amount holidayStyle (b! "a day") false 86400000000000 := by
    have := Amount.numeral (f := holidayStyle) (w := b! "a") (gap := b! " ") (id := b! "day") (q := 1)
      ⟨⟨[b! "a", b! "one"], ⟨1, 0⟩⟩, by decide, by decide, rfl⟩ gap (by decide) hday
    exact this
  exact .moreInfinity (sign := b! "-") (t := b! "inf") (joint := b! " and ") (rest := b! "a day")
    (.minus (gap := []) (by intro b hb; cases hb) (Or.inl rfl)) rfl (Or.inl rfl) (by decide)
    (.word (gap := b! " ") (w := b! "and") (x := b! "and") (gap' := b! " ") gap (by decide) (List.mem_cons_self ..) (by decide) gap
      (Or.inl (by decide))) (.last (sign := []) .absent a4)

end Fundu.Props
