import Verif.Proofs.Sentences
import Verif.Props.Concat
/-!
# Property C78: durations as one writes them

The specification is `Verif/Spec/Sentences.lean`.
-/
namespace Fundu.Props
open Fundu Fundu.Spec

section
variable (cfg : Config) (units : TimeUnitsLike) (keywords : Option TimeUnitsLike) (numerals : Option NumbersLike)

/-- C78, any parser of several durations which can read the style: phrases are parsed to the sum of their amounts, from left to
right, which sticks to the representable range at each step. -/
theorem C78_phrases (f : Style) (hf : StyleOk cfg units keywords numerals f) (hc : CfgText cfg) (hm : cfg.allowMultiple = true)
    (s : Bytes) (hs : IsText s) (l : List (Bool × Int)) (h : Phrases f s l)
    (ha : cfg.allowNegative = true ∨ ∀ p ∈ l, p.1 = false) :
    ∃ d, parse cfg units keywords numerals s = .ok d ∧ d.WF ∧ nanos d = saturatingSum (l.map fun p => clamp (signedAmount p)) := by
  obtain ⟨items, h1, h2⟩ := phrases_durations hf h
  obtain ⟨ds, h3, h4⟩ := phrases_values h2 ha
  refine (C27_multiple cfg units keywords numerals s _ hs hc hm (Or.inl fun b hb => ?_)).2 ⟨ds, ⟨items, h1, h3⟩, by rw [h4]⟩
  exact (hf.format.outer b).1 ((hf.format.inner b).2 hb)

/-- C78: it is the exact sum if neither an amount nor a partial sum leaves the representable range. -/
theorem C78_exact (f : Style) (hf : StyleOk cfg units keywords numerals f) (hc : CfgText cfg) (hm : cfg.allowMultiple = true)
    (s : Bytes) (hs : IsText s) (l : List (Bool × Int)) (h : Phrases f s l)
    (ha : cfg.allowNegative = true ∨ ∀ p ∈ l, p.1 = false)
    (hr : ∀ p ∈ l, Representable (signedAmount p)) (hp : ∀ k, k ≤ l.length → Representable ((l.map signedAmount).take k).sum) :
    ∃ d, parse cfg units keywords numerals s = .ok d ∧ d.WF ∧ nanos d = (l.map signedAmount).sum := by
  obtain ⟨d, h1, h2, h3⟩ := C78_phrases cfg units keywords numerals f hf hc hm s hs l h ha
  refine ⟨d, h1, h2, ?_⟩
  have e : (l.map fun p => clamp (signedAmount p)) = l.map signedAmount := by
    refine List.map_congr_left fun p hp => ?_
    have := hr p hp
    unfold Representable at this
    unfold clamp
    omega
  rw [h3, e]
  unfold saturatingSum
  rw [foldl_exact, Int.zero_add]
  intro k hk
  rw [Int.zero_add]
  exact hp k (by simpa using hk)

end

/-! ## DurationParser -/

/-- the way of writing durations for a `DurationParser` with the time units `us`: their documented identifiers, its delimiters
as white space, and what its options allow. `len` is the length of the default unit. -/
def standardStyle (us : List TimeUnit) (cfg : Config) (len : Nat) : Style where
  ids id n := ∃ u ∈ us, (u, id, n) ∈ documentedUnits
  space b := cfg.outerDelimiter b = true
  gaps := cfg.allowTimeUnitDelimiter = true
  bare := cfg.numberIsOptional = true
  fractions := cfg.disableFraction = false
  signGaps := cfg.allowSignDelimiter = true
  ago := cfg.allowAgo = true
  words := cfg.conjunctions.getD []
  defaultLength := len
  keywords _ _ := False
  numerals _ _ := False
  infinite := cfg.disableInfinity = false

theorem posixSpace_facts {b : UInt8} (h : PosixSpace b) : ¬ NextDuration b ∧ b ≠ 46 ∧ b ≠ 101 ∧ b ≠ 69 ∧ ¬ IsLetter b := by
  unfold NextDuration IsLetter
  rcases h with rfl | rfl | rfl | rfl | rfl | rfl <;> decide

theorem documented_letters {u : TimeUnit} {id : Bytes} {len : Nat} (h : (u, id, len) ∈ documentedUnits) :
    id ≠ [] ∧ (∀ b ∈ id, ¬ PosixSpace b ∧ ¬ NextDuration b) ∧
    ∀ b, id.head? = some b → b ≠ 46 ∧ b ≠ 101 ∧ b ≠ 69 ∧ lower b ≠ 105 ∧ lower b ≠ 97 := by
  have : ∀ p ∈ documentedUnits, p.2.1 ≠ [] ∧
      (∀ b ∈ p.2.1, ¬ PosixSpace b ∧ ¬ (IsDigit b ∨ b = 43 ∨ b = 45)) ∧
      ∀ b ∈ p.2.1.head?, b ≠ 46 ∧ b ≠ 101 ∧ b ≠ 69 ∧ lower b ≠ 105 ∧ lower b ≠ 97 := by decide +kernel
  exact this _ h

theorem standardStyle_ok (us : List TimeUnit) (hne : us ≠ []) (cfg : Config) (did : Bytes) (len : Nat)
    (hdef : (cfg.defaultUnit, did, len) ∈ documentedUnits)
    (hsame : ∀ b, cfg.innerDelimiter b = cfg.outerDelimiter b) (hspace : ∀ b, cfg.outerDelimiter b = true → PosixSpace b)
    (hw : Conjunctions (standardStyle us cfg len)) :
    StyleOk cfg (DurationParser.withTimeUnits us).timeUnits.like none none (standardStyle us cfg len) where
  format := {
    inner := fun b => by rw [hsame]; exact Iff.rfl
    outer := fun _ => Iff.rfl
    spaces := fun b h => by
      obtain ⟨h1, h2, h3, h4, -⟩ := posixSpace_facts (hspace b h)
      exact ⟨h1, h2, h3, h4⟩
    gaps := id
    bare := id
    fraction := id
    nonempty := by
      cases he : (DurationParser.withTimeUnits us).timeUnits.like.isEmpty with
      | false => rfl
      | true => exact absurd ((C34_is_empty us).1 he) hne
    ids := by
      rintro id n ⟨u, hu, h⟩
      refine ⟨u, ⟨1, 0⟩, (C34_get us id _).2 ⟨u, hu, (documented_id h).2.2.1, rfl⟩, ?_, documented_length h⟩
      cases u <;> decide
    idText := by
      rintro id n ⟨u, hu, h⟩
      obtain ⟨h1, h2, h3⟩ := documented_letters h
      exact ⟨h1, fun b hb => ⟨fun hs => (h2 b hb).1 (hspace b hs), (h2 b hb).2⟩, h3⟩
    keywords := by intro _ k h; cases h }
  letters b h := (posixSpace_facts (hspace b h)).2.2.2.2
  signGaps := id
  ago := Iff.rfl
  words := rfl
  conjunctions := hw
  default := by
    have := documented_length hdef
    have e : product cfg.defaultUnit.multiplier ⟨1, 0⟩ = cfg.defaultUnit.multiplier := by simp [product]
    rwa [e] at this
  infinite := Iff.rfl
  keyword := fun _ _ h => h.elim
  numeral := fun _ _ h => h.elim
  products := fun _ _ h => h.elim

/-- C78, DurationParser: let a `DurationParser` have any time units and any settings for which several durations are allowed,
and the two kinds of delimiters are the same white space characters. Then phrases - a sign, a number with a
unit, a unit alone, `ago`, white space, conjunctions, each if the setting allows it - are parsed to the sum of what they
say. -/
theorem C78_standard (us : List TimeUnit) (hne : us ≠ []) (calls : List SetterCall) (cfg : Config)
    (hcfg : cfg = (calls.foldl callStandardParser (DurationParser.withTimeUnits us)).config) (hc : CfgText cfg)
    (hm : cfg.allowMultiple = true) (did : Bytes) (len : Nat) (hdef : (cfg.defaultUnit, did, len) ∈ documentedUnits)
    (hsame : ∀ b, cfg.innerDelimiter b = cfg.outerDelimiter b) (hspace : ∀ b, cfg.outerDelimiter b = true → PosixSpace b)
    (hw : Conjunctions (standardStyle us cfg len))
    (s : Bytes) (hs : IsText s) (l : List (Bool × Int)) (h : Phrases (standardStyle us cfg len) s l)
    (ha : cfg.allowNegative = true ∨ ∀ p ∈ l, p.1 = false) :
    ∃ d, (calls.foldl callStandardParser (DurationParser.withTimeUnits us)).parse s = .ok d ∧ d.WF ∧
      nanos d = saturatingSum (l.map fun p => clamp (signedAmount p)) := by
  have ht := (C35_standard_setters (DurationParser.withTimeUnits us) calls).2
  generalize calls.foldl callStandardParser (DurationParser.withTimeUnits us) = p at hcfg ht
  subst hcfg
  have hok := standardStyle_ok us hne p.config did len hdef hsame hspace hw
  rw [← ht] at hok
  exact C78_phrases p.config p.timeUnits.like none none _ hok hc hm s hs l h ha

/-- the calls of the example: several durations with `and` and `plus`, `ago`, white space after numbers and signs, units alone -/
def phraseCalls : List SetterCall :=
  [.parseMultiple true (some [b! "and", b! "plus"]), .allowAgo true, .allowTimeUnitDelimiter true, .allowSignDelimiter true,
    .numberIsOptional true]

def phraseConfig : Config := (phraseCalls.foldl callStandardParser (DurationParser.withTimeUnits [.minute, .hour, .day])).config

def phraseStyle : Style := standardStyle [.minute, .hour, .day] phraseConfig 1000000000

theorem phraseStyle_words : Conjunctions phraseStyle where
  letters := by
    have : ∀ w ∈ [b! "and", b! "plus"], w ≠ [] ∧ ∀ b ∈ w, ¬ isAsciiWhitespace b = true ∧ ¬ (IsDigit b ∨ b = 43 ∨ b = 45) := by
      decide +kernel
    exact this
  distinct := by
    intro w hw v hv x y e hx
    replace hw : w ∈ [b! "and", b! "plus"] := hw
    replace hv : v ∈ [b! "and", b! "plus"] := hv
    have hl := sameText_length hx
    have hx' : x = v.take w.length := by rw [e, hl, List.take_left' rfl]
    have : ∀ w ∈ [b! "and", b! "plus"], ∀ v ∈ [b! "and", b! "plus"], SameText w (v.take w.length) → v.length ≤ w.length := by
      decide +kernel
    have := this w hw v hv (hx' ▸ hx)
    rw [e, List.length_append] at this
    exact List.eq_nil_of_length_eq_zero (by omega)
  notAgo := by
    intro _
    have : ∀ w ∈ [b! "and", b! "plus"], ¬ SameText w (b! "ago") := by decide +kernel
    exact this
  notUnit := by
    rintro - w hw id n ⟨u, hu, h⟩ ⟨r, x, e, hx⟩
    replace hw : w ∈ [b! "and", b! "plus"] := hw
    have : ∀ w ∈ [b! "and", b! "plus"], ∀ p ∈ documentedUnits, ¬ SameText (p.2.1.take w.length) w := by decide +kernel
    refine this w hw _ h ?_
    show SameText (id.take w.length) w
    rwa [e, List.take_left' (sameText_length hx)]
  notKeyword := fun _ _ _ _ h => h.elim
  notNumeral := fun _ _ _ _ h => h.elim
  notInfinity := by
    rintro - w hw ⟨r, x, e, hx⟩
    replace hw : w ∈ [b! "and", b! "plus"] := hw
    have : ∀ w ∈ [b! "and", b! "plus"], ¬ SameText ((b! "infinity").take w.length) w := by decide +kernel
    refine this w hw ?_
    rwa [e, List.take_left' (sameText_length hx)]

/-- `1 h AND - 2.5m ago plus d -30` : one hour, plus 2.5 minutes, plus a day, minus 30 seconds -/
theorem phraseExample : Phrases phraseStyle (b! "1 h AND - 2.5m ago plus d -30")
    [(false, 3600000000000), (false, 150000000000), (false, 86400000000000), (true, 30000000000)] := by
  have gap : phraseStyle.Gap (b! " ") := by
    intro b hb
    rw [List.mem_singleton] at hb
    rw [hb]; rfl
  have hg : phraseStyle.gaps := rfl
  have hh : phraseStyle.ids (b! "h") 3600000000000 := ⟨.hour, by decide, by decide⟩
  have hmin : phraseStyle.ids (b! "m") 60000000000 := ⟨.minute, by decide, by decide⟩
  have hday : phraseStyle.ids (b! "d") 86400000000000 := ⟨.day, by decide, by decide⟩
  have a1 : Amount phraseStyle (b! "1 h") false 3600000000000 := by
    have := Amount.plain (SpanText.number (f := phraseStyle.toSpanFormat) (W := b! "1") (gap := b! " ") (by decide) (by decide) gap
      (Or.inr hg) hh)
    exact this
  have a2 : Amount phraseStyle (b! "2.5m ago") true 150000000000 := by
    have := Amount.ago (f := phraseStyle) (gap := b! " ") (a := b! "ago") rfl (SpanText.fraction (f := phraseStyle.toSpanFormat) (W := b! "2")
      (F := b! "5") (gap := []) (by decide) (by decide) (by decide) (by decide) rfl (by simp) (Or.inl rfl) hmin) gap (by decide) rfl
    have e : ⌊((decimal (b! "2") : ℚ) + (decimal (b! "5") : ℚ) / 10 ^ (b! "5").length) * (60000000000 : Nat)⌋ = 150000000000 := by
      rw [show decimal (b! "2") = 2 by decide, show decimal (b! "5") = 5 by decide, Int.floor_eq_iff]
      norm_num
    rw [e] at this
    exact this
  have a3 : Amount phraseStyle (b! "d") false 86400000000000 := .plain (.unit rfl hday)
  have a4 : PlainNumber phraseStyle (b! "30") 30000000000 := by
    have := PlainNumber.whole (f := phraseStyle) (W := b! "30") (by decide) (by decide)
    exact this
  exact .more (sign := []) (t := b! "1 h") (joint := b! " AND ") (rest := b! "- 2.5m ago plus d -30") .absent a1
    (.word (gap := b! " ") (w := b! "and") (x := b! "AND") (gap' := b! " ") gap (by decide) (List.mem_cons_self ..) (by decide) gap
      (Or.inl (by decide)))
    (.more (sign := b! "- ") (t := b! "2.5m ago") (joint := b! " plus ") (rest := b! "d -30") (.minus gap (Or.inr rfl)) a2
      (.word (gap := b! " ") (w := b! "plus") (x := b! "plus") (gap' := b! " ") gap (by decide) (List.mem_cons_of_mem _ (List.mem_cons_self ..)) (by decide) gap
        (Or.inl (by decide)))
      (.more (sign := []) (t := b! "d") (joint := b! " ") (rest := b! "-30") .absent a3 (.gap gap (Or.inl (by decide)))
        (.lastNumber (sign := b! "-") (t := b! "30") (.minus (gap := []) (by intro b hb; cases hb) (Or.inl rfl)) a4)))

theorem phraseConfig_text : CfgText phraseConfig :=
  ⟨defaultConfig_text.inner, defaultConfig_text.outer, by
    intro ws h
    cases h
    intro w hw
    refine isText_ascii fun b hb => ?_
    have : ∀ w ∈ [b! "and", b! "plus"], ∀ b ∈ w, b.toNat < 128 := by decide
    exact this w hw b hb⟩

theorem whitespace_posix {b : UInt8} (h : isAsciiWhitespace b = true) : PosixSpace b := by
  unfold isAsciiWhitespace at h
  unfold PosixSpace
  simp only [Bool.or_eq_true, decide_eq_true_eq] at h
  tauto

example : ∃ d, (phraseCalls.foldl callStandardParser (DurationParser.withTimeUnits [.minute, .hour, .day])).parse
    (b! "1 h AND - 2.5m ago plus d -30") = .ok d ∧ nanos d = 90120000000000 := by
  obtain ⟨d, h1, -, h2⟩ := C78_standard [.minute, .hour, .day] (by decide) phraseCalls phraseConfig rfl phraseConfig_text rfl (b! "s")
    1000000000 (by decide) (fun _ => rfl) (fun b h => whitespace_posix h) phraseStyle_words _ (isText_ascii (by decide)) _ phraseExample
    (Or.inl rfl)
  exact ⟨d, h1, by rw [h2]; decide⟩

/-- the same by evaluation -/
example : (phraseCalls.foldl callStandardParser (DurationParser.withTimeUnits [.minute, .hour, .day])).parse
    (b! "1 h AND - 2.5m ago plus d -30") = .ok ⟨false, ⟨90120, 0⟩⟩ := by decide +kernel

/-- C78: why a conjunction does not follow a number without a unit in the phrases: if delimiters between number and unit are
allowed, these are skipped in front of the conjunction, which is not recognised then (finding F7). -/
theorem C78_conjunction_after_plain_number :
    (phraseCalls.foldl callStandardParser (DurationParser.withTimeUnits [.minute])).parse (b! "1m and 2") = .ok ⟨false, ⟨62, 0⟩⟩ ∧
    (phraseCalls.foldl callStandardParser (DurationParser.withTimeUnits [.minute])).parse (b! "1 and 2") =
      fail (.invalidInput (.text (b! "and 2"))) ∧
    (DurationParser.withTimeUnits [.minute] |>.parseMultiple true (some [b! "and"])).parse (b! "1 and 2") = .ok ⟨false, ⟨3, 0⟩⟩ := by
  refine ⟨by decide +kernel, by decide +kernel, by decide +kernel⟩

end Fundu.Props
