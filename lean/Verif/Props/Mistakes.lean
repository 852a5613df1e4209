import Verif.Proofs.MistakesParse
import Verif.Props.Errors
/-!
# Property C71: the error for each text which is not accepted

The specification is `Verif/Spec/Mistakes.lean`.
-/
namespace Fundu.Props
open Fundu Fundu.Spec

variable (cfg : Config) (units : TimeUnitsLike) (keywords : Option TimeUnitsLike) (numerals : Option NumbersLike)

/-- C71: A parser of a single duration returns an error iff the text has a mistake, and the error is the one of this
mistake: its kind, its position and its reason. -/
theorem C71_single (s : Bytes) (e : ParseError) (hs : IsText s) (hc : CfgText cfg) (hm : cfg.allowMultiple = false) :
    parse cfg units keywords numerals s = fail e ↔ ∃ f, Mistake cfg units keywords numerals s f ∧ e = f.error s := by
  rw [C33_buffer_transparent cfg units keywords numerals s (Or.inr (Or.inr hm))]
  unfold parseUnbuffered parseWith
  simp only [hm, Bool.false_eq_true, if_false]
  let env : Env := ⟨cfg, units, keywords, numerals, fun d c => c.advanceTo d⟩
  have hI := (isText_iff s).mp hs
  have hf (f : Fault) := parseSingle_fails (env := env) (f := f) (cfgOk_of_text hc) rfl hI
  constructor
  · intro h
    have h : parseSingle env s = fail e := h
    rcases parseSingle_cases (env := env) (cfgOk_of_text hc) rfl hI with ⟨d, h1, -⟩ | ⟨f, h1⟩ | ⟨-, p, h1⟩
    · rw [h1] at h; cases h
    · have := hf f h1
      unfold Fails at this
      rw [h] at this
      exact ⟨f, h1, by injection this with h; injection h⟩
    · rw [h1] at h; cases h
  · rintro ⟨f, h1, rfl⟩
    exact hf f h1

/-- C71: A parser of several durations returns an error iff one of them has a mistake, and the error is the one of the
first mistake. The hypothesis about the delimiters excludes finding F5. -/
theorem C71_multiple (s : Bytes) (e : ParseError) (hs : IsText s) (hc : CfgText cfg) (hm : cfg.allowMultiple = true)
    (hd : (∀ b, cfg.innerDelimiter b = true → cfg.outerDelimiter b = true) ∨ (keywords = none ∧ numerals = none)) :
    parse cfg units keywords numerals s = fail e ↔
      ∃ f, FirstMistake cfg units keywords numerals s f ∧ e = f.error s := by
  rw [C33_buffer_transparent cfg units keywords numerals s (hd.imp_right Or.inl)]
  unfold parseUnbuffered parseWith parseMultiple
  simp only [hm, if_true]
  let env : Env := ⟨cfg, units, keywords, numerals, fun d c => c.advanceTo d⟩
  have hI := (isText_iff s).mp hs
  have hat : At s 0 (Cursor.new s) s := ⟨Inv.new hI, Cursor.rest_new s, Nat.zero_le _⟩
  have he : EnvOk env := envOk_plain hc units keywords numerals
  have hlen : s.length < (Cursor.new s).pos + (s.length + 1) := by show _ < 0 + _; omega
  have hf (f : Fault) := loop_fails (env := env) (f := f) he rfl (s.length + 1) Duration.ZERO (by decide) hat hlen
  constructor
  · intro h
    have h : parseMultipleLoop env (s.length + 1) Duration.ZERO (Cursor.new s) = fail e := h
    rcases loop_cases (env := env) he rfl (s.length + 1) Duration.ZERO (by decide) hat hlen with
      ⟨d, h1⟩ | ⟨f, h1⟩ | ⟨p, h1⟩
    · rw [h1] at h; cases h
    · have := hf f h1
      unfold Fails at this
      rw [h] at this
      exact ⟨f, h1, by injection this with h; injection h⟩
    · rw [h1] at h; cases h
  · rintro ⟨f, h1, rfl⟩
    exact hf f h1

/-- C71: there is one error for a text: two mistakes which the specification finds in a text amount to the same error -/
theorem C71_unique (s : Bytes) (f f' : Fault) (hs : IsText s) (hc : CfgText cfg) (hm : cfg.allowMultiple = false)
    (h : Mistake cfg units keywords numerals s f) (h' : Mistake cfg units keywords numerals s f') :
    f.error s = f'.error s := by
  have a := (C71_single cfg units keywords numerals s _ hs hc hm).mpr ⟨f, h, rfl⟩
  have a' := (C71_single cfg units keywords numerals s _ hs hc hm).mpr ⟨f', h', rfl⟩
  rw [a] at a'
  injection a' with h; injection h

/-- C71: the error of a sequence of durations does not depend on how the mistake is found. -/
theorem C71_unique_multiple (s : Bytes) (f f' : Fault) (hs : IsText s) (hc : CfgText cfg) (hm : cfg.allowMultiple = true)
    (hd : (∀ b, cfg.innerDelimiter b = true → cfg.outerDelimiter b = true) ∨ (keywords = none ∧ numerals = none))
    (h : FirstMistake cfg units keywords numerals s f) (h' : FirstMistake cfg units keywords numerals s f') :
    f.error s = f'.error s := by
  have a := (C71_multiple cfg units keywords numerals s _ hs hc hm hd).mpr ⟨f, h, rfl⟩
  have a' := (C71_multiple cfg units keywords numerals s _ hs hc hm hd).mpr ⟨f', h', rfl⟩
  rw [a] at a'
  injection a' with h; injection h

/-- C71: a text with a mistake is not a duration, and if the products of the multipliers fit each text is a duration or
has a mistake -/
theorem C71_duration_or_mistake (s : Bytes) (hs : IsText s) (hc : CfgText cfg) (hm : cfg.allowMultiple = false)
    (hu : TableFits units) (hk : ∀ k, keywords = some k → TableFits k)
    (hn : ∀ n, numerals = some n → NumeralsFit n units) :
    (∃ f, Mistake cfg units keywords numerals s f) ↔ ¬ ∃ d, DenotesSingle cfg units keywords numerals s d := by
  constructor
  · rintro ⟨f, hf⟩ ⟨d, hd⟩
    have a := (C71_single cfg units keywords numerals s _ hs hc hm).mpr ⟨f, hf, rfl⟩
    rw [(C27_single cfg units keywords numerals s d hs hc hm).mpr hd] at a
    cases a
  · intro h
    rcases C23_no_panic cfg units keywords numerals s hs hc hu hk hn with ⟨d, hd, -⟩ | ⟨e, he⟩
    · exact absurd ⟨d, (C27_single cfg units keywords numerals s d hs hc hm).mp hd⟩ h
    · obtain ⟨f, hf, -⟩ := (C71_single cfg units keywords numerals s e hs hc hm).mp he
      exact ⟨f, hf⟩

/-- C71: a text with a first mistake is not a sequence of durations, and if the products of the multipliers fit each text
is a sequence of durations or has a first mistake -/
theorem C71_durations_or_mistake (s : Bytes) (hs : IsText s) (hc : CfgText cfg) (hm : cfg.allowMultiple = true)
    (hd : (∀ b, cfg.innerDelimiter b = true → cfg.outerDelimiter b = true) ∨ (keywords = none ∧ numerals = none))
    (hu : TableFits units) (hk : ∀ k, keywords = some k → TableFits k)
    (hn : ∀ n, numerals = some n → NumeralsFit n units) :
    (∃ f, FirstMistake cfg units keywords numerals s f) ↔ ¬ ∃ ds, DenotesMultiple cfg units keywords numerals s ds := by
  constructor
  · rintro ⟨f, hf⟩ ⟨ds, h⟩
    have a := (C71_multiple cfg units keywords numerals s _ hs hc hm hd).mpr ⟨f, hf, rfl⟩
    obtain ⟨d, h1, -⟩ := (C27_multiple cfg units keywords numerals s _ hs hc hm hd).mpr ⟨ds, h, rfl⟩
    rw [h1] at a
    cases a
  · intro h
    rcases C23_no_panic cfg units keywords numerals s hs hc hu hk hn with ⟨d, h1, h2⟩ | ⟨e, he⟩
    · obtain ⟨ds, h3, -⟩ := (C27_multiple cfg units keywords numerals s _ hs hc hm hd).mp ⟨d, h1, h2, rfl⟩
      exact absurd ⟨ds, h3⟩ h
    · obtain ⟨f, hf, -⟩ := (C71_multiple cfg units keywords numerals s e hs hc hm hd).mp he
      exact ⟨f, hf⟩

/-! ## Consequences -/

/-- a mistake in a number is reported, if it is in the first of several durations -/
theorem number_mistake (s : Bytes) (hs : IsText s) (hc : CfgText cfg) (hd : DelimitersOk cfg keywords numerals)
    {neg : Bool} {r : Bytes} {f : Fault} (h1 : SignPart cfg s neg r) (h2 : NumberMistake cfg r f) :
    parse cfg units keywords numerals s = fail (f.error s) := by
  cases hm : cfg.allowMultiple with
  | false => exact (C71_single cfg units keywords numerals s _ hs hc hm).mpr ⟨f, .text h1 (.number h2), rfl⟩
  | true =>
    have hd' := hd.resolve_left (by rw [hm]; simp)
    exact (C71_multiple cfg units keywords numerals s _ hs hc hm hd').mpr ⟨f, .text h1 (.number h2), rfl⟩

/-- C71: with `disable_fraction` the error for a point after the sign and whole digits is at this point. -/
theorem C71_fraction (s : Bytes) (hs : IsText s) (hc : CfgText cfg) (hd : DelimitersOk cfg keywords numerals)
    (hf : cfg.disableFraction = true) {neg : Bool} {r W t : Bytes}
    (h1 : SignPart cfg s neg r) (h2 : Split IsDigit r W (46 :: t)) :
    parse cfg units keywords numerals s = fail (.syntax (s.length - (46 :: t).length) .noFractionAllowed) :=
  number_mistake cfg units keywords numerals s hs hc hd h1 (.fraction h2 (.disabled hf))

/-- C71: with `disable_exponent` the error for an `e` or `E` after the sign and digits is at this letter. -/
theorem C71_exponent (s : Bytes) (hs : IsText s) (hc : CfgText cfg) (hd : DelimitersOk cfg keywords numerals)
    (hf : cfg.disableExponent = true) {neg : Bool} {r W r1 F t : Bytes} {x : UInt8} (h1 : SignPart cfg s neg r)
    (h2 : Split IsDigit r W r1) (h3 : FractionPart cfg W r1 F (x :: t)) (hx : x = 101 ∨ x = 69) :
    parse cfg units keywords numerals s = fail (.syntax (s.length - (x :: t).length) .noExponentAllowed) :=
  number_mistake cfg units keywords numerals s hs hc hd h1 (.exponent h2 h3 (.disabled hx hf))

/-- C71: without time units the error for what follows a single number is at its start, after delimiters if allowed. -/
theorem C71_no_units (s : Bytes) (hs : IsText s) (hc : CfgText cfg) (hm : cfg.allowMultiple = false)
    (hu : units.isEmpty = true) {neg : Bool} {r W F t t' : Bytes} {e : Int}
    (h1 : SignPart cfg s neg r) (h2 : NumberText cfg r W F e t)
    (h3 : AfterDelims cfg.allowTimeUnitDelimiter cfg.innerDelimiter t t') (h4 : t' ≠ []) :
    parse cfg units keywords numerals s = fail (.timeUnit (s.length - t'.length) (.noTimeUnitsAllowed t')) :=
  (C71_single cfg units keywords numerals s _ hs hc hm).mpr ⟨_, .text h1 (.noUnits h2 h3 h4 hu), rfl⟩

/-- C71: the standard parser, for a single duration -/
theorem C71_standard_single (p : DurationParser) (s : Bytes) (e : ParseError) (hs : IsText s) (hc : CfgText p.config)
    (hm : p.config.allowMultiple = false) :
    p.parse s = fail e ↔ ∃ f, Mistake p.config p.timeUnits.like none none s f ∧ e = f.error s :=
  C71_single _ _ _ _ s e hs hc hm

/-- C71: the standard parser, for several durations; whatever the delimiters are -/
theorem C71_standard_multiple (p : DurationParser) (s : Bytes) (e : ParseError) (hs : IsText s) (hc : CfgText p.config)
    (hm : p.config.allowMultiple = true) :
    p.parse s = fail e ↔ ∃ f, FirstMistake p.config p.timeUnits.like none none s f ∧ e = f.error s :=
  C71_multiple _ _ _ _ s e hs hc hm (Or.inr ⟨rfl, rfl⟩)

/-- C71: the custom parser -/
theorem C71_custom_single (p : CustomDurationParser) (s : Bytes) (e : ParseError) (hs : IsText s) (hc : CfgText p.config)
    (hm : p.config.allowMultiple = false) :
    p.parse s = fail e ↔ ∃ f, Mistake p.config p.timeUnits.like
      (if !p.keywords.isEmpty then some p.keywords.like else none)
      (if !p.numerals.isEmpty then some (numeralsGet p.numerals) else none) s f ∧ e = f.error s :=
  C71_single _ _ _ _ s e hs hc hm

/-- C71: the custom parser for several durations -/
theorem C71_custom_multiple (p : CustomDurationParser) (s : Bytes) (e : ParseError) (hs : IsText s) (hc : CfgText p.config)
    (hm : p.config.allowMultiple = true)
    (hd : ∀ b, p.config.innerDelimiter b = true → p.config.outerDelimiter b = true) :
    p.parse s = fail e ↔ ∃ f, FirstMistake p.config p.timeUnits.like
      (if !p.keywords.isEmpty then some p.keywords.like else none)
      (if !p.numerals.isEmpty then some (numeralsGet p.numerals) else none) s f ∧ e = f.error s :=
  C71_multiple _ _ _ _ s e hs hc hm (Or.inl hd)

/-- C71: `fundu_systemd`: the errors are those of the first mistake in the text without the white space around it; the
text `infinity` is never an error. -/
theorem C71_systemd (nanos' : Bool) (u : TimeUnit) (s m : Bytes) (e : ParseError) (hs : IsText s) (hm' : Trimmed s m)
    (max : Duration) (hm : max.isNegative = false) :
    parseMax nanos' (Systemd.TimeSpanParser.withDefaultUnit u) s max = fail e ↔ m ≠ b! "infinity" ∧
      ∃ f, FirstMistake (Systemd.TimeSpanParser.withDefaultUnit u).config (tableOf nanos') none none m f ∧
        e = f.error m := by
  obtain ⟨m', h1, h2, h3⟩ := parseMax_eq nanos' (Systemd.TimeSpanParser.withDefaultUnit u) s max hm hs
  obtain rfl := trimmed_unique h1 hm'
  rw [h3]
  by_cases hi : m' = b! "infinity"
  · rw [if_pos hi]
    constructor
    · intro h; cases h
    · rintro ⟨h, -⟩; exact absurd hi h
  · rw [if_neg hi]
    rw [← C71_multiple (Systemd.TimeSpanParser.withDefaultUnit u).config (tableOf nanos') none none m' e h2
      (systemd_cfgText u) rfl (Or.inr ⟨rfl, rfl⟩)]
    cases parse (Systemd.TimeSpanParser.withDefaultUnit u).config (tableOf nanos') none none m' with
    | ok d =>
      constructor
      · intro h; cases h
      · rintro ⟨-, h⟩; cases h
    | error q => exact ⟨fun h => ⟨hi, h⟩, fun h => h.2⟩

/-- the errors which the specification has a mistake for -/
def Reported : Fault → Prop
  | .syntax _ reason =>
    match reason with
    | .expectedEndOfInput _ | .delimiterAtEnd | .unexpectedEnd | .signWithoutNumber | .wholeOrFractionMustBePresent
    | .noFractionAllowed | .expectedExponent | .exponentWithoutDigit | .noExponentAllowed | .infinityInvalidCharacter _
    | .infinityPrematureEnd | .infinityInvalidIdentifier _ | .infinityExpectedDelimiter _ | .conjunctionNotSeparated _
    | .conjunctionAtEnd _ => True
    | _ => False
  | .timeUnit _ reason =>
    match reason with
    | .invalidTimeUnit _ | .noTimeUnitsAllowed _ | .numeralWithoutTimeUnitsDefined _ | .numeralWithoutTimeUnit _ => True
    | _ => False
  | .other e =>
    match e with
    | .empty | .negativeExponentOverflow | .positiveExponentOverflow | .negativeNumber | .invalidInput (.text _) => True
    | _ => False

section
variable {cfg : Config} {units : TimeUnitsLike} {keywords : Option TimeUnitsLike} {numerals : Option NumbersLike}
  {s : Bytes} {f : Fault}

theorem reported_number (h : NumberMistake cfg s f) : Reported f := by
  cases h with
  | fraction _ h => cases h <;> trivial
  | exponent _ _ h =>
    cases h with
    | @overflow _ _ neg => cases neg <;> trivial
    | disabled => trivial
    | endOfText => trivial
    | onlySign => trivial
    | noDigit => trivial

theorem reported_unitSingle (h : UnitSingleMistake cfg units s f) : Reported f := by cases h <;> trivial

theorem reported_connection (h : ConnectionMistake cfg s f) : Reported f := by
  cases h with
  | delimiters => trivial
  | conjunction _ _ _ _ _ _ h => cases h <;> trivial

theorem reported_unitMulti (h : UnitMultiMistake cfg units s f) : Reported f := by
  cases h with
  | delimiters => trivial
  | connection _ _ h => exact reported_connection h

theorem reported_numeral {um : Bytes → Fault → Prop} {no : Bytes → Prop} (hu : ∀ s f, um s f → Reported f)
    (h : NumeralMistake cfg units numerals um no s f) : Reported f := by
  cases h with
  | delimiters => trivial
  | unit _ _ _ h => exact hu _ _ h
  | noUnit => cases units.isEmpty <;> trivial
  | noNumeral => trivial

theorem reported_sign (h : SignMistake cfg s f) : Reported f := by cases h <;> trivial

theorem reported_single (h : Mistake cfg units keywords numerals s f) : Reported f := by
  cases h with
  | empty => trivial
  | sign h => exact reported_sign h
  | negative => trivial
  | text _ h =>
    cases h with
    | number h => exact reported_number h
    | delimiters => trivial
    | noUnits => trivial
    | noUnit => trivial
    | unit _ _ _ _ h => exact reported_unitSingle h
    | infinity _ _ h => cases h <;> trivial
    | unitWord _ _ _ h => exact reported_unitSingle h
    | numeral _ _ _ h => exact reported_numeral (fun _ _ h => reported_unitSingle h) h

theorem reported_multi (h : FirstMistake cfg units keywords numerals s f) : Reported f := by
  induction h with
  | empty => trivial
  | sign h => exact reported_sign h
  | negative => trivial
  | later _ _ _ _ _ ih => exact ih
  | text _ h =>
    cases h with
    | number h => exact reported_number h
    | delimiters => trivial
    | unit _ _ _ _ h => exact reported_unitMulti h
    | connection _ _ _ _ h => exact reported_connection h
    | infinity _ _ h =>
      cases h with
      | connection h => exact reported_connection h
      | character => trivial
      | endOfText => trivial
      | noDelimiter => trivial
      | connection' _ _ h => exact reported_connection h
    | keyword _ _ _ h => exact reported_connection h
    | unitWord _ _ _ h => exact reported_unitMulti h
    | numeral _ _ _ h => exact reported_numeral (fun _ _ h => reported_unitMulti h) h

end

/-- C71: the errors which the parsers return. In particular they never return `Overflow`, and never say "Input may not
start with a delimiter" although there is such a message (finding F20). -/
theorem C71_reported (s : Bytes) (e : ParseError) (hs : IsText s) (hc : CfgText cfg)
    (hd : DelimitersOk cfg keywords numerals) (h : parse cfg units keywords numerals s = fail e) :
    ∃ f, Reported f ∧ e = f.error s := by
  cases hm : cfg.allowMultiple with
  | false =>
    obtain ⟨f, h1, h2⟩ := (C71_single cfg units keywords numerals s e hs hc hm).mp h
    exact ⟨f, reported_single h1, h2⟩
  | true =>
    have hd' := hd.resolve_left (by rw [hm]; simp)
    obtain ⟨f, h1, h2⟩ := (C71_multiple cfg units keywords numerals s e hs hc hm hd').mp h
    exact ⟨f, reported_multi h1, h2⟩

/-- C71: neither `Overflow` nor the message about delimiters at the start -/
theorem C71_never (s : Bytes) (hs : IsText s) (hc : CfgText cfg) (hd : DelimitersOk cfg keywords numerals) (pos : Nat) :
    parse cfg units keywords numerals s ≠ fail .overflow ∧
    parse cfg units keywords numerals s ≠ fail (.syntax pos .delimiterAtStart) := by
  constructor <;> intro h
  all_goals
    obtain ⟨f, h1, h2⟩ := C71_reported cfg units keywords numerals s _ hs hc hd h
    cases f with
    | other e => cases h2 <;> exact h1
    | «syntax» r x => cases h2 <;> exact h1
    | timeUnit r x => cases h2

/-! ## Cases -/

/-- a single duration: the mistake is the unit, found after the number and the allowed white space -/
example : Mistake { DurationParser.new.config with allowTimeUnitDelimiter := true } DurationParser.new.timeUnits.like none none
    (b! "+1.5 \tfoo") (.timeUnit (b! "foo") (.invalidTimeUnit (b! "foo"))) := by
  refine .text (r := b! "1.5 \tfoo") (.plus rfl (by decide)) (.noUnit (W := b! "1") (F := b! "5") (e := 0) (r := b! " \tfoo")
    ⟨b! ".5 \tfoo", b! " \tfoo", ⟨rfl, by decide, ?_⟩, .present rfl ⟨rfl, by decide, ?_⟩ (Or.inl (by decide)), .absent ?_⟩
    ⟨b! " \t", rfl, by decide, ?_⟩ (by decide) rfl (noUnitSingle_iff.mpr ?_))
  · rintro ⟨b, l, h, hb⟩; cases h; revert hb; decide
  · rintro ⟨b, l, h, hb⟩; cases h; revert hb; decide
  · rintro ⟨b, l, h, hb⟩; cases h; revert hb; decide
  · rintro ⟨b, l, h, hb⟩; cases h; revert hb; decide
  · decide +kernel

/-- and the parser reports it -/
example : (DurationParser.new.allowTimeUnitDelimiter true).parse (b! "+1.5 \tfoo") =
    fail (.timeUnit 6 (.invalidTimeUnit (b! "foo"))) := by decide +kernel

/-- several durations: the mistake is in the second one -/
example : (DurationParser.new.parseMultiple true (some [b! "and"])).parse (b! "1s and 2s andx") =
    fail (.syntax 13 (.conjunctionNotSeparated 120)) := by decide +kernel

/-- white space at the start -/
example : DurationParser.new.parse (b! " 1s") = fail (.invalidInput (.text (b! " 1s"))) ∧
    (DurationParser.new.parseMultiple true none).parse (b! " 1s") = fail (.invalidInput (.text (b! " 1s"))) ∧
    (DurationParser.new.allowTimeUnitDelimiter true).parse (b! " ") = fail (.invalidInput (.text (b! " "))) := by
  decide +kernel

end Fundu.Props
