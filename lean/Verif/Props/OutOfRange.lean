import Verif.Proofs.OutOfRange
import Verif.Props.Mistakes
import Verif.Props.Standard
/-!
# C93: when parsing panics

With words given by the user the products of multipliers can leave the range of `i64` and `i16`; the parser panics then (finding F9). The
theorems say for which texts. The specification is `Spec/OutOfRange`.
-/
namespace Fundu.Props
open Fundu Fundu.Spec

variable (cfg : Config) (units : TimeUnitsLike) (keywords : Option TimeUnitsLike) (numerals : Option NumbersLike)

/-- C93: a parser of single durations panics if and only if the text is a duration for which a multiplier is out of range. It doesn't depend on
whether the value is needed (the number may be zero) or would be rejected for being negative. -/
theorem C93_single (s : Bytes) (hs : IsText s) (hc : CfgText cfg) (hm : cfg.allowMultiple = false) :
    (∃ p, parse cfg units keywords numerals s = panic p) ↔ SingleOutOfRange cfg units keywords numerals s := by
  rw [C33_buffer_transparent cfg units keywords numerals s (Or.inr (Or.inr hm))]
  unfold parseUnbuffered parseWith
  simp only [hm, Bool.false_eq_true, if_false]
  let env : Env := ⟨cfg, units, keywords, numerals, fun d c => c.advanceTo d⟩
  have hI := (isText_iff s).mp hs
  constructor
  · rintro ⟨p, h⟩
    have h : parseSingle env s = panic p := h
    rcases parseSingle_cases (env := env) (cfgOk_of_text hc) rfl hI with ⟨d, h1, -⟩ | ⟨f, h1⟩ | ⟨⟨neg, r, item, h1, h2, h3⟩, -⟩
    · rw [h1] at h; cases h
    · have := parseSingle_fails (env := env) (f := f) (cfgOk_of_text hc) rfl hI h1
      unfold Fails at this
      rw [h] at this
      cases this
    · exact ⟨neg, r, item, h1, h2, (outOfRange_iff cfg neg item).2 h3⟩
  · exact parseSingle_panics (env := env) (cfgOk_of_text hc) rfl hI

/-- C93: a parser of several durations panics if and only if the multiplier of one of them is out of range and those in front of it are accepted;
whatever follows. The hypothesis about the delimiters excludes finding F5. -/
theorem C93_multiple (s : Bytes) (hs : IsText s) (hc : CfgText cfg) (hm : cfg.allowMultiple = true)
    (hd : (∀ b, cfg.innerDelimiter b = true → cfg.outerDelimiter b = true) ∨ (keywords = none ∧ numerals = none)) :
    (∃ p, parse cfg units keywords numerals s = panic p) ↔ FirstOutOfRange cfg units keywords numerals s := by
  rw [C33_buffer_transparent cfg units keywords numerals s (hd.imp_right Or.inl)]
  unfold parseUnbuffered parseWith parseMultiple
  simp only [hm, if_true]
  let env : Env := ⟨cfg, units, keywords, numerals, fun d c => c.advanceTo d⟩
  have hI := (isText_iff s).mp hs
  have hat : At s 0 (Cursor.new s) s := ⟨Inv.new hI, Cursor.rest_new s, Nat.zero_le _⟩
  have he : EnvOk env := envOk_plain hc units keywords numerals
  have hlen : s.length < (Cursor.new s).pos + (s.length + 1) := by show _ < 0 + _; omega
  constructor
  · rintro ⟨p, h⟩
    have h : parseMultipleLoop env (s.length + 1) Duration.ZERO (Cursor.new s) = panic p := h
    rcases loop_kinds (env := env) he rfl (s.length + 1) Duration.ZERO (by decide) hat hlen with ⟨d, h1⟩ | ⟨f, h1⟩ | h1
    · rw [h1] at h; cases h
    · have := loop_fails (env := env) (f := f) he rfl (s.length + 1) Duration.ZERO (by decide) hat hlen h1
      unfold Fails at this
      rw [h] at this
      cases this
    · exact h1
  · exact loop_panics (env := env) he rfl (s.length + 1) Duration.ZERO (by decide) hat hlen

/-- C93: the panic is always that of the multiplication of two multipliers (`*` is `checked_mul(..).unwrap()`). -/
theorem C93_unwrap (s : Bytes) (hs : IsText s) (hc : CfgText cfg) (p : Panic) (h : parse cfg units keywords numerals s = panic p) :
    p = .unwrap := by
  rcases C23_only_multiplication_panics cfg units keywords numerals s hs hc with ⟨d, h1, -⟩ | ⟨e, h1⟩ | h1
  · rw [h1] at h; cases h
  · rw [h1] at h; cases h
  · rw [h1] at h; cases h; rfl

/-- C93: each text is a duration, has a mistake or has a multiplier which is out of range, and only one of these. -/
theorem C93_kinds (s : Bytes) (hs : IsText s) (hc : CfgText cfg) (hm : cfg.allowMultiple = false) :
    ((∃ d, DenotesSingle cfg units keywords numerals s d) ∧ ¬ (∃ f, Mistake cfg units keywords numerals s f) ∧
      ¬ SingleOutOfRange cfg units keywords numerals s) ∨
    ((¬ ∃ d, DenotesSingle cfg units keywords numerals s d) ∧ (∃ f, Mistake cfg units keywords numerals s f) ∧
      ¬ SingleOutOfRange cfg units keywords numerals s) ∨
    ((¬ ∃ d, DenotesSingle cfg units keywords numerals s d) ∧ (¬ ∃ f, Mistake cfg units keywords numerals s f) ∧
      SingleOutOfRange cfg units keywords numerals s) := by
  have h1 := C27_single cfg units keywords numerals s
  have h2 := C71_single cfg units keywords numerals s
  have h3 := C93_single cfg units keywords numerals s hs hc hm
  rw [← h3]
  cases hp : parse cfg units keywords numerals s with
  | ok d =>
    refine Or.inl ⟨⟨d, (h1 d hs hc hm).1 hp⟩, ?_, ?_⟩
    · rintro ⟨f, hf⟩
      have := (h2 _ hs hc hm).2 ⟨f, hf, rfl⟩
      rw [hp] at this; cases this
    · rintro ⟨p, h⟩; cases h
  | error x =>
    have hd : ¬ ∃ d, DenotesSingle cfg units keywords numerals s d := by
      rintro ⟨d, hd⟩
      have := (h1 d hs hc hm).2 hd
      rw [hp] at this; cases this
    cases x with
    | err e =>
      obtain ⟨f, hf, -⟩ := (h2 e hs hc hm).1 hp
      refine Or.inr (Or.inl ⟨hd, ⟨f, hf⟩, ?_⟩)
      rintro ⟨p, h⟩; cases h
    | panic p =>
      refine Or.inr (Or.inr ⟨hd, ?_, p, rfl⟩)
      rintro ⟨f, hf⟩
      have := (h2 _ hs hc hm).2 ⟨f, hf, rfl⟩
      rw [hp] at this; cases this

/-- C93: if the multipliers of time units and keywords are in range, as the constructors of custom time units and keywords ensure, the panic is
due to a numeral and the time unit behind it. -/
theorem C93_numeral (s : Bytes) (hs : IsText s) (hc : CfgText cfg) (hm : cfg.allowMultiple = false) (hu : TableFits units)
    (hk : ∀ k, keywords = some k → TableFits k) :
    (∃ p, parse cfg units keywords numerals s = panic p) ↔
      ∃ neg r q u m, SignPart cfg s neg r ∧ SingleText cfg units keywords numerals r (.numeral q (u, m)) ∧
        ¬ (Fits q u.multiplier ∧ Fits (product q u.multiplier) m) := by
  rw [C93_single cfg units keywords numerals s hs hc hm]
  constructor
  · rintro ⟨neg, r, item, h1, h2, h3⟩
    obtain ⟨q, u, m, rfl⟩ := single_numeral hu hk h2 h3
    refine ⟨neg, r, q, u, m, h1, h2, ?_⟩
    cases h3 with
    | numeral h => exact fun h' => h h'.1
    | numeralUnit _ h => exact fun h' => h h'.2
  · rintro ⟨neg, r, q, u, m, h1, h2, h3⟩
    refine ⟨neg, r, _, h1, h2, ?_⟩
    by_cases h : Fits q u.multiplier
    · exact .numeralUnit h fun h' => h3 ⟨h, h'⟩
    · exact .numeral h

/-- C93: a custom parser whose time units and keywords were made by their constructors panics for a text of a single duration if and only if the
text is a numeral and a time unit whose product is out of range. -/
theorem C93_custom (calls : List CustomCall) (s : Bytes) (hs : IsText s) (p : CustomDurationParser)
    (hp : p = calls.foldl callCustomSetter CustomDurationParser.new) (hc : CfgText p.config) (hm : p.config.allowMultiple = false)
    (hu : ∀ r ∈ calls.flatMap CustomCall.units, Constructed r) (hk : ∀ k ∈ calls.flatMap CustomCall.keywordUnits, Constructed k.timeUnit) :
    (∃ x, p.parse s = panic x) ↔
      ∃ neg r q u m, SignPart p.config s neg r ∧
        SingleText p.config p.timeUnits.like (if !p.keywords.isEmpty then some p.keywords.like else none)
          (if !p.numerals.isEmpty then some (numeralsGet p.numerals) else none) r (.numeral q (u, m)) ∧
        ¬ (Fits q u.multiplier ∧ Fits (product q u.multiplier) m) := by
  obtain ⟨h1, h2, h3⟩ := C35_custom_tables calls
  rw [← hp] at h1 h2 h3
  refine C93_numeral p.config _ _ _ s hs hc hm ?_ ?_
  · rw [h1]; exact custom_fits hu
  · intro k hk'
    by_cases he : (!p.keywords.isEmpty) = true
    · rw [if_pos he] at hk'
      cases hk'
      rw [h2, C36_keywords]
      refine custom_fits ?_
      intro r hr
      obtain ⟨k, hk'', rfl⟩ := List.mem_map.1 hr
      exact hk k hk''
    · rw [if_neg he] at hk'; cases hk'

/-! ## Cases which meet the hypotheses -/

/-- a unit `century`, a unit `s` and a numeral `many`, a very large one -/
def manyCalls : List CustomCall :=
  [.timeUnit ⟨.year, ⟨100, 0⟩, [b! "century"]⟩, .timeUnit (.withDefault .second [b! "s"]), .numeral ⟨[b! "many"], ⟨2 ^ 62, 0⟩⟩]

/-- `-many century` is out of range (and would be negative), `many s` is in range, `many centuries` has a mistake -/
example : (manyCalls.foldl callCustomSetter CustomDurationParser.new).parse (b! "-many century") = panic .unwrap ∧
    (∃ d, (manyCalls.foldl callCustomSetter CustomDurationParser.new).parse (b! "many s") = .ok d) ∧
    ∃ e, (manyCalls.foldl callCustomSetter CustomDurationParser.new).parse (b! "many centuries") = fail e :=
  ⟨by decide +kernel, ⟨⟨false, ⟨2 ^ 62, 0⟩⟩, by decide +kernel⟩, ⟨.timeUnit 5 (.numeralWithoutTimeUnit (b! "many")), by decide +kernel⟩⟩

/-- the hypotheses of `C93_custom` hold for it, so the text is of the kind described there -/
example : ∃ neg r q u m, SignPart (manyCalls.foldl callCustomSetter CustomDurationParser.new).config (b! "-many century") neg r ∧
    SingleText (manyCalls.foldl callCustomSetter CustomDurationParser.new).config
      (manyCalls.foldl callCustomSetter CustomDurationParser.new).timeUnits.like none
      (some (numeralsGet (manyCalls.foldl callCustomSetter CustomDurationParser.new).numerals)) r (.numeral q (u, m)) ∧
    ¬ (Fits q u.multiplier ∧ Fits (product q u.multiplier) m) := by
  refine (C93_custom manyCalls (b! "-many century") (isText_ascii (by decide)) _ rfl ?_ rfl ?_ (by intro k hk; cases hk)).1
    ⟨.unwrap, by decide +kernel⟩
  · exact ⟨defaultConfig_text.inner, defaultConfig_text.outer, by intro ws h; cases h⟩
  · intro r hr
    rcases (by simpa [manyCalls, CustomCall.units] using hr) with rfl | rfl
    · exact Or.inl ⟨.year, [b! "century"], some ⟨100, 0⟩, by intro q hq; cases hq; decide, by decide +kernel⟩
    · exact Or.inr ⟨_, _, rfl⟩

/-- several durations: the text behind the one which is out of range isn't read any more, a mistake in front of it is reported instead -/
example : parse { exampleConfig with allowMultiple := true } (manyCalls.foldl callCustomSetter CustomDurationParser.new).timeUnits.like none
      (some (numeralsGet (manyCalls.foldl callCustomSetter CustomDurationParser.new).numerals)) (b! "1s many century foo") = panic .unwrap ∧
    ∃ e, parse { exampleConfig with allowMultiple := true } (manyCalls.foldl callCustomSetter CustomDurationParser.new).timeUnits.like none
      (some (numeralsGet (manyCalls.foldl callCustomSetter CustomDurationParser.new).numerals)) (b! "foo many century") = fail e :=
  ⟨by decide +kernel, ⟨.invalidInput (.text (b! "foo many century")), by decide +kernel⟩⟩

end Fundu.Props
