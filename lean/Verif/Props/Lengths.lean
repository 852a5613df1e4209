import Verif.Proofs.Lengths
import Verif.Props.Gate
import Verif.Props.OutOfRange
import Verif.Props.LaterMistakes
/-!
# Property C116: the lengths of time units decide the value only

Whether a text is accepted, and the error if it is not, depends on which words a parser knows, not on what they stand for:
not on the default unit, not on the lengths of time units and keywords, and not on the values of numerals.
-/
namespace Fundu.Props
open Fundu Fundu.Spec

variable (cfg : Config) (v : TimeUnit) (units units' : TimeUnitsLike) (keywords keywords' : Option TimeUnitsLike)
  (numerals numerals' : Option NumbersLike)

theorem fault_negative {f : Fault} {s : Bytes} (h : f.error s ≠ .negativeNumber) : f ≠ .other .negativeNumber := by
  rintro rfl; exact h rfl

/-- C116: for single durations all errors but the one for negative durations are the same, whatever the default unit is and
whatever the words stand for. -/
theorem C116_single (s : Bytes) (e : ParseError) (hs : IsText s) (hc : CfgText cfg) (hm : cfg.allowMultiple = false)
    (hu : SameWords units units') (hk : Option.Rel SameWords keywords keywords') (hn : Option.Rel SameNumberWords numerals numerals')
    (he : e ≠ .negativeNumber) :
    parse { cfg with defaultUnit := v } units' keywords' numerals' s = fail e ↔ parse cfg units keywords numerals s = fail e := by
  rw [C71_single { cfg with defaultUnit := v } units' keywords' numerals' s e hs ⟨hc.inner, hc.outer, hc.conjunctions⟩ hm,
    C71_single cfg units keywords numerals s e hs hc hm]
  constructor
  · rintro ⟨f, h, rfl⟩
    exact ⟨f, Lengths.mistake (cfg := { cfg with defaultUnit := v }) (v := cfg.defaultUnit) (Lengths.words_symm hu)
      (Lengths.keywords_symm hk) (Lengths.numerals_symm hn) h (fault_negative he), rfl⟩
  · rintro ⟨f, h, rfl⟩
    exact ⟨f, Lengths.mistake hu hk hn h (fault_negative he), rfl⟩

/-- C116: for several durations an error other than the one for negative durations is the same with another default unit
and other meanings of the words, unless there is an error for a negative duration in front of it (or a panic, C93). -/
theorem C116_multiple (s : Bytes) (e : ParseError) (hs : IsText s) (hc : CfgText cfg) (hm : cfg.allowMultiple = true)
    (hd : (∀ b, cfg.innerDelimiter b = true → cfg.outerDelimiter b = true) ∨ (keywords = none ∧ numerals = none))
    (hu : SameWords units units') (hk : Option.Rel SameWords keywords keywords') (hn : Option.Rel SameNumberWords numerals numerals')
    (he : e ≠ .negativeNumber) (h : parse cfg units keywords numerals s = fail e) :
    parse { cfg with defaultUnit := v } units' keywords' numerals' s = fail e ∨
      (cfg.allowNegative = false ∧ parse { cfg with defaultUnit := v } units' keywords' numerals' s = fail .negativeNumber) ∨
      ∃ p, parse { cfg with defaultUnit := v } units' keywords' numerals' s = panic p := by
  have hc' : CfgText { cfg with defaultUnit := v } := ⟨hc.inner, hc.outer, hc.conjunctions⟩
  have hd' : (∀ b, cfg.innerDelimiter b = true → cfg.outerDelimiter b = true) ∨ (keywords' = none ∧ numerals' = none) := by
    refine hd.imp_right ?_
    rintro ⟨rfl, rfl⟩
    cases hk; cases hn; exact ⟨rfl, rfl⟩
  obtain ⟨f, hf, rfl⟩ := (C71_multiple cfg units keywords numerals s e hs hc hm hd).1 h
  rcases Lengths.first (v := v) hu hk hn hf (fault_negative he) with h | ⟨ha, h⟩ | h
  · exact Or.inl ((C71_multiple _ _ _ _ s _ hs hc' hm hd').2 ⟨f, h, rfl⟩)
  · exact Or.inr (Or.inl ⟨ha, (C71_multiple _ _ _ _ s _ hs hc' hm hd').2 ⟨_, h, rfl⟩⟩)
  · exact Or.inr (Or.inr ((C93_multiple _ _ _ _ s hs hc' hm hd').2 h))

/-- C116: if negative durations are allowed the error for a negative duration does not occur. If they are not, it does not
occur for a text without a minus sign, if `ago` is not allowed and no word stands for a negative duration. -/
theorem C116_never_negative (s : Bytes) (hs : IsText s) (hc : CfgText cfg) (hd : DelimitersOk cfg keywords numerals)
    (ha : cfg.allowNegative = true ∨ ((45 : UInt8) ∉ s ∧ cfg.allowAgo = false ∧ Spec.NonnegativeTable units ∧
      (∀ k, keywords = some k → Spec.NonnegativeTable k) ∧
      ∀ n, numerals = some n → ∀ id q, n id = some q → 0 ≤ q.coefficient)) :
    parse cfg units keywords numerals s ≠ fail .negativeNumber := by
  intro h
  cases hm : cfg.allowMultiple with
  | false =>
    obtain ⟨f, hf, e⟩ := (C71_single cfg units keywords numerals s _ hs hc hm).1 h
    have hf' : f = .other .negativeNumber := by cases f <;> cases e; rfl
    subst hf'
    obtain ⟨neg, r, item, d, h1, h2, h3, h4, h5⟩ := Lengths.negative_single hf
    rcases ha with ha | ⟨g1, g2, g3, g4, g5⟩
    · rw [ha] at h5; cases h5
    · obtain rfl := Lengths.sign_plain h1 g1
      rw [Lengths.item_nonnegative (Lengths.single_nonnegative g2 g3 g4 g5 h2) h3] at h4
      cases h4
  | true =>
    obtain ⟨f, hf, e⟩ := (C71_multiple cfg units keywords numerals s _ hs hc hm (hd.resolve_left (by rw [hm]; simp))).1 h
    have hf' : f = .other .negativeNumber := by cases f <;> cases e; rfl
    subst hf'
    obtain ⟨s', neg, r, item, rest, d, h0, h1, h2, h3, h4, h5⟩ := Lengths.negative_first hf
    rcases ha with ha | ⟨g1, g2, g3, g4, g5⟩
    · rw [ha] at h5; cases h5
    · obtain rfl := Lengths.sign_plain h1 (fun h => g1 (h0.subset h))
      rw [Lengths.item_nonnegative (Lengths.multi_nonnegative g2 g3 g4 g5 h2) h3] at h4
      cases h4

/-- one direction of `C116_errors` -/
theorem lengths_errors {cfg : Config} {v : TimeUnit} {units units' : TimeUnitsLike} {keywords keywords' : Option TimeUnitsLike}
    {numerals numerals' : Option NumbersLike} {s : Bytes} {e : ParseError} (hs : IsText s) (hc : CfgText cfg)
    (hd : DelimitersOk cfg keywords numerals)
    (hu : SameWords units units') (hk : Option.Rel SameWords keywords keywords') (hn : Option.Rel SameNumberWords numerals numerals')
    (hp : parse cfg units keywords numerals s ≠ fail .negativeNumber)
    (hp' : parse { cfg with defaultUnit := v } units' keywords' numerals' s ≠ fail .negativeNumber)
    (hq' : ∀ p, parse { cfg with defaultUnit := v } units' keywords' numerals' s ≠ panic p)
    (h : parse cfg units keywords numerals s = fail e) : parse { cfg with defaultUnit := v } units' keywords' numerals' s = fail e := by
  have he : e ≠ .negativeNumber := by rintro rfl; exact hp h
  by_cases hm : cfg.allowMultiple = false
  · exact (C116_single cfg v units units' keywords keywords' numerals numerals' s e hs hc hm hu hk hn he).2 h
  · rw [Bool.not_eq_false] at hm
    rcases C116_multiple cfg v units units' keywords keywords' numerals numerals' s e hs hc hm
      (hd.resolve_left (by rw [hm]; simp)) hu hk hn he h with h | ⟨-, h⟩ | ⟨p, h⟩
    · exact h
    · exact absurd h hp'
    · exact absurd h (hq' p)

/-- C116: two parsers with the same options, possibly with different default units, which know the same words, possibly
with different meanings, give the same errors and accept the same texts, except for the errors for negative durations (and
panics, C93). -/
theorem C116_errors (s : Bytes) (hs : IsText s) (hc : CfgText cfg) (hd : DelimitersOk cfg keywords numerals)
    (hu : SameWords units units') (hk : Option.Rel SameWords keywords keywords') (hn : Option.Rel SameNumberWords numerals numerals')
    (hp : parse cfg units keywords numerals s ≠ fail .negativeNumber)
    (hp' : parse { cfg with defaultUnit := v } units' keywords' numerals' s ≠ fail .negativeNumber)
    (hq : ∀ p, parse cfg units keywords numerals s ≠ panic p)
    (hq' : ∀ p, parse { cfg with defaultUnit := v } units' keywords' numerals' s ≠ panic p) :
    (∀ e, parse { cfg with defaultUnit := v } units' keywords' numerals' s = fail e ↔ parse cfg units keywords numerals s = fail e) ∧
    ((∃ d, parse { cfg with defaultUnit := v } units' keywords' numerals' s = .ok d) ↔
      ∃ d, parse cfg units keywords numerals s = .ok d) := by
  have hd' : DelimitersOk cfg keywords' numerals' := by
    refine hd.imp_right fun h => h.imp_right ?_
    rintro ⟨rfl, rfl⟩
    cases hk; cases hn; exact ⟨rfl, rfl⟩
  have key : ∀ e, parse { cfg with defaultUnit := v } units' keywords' numerals' s = fail e ↔ parse cfg units keywords numerals s = fail e :=
    fun e => ⟨fun h => lengths_errors (cfg := { cfg with defaultUnit := v }) (v := cfg.defaultUnit) hs ⟨hc.inner, hc.outer, hc.conjunctions⟩ hd'
      (Lengths.words_symm hu) (Lengths.keywords_symm hk) (Lengths.numerals_symm hn) hp' hp hq h,
      fun h => lengths_errors hs hc hd hu hk hn hp hp' hq' h⟩
  refine ⟨key, ?_⟩
  generalize parse { cfg with defaultUnit := v } units' keywords' numerals' s = x at *
  generalize parse cfg units keywords numerals s = y at *
  match x, y with
  | .ok d, .ok d' => exact ⟨fun _ => ⟨d', rfl⟩, fun _ => ⟨d, rfl⟩⟩
  | .error (.panic p), _ => exact absurd rfl (hq' p)
  | _, .error (.panic p) => exact absurd rfl (hq p)
  | .error (.err e), .ok d => have := (key e).1 rfl; cases this
  | .ok d, .error (.err e) => have := (key e).2 rfl; cases this
  | .error (.err e), .error (.err e') => exact ⟨(fun ⟨d, h⟩ => by cases h), (fun ⟨d, h⟩ => by cases h)⟩

theorem words_refl (t : TimeUnitsLike) : SameWords t t := ⟨rfl, fun _ => rfl⟩

theorem standard_nonnegative (us : List TimeUnit) : Spec.NonnegativeTable (TimeUnits.withTimeUnits us).like := by
  intro id u m h
  obtain ⟨u', _, _, h3⟩ := (C34_get us id (u, m)).1 h
  cases h3
  decide

/-- C116: the default unit of a `DurationParser`: if negative durations are allowed, or the text has no minus sign and `ago`
is not allowed, it has no influence on which texts are accepted nor on the errors. -/
theorem C116_standard (us : List TimeUnit) (c : Config) (v : TimeUnit) (s : Bytes) (hs : IsText s) (hc : CfgText c)
    (ha : c.allowNegative = true ∨ ((45 : UInt8) ∉ s ∧ c.allowAgo = false)) (p : DurationParser)
    (hp : p = { DurationParser.withTimeUnits us with config := c }) :
    (∀ e, (p.defaultUnit v).parse s = fail e ↔ p.parse s = fail e) ∧ ((∃ d, (p.defaultUnit v).parse s = .ok d) ↔ ∃ d, p.parse s = .ok d) := by
  subst hp
  have hn : ∀ v, parse { c with defaultUnit := v } (TimeUnits.withTimeUnits us).like none none s ≠ fail .negativeNumber := fun v =>
    C116_never_negative _ _ none none s hs ⟨hc.inner, hc.outer, hc.conjunctions⟩ (Or.inr (Or.inr ⟨rfl, rfl⟩))
      (ha.imp id fun h => ⟨h.1, h.2, standard_nonnegative us, by rintro k ⟨⟩, by rintro n ⟨⟩⟩)
  have hq : ∀ v p, parse { c with defaultUnit := v } (TimeUnits.withTimeUnits us).like none none s ≠ panic p := by
    intro v p h
    rcases C23_no_panic { c with defaultUnit := v } (TimeUnits.withTimeUnits us).like none none s hs ⟨hc.inner, hc.outer, hc.conjunctions⟩
      (standard_fits us) (by rintro k ⟨⟩) (by rintro n ⟨⟩) with ⟨d, g, -⟩ | ⟨e, g⟩ <;> (rw [g] at h; cases h)
  exact C116_errors c v _ _ none none none none s hs hc (Or.inr (Or.inr ⟨rfl, rfl⟩)) (words_refl _) .none .none
    (hn c.defaultUnit) (hn v) (hq c.defaultUnit) (hq v)

/-! ## fundu-systemd -/

/-- C116 for fundu-systemd: for a text without a minus sign the default unit has no influence on whether it is accepted nor on
the error. -/
theorem C116_systemd (nanos' : Bool) (u v : TimeUnit) (s : Bytes) (max : Duration) (hs : IsText s) (hm : max.isNegative = false)
    (hn : (45 : UInt8) ∉ s) :
    (∀ e, parseMax nanos' (Systemd.TimeSpanParser.withDefaultUnit v) s max = fail e ↔
      parseMax nanos' (Systemd.TimeSpanParser.withDefaultUnit u) s max = fail e) ∧
    ((∃ d, parseMax nanos' (Systemd.TimeSpanParser.withDefaultUnit v) s max = .ok d) ↔
      ∃ d, parseMax nanos' (Systemd.TimeSpanParser.withDefaultUnit u) s max = .ok d) := by
  obtain ⟨m, g1, g2, g3⟩ := parseMax_eq nanos' (Systemd.TimeSpanParser.withDefaultUnit v) s max hm hs
  obtain ⟨m', g1', -, g3'⟩ := parseMax_eq nanos' (Systemd.TimeSpanParser.withDefaultUnit u) s max hm hs
  obtain rfl := trimmed_unique g1 g1'
  rw [g3, g3']
  by_cases hi : m = b! "infinity"
  · rw [if_pos hi, if_pos hi]; exact ⟨fun _ => Iff.rfl, Iff.rfl⟩
  rw [if_neg hi, if_neg hi]
  have hmn : (45 : UInt8) ∉ m := by
    obtain ⟨pre, post, rfl, -⟩ := g1
    intro h; exact hn (by simp [h])
  have hnn : ∀ v, parse (Systemd.TimeSpanParser.withDefaultUnit v).config (tableOf nanos') none none m ≠ fail .negativeNumber := fun v =>
    C116_never_negative _ _ none none m g2 (systemd_cfgText v) (Or.inr (Or.inr ⟨rfl, rfl⟩))
      (Or.inr ⟨hmn, rfl, fun id x q h => by obtain ⟨rfl, -⟩ := (C58_table nanos' id x q).1 h; decide, by rintro k ⟨⟩, by rintro n ⟨⟩⟩)
  have hq : ∀ v p, parse (Systemd.TimeSpanParser.withDefaultUnit v).config (tableOf nanos') none none m ≠ panic p := by
    intro v p h
    rcases C23_no_panic (Systemd.TimeSpanParser.withDefaultUnit v).config (tableOf nanos') none none m g2 (systemd_cfgText v)
      (systemd_fits nanos') (by rintro k ⟨⟩) (by rintro n ⟨⟩) with ⟨d, g, -⟩ | ⟨e, g⟩ <;> (rw [g] at h; cases h)
  obtain ⟨k1, k2⟩ := C116_errors (Systemd.TimeSpanParser.withDefaultUnit u).config v (tableOf nanos') (tableOf nanos') none none none none m g2
    (systemd_cfgText u) (Or.inr (Or.inr ⟨rfl, rfl⟩)) (words_refl _) .none .none (hnn u) (hnn v) (hq u) (hq v)
  refine ⟨fun e => ?_, ?_⟩
  · rw [map_fail_iff, map_fail_iff]; exact k1 e
  · have key : ∀ {x : R Duration}, (∃ d, x.map (Systemd.minDuration · max) = .ok d) ↔ ∃ d, x = .ok d := by
      intro x
      cases x with
      | ok d => exact ⟨fun _ => ⟨d, rfl⟩, fun _ => ⟨_, rfl⟩⟩
      | error q => exact ⟨(fun ⟨d, h⟩ => by cases h), (fun ⟨d, h⟩ => by cases h)⟩
    rw [key, key]; exact k2

/-! ## Examples -/

/-- a table with the words `x` and `y` -/
def lengthsTable (ux uy : TimeUnit) (mx my : Multiplier) : TimeUnitsLike where
  isEmpty := false
  get w := if w = b! "x" then some (ux, mx) else if w = b! "y" then some (uy, my) else none

theorem lengthsTable_words (ux uy ux' uy' : TimeUnit) (mx my mx' my' : Multiplier) :
    SameWords (lengthsTable ux uy mx my) (lengthsTable ux' uy' mx' my') := by
  refine ⟨rfl, fun w => ?_⟩
  show (if w = b! "x" then _ else _ : Option (TimeUnit × Multiplier)).isSome = (if w = b! "x" then _ else _ : Option (TimeUnit × Multiplier)).isSome
  by_cases hx : w = b! "x"
  · rw [if_pos hx, if_pos hx]; rfl
  · rw [if_neg hx, if_neg hx]
    by_cases hy : w = b! "y"
    · rw [if_pos hy, if_pos hy]; rfl
    · rw [if_neg hy, if_neg hy]

/-- other lengths of the two words, the same error -/
example : parse { defaultUnit := .year } (lengthsTable .year .month ⟨7, 3⟩ ⟨-1, 0⟩) none none (b! "1.5xy") =
    fail (.timeUnit 3 (.invalidTimeUnit (b! "xy"))) :=
  (C116_single {} .year (lengthsTable .second .day ⟨1, 0⟩ ⟨1, 0⟩) _ none none none none (b! "1.5xy") _ (isText_ascii (by decide))
    defaultConfig_text rfl (lengthsTable_words ..) .none .none (by decide)).2 (by decide +kernel)

/-- the same text with a nanosecond and a week as default units -/
example : ((DurationParser.withAllTimeUnits.defaultUnit .week).parse (b! "1e") = fail (.syntax 2 .unexpectedEnd)) ∧
    ∃ d, (DurationParser.withAllTimeUnits.defaultUnit .week).parse (b! "1.5e99") = .ok d := by
  have key := fun s hs h => C116_standard TimeUnits.withAllTimeUnits.getTimeUnits {} .week s hs defaultConfig_text (Or.inr h) DurationParser.withAllTimeUnits rfl
  exact ⟨((key _ (isText_ascii (by decide)) ⟨by decide, rfl⟩).1 _).2 (by decide +kernel),
    (key _ (isText_ascii (by decide)) ⟨by decide, rfl⟩).2.2 ⟨Duration.MAX, by decide +kernel⟩⟩

/-- the exception is needed: the sign of a negative number which is less than `10⁻¹⁸` seconds is lost, so `-0.0000000001` is
accepted if it is a number of nanoseconds and an error if it is a number of seconds -/
theorem C116_condition_needed :
    (DurationParser.withAllTimeUnits.defaultUnit .nanoSecond).parse (b! "-0.0000000001") = .ok ⟨false, ⟨0, 0⟩⟩ ∧
    (DurationParser.withAllTimeUnits.defaultUnit .second).parse (b! "-0.0000000001") = fail .negativeNumber := by
  constructor <;> decide +kernel

example : parseMax false (Systemd.TimeSpanParser.withDefaultUnit .hour) (b! " 1h 5 parsec") Systemd.SYSTEMD_MAX_MICRO_DURATION =
    fail (.invalidInput (.text (b! "parsec"))) :=
  ((C116_systemd false .second .hour (b! " 1h 5 parsec") Systemd.SYSTEMD_MAX_MICRO_DURATION (isText_ascii (by decide)) rfl
    (by decide)).1 _).2 (by decide +kernel)

end Fundu.Props
