import Verif.Props.SumSign
import Verif.Props.MoreWords
/-!
# Properties C63 and C86 once more: the results are equal including the sign of zero

C99 says that the duration returned by a parser of several durations is determined by its length, so the theorems about the length
in `Props/Options` and `Props/MoreWords` are theorems about the returned duration.
-/
namespace Fundu.Props
open Fundu Fundu.Spec

/-- durations with the same length and the same sign are the same -/
theorem duration_ext {d d' : Duration} (h : d.WF) (h' : d'.WF) (hn : nanos d' = nanos d) (hs : d.isNegative = true ↔ nanos d < 0)
    (hs' : d'.isNegative = true ↔ nanos d' < 0) : d' = d := by
  have hb : d'.isNegative = d.isNegative := by rw [Bool.eq_iff_iff, hs, hs', hn]
  obtain ⟨n, ⟨s, k⟩⟩ := d
  obtain ⟨n', ⟨s', k'⟩⟩ := d'
  dsimp only at hb
  subst hb
  have g1 : k < 1000000000 := h.2
  have g2 : k' < 1000000000 := h'.2
  unfold nanos at hn
  dsimp only at hn
  have : s' = s ∧ k' = k := by cases n' <;> simp only [Bool.false_eq_true, if_true, if_false] at hn <;> omega
  rw [this.1, this.2]

theorem cfgText_more {cfg cfg' : Config} (hmore : AllowsMore cfg cfg') (hc : CfgText cfg) : CfgText cfg' :=
  ⟨hmore.inner ▸ hc.inner, hmore.outer ▸ hc.outer, hmore.conjunctions ▸ hc.conjunctions⟩

section
variable (cfg cfg' : Config) (units units' : TimeUnitsLike) (keywords keywords' : Option TimeUnitsLike)
  (numerals numerals' : Option NumbersLike) (s : Bytes) (d : Duration)

/-- C86 and C63, several durations: a parser which allows more and knows more words returns the same duration. -/
theorem C86_multiple_exact (hs : IsText s) (hc : CfgText cfg) (hm : cfg.allowMultiple = true) (hmore : AllowsMore cfg cfg')
    (hcomp : CompatibleMultiple cfg cfg')
    (hunits : UnitsMore units units') (hkeywords : KeywordsMore keywords keywords') (hnumerals : NumeralsMore numerals numerals')
    (ho : Orderly cfg units' keywords' numerals') (h : parse cfg units keywords numerals s = .ok d) :
    parse cfg' units' keywords' numerals' s = .ok d := by
  obtain ⟨d', g1, g2, g3⟩ := C86_multiple cfg cfg' units units' keywords keywords' numerals numerals' s d hs hc hm hmore hcomp hunits
    hkeywords hnumerals ho h
  have hd' : ∀ b, cfg'.innerDelimiter b = true → cfg'.outerDelimiter b = true := by
    rw [hmore.inner, hmore.outer]; exact hcomp.delimiters
  have k1 := C99_sign cfg units keywords numerals s d hs hc hm (Or.inl hcomp.delimiters) h
  have k2 := C99_sign cfg' units' keywords' numerals' s d' hs (cfgText_more hmore hc) (hmore.multiple.trans hm) (Or.inl hd') g1
  rw [g1, duration_ext (parse_wf hs hc h) g2 g3 k1 k2]

theorem C63_multiple_exact (hs : IsText s) (hc : CfgText cfg) (hm : cfg.allowMultiple = true) (hmore : AllowsMore cfg cfg')
    (hcomp : CompatibleMultiple cfg cfg') (hunits : UnitsMore units units') (ho : Orderly cfg units' keywords numerals)
    (h : parse cfg units keywords numerals s = .ok d) : parse cfg' units' keywords numerals s = .ok d :=
  C86_multiple_exact cfg cfg' units units' keywords keywords numerals numerals s d hs hc hm hmore hcomp hunits
    (fun k hk _ _ h => ⟨k, hk, h⟩) (fun n hn _ _ h => ⟨n, hn, h⟩) ho h

/-- C63: what a parser of single durations returns is returned by the parser of several durations with the same settings, except that
a zero is not marked as negative. -/
theorem C63_single_multiple_exact (conjunctions : Option (List Bytes))
    (hs : IsText s) (hc : CfgText cfg) (hconj : ∀ ws, conjunctions = some ws → ∀ w ∈ ws, IsText w)
    (hm : cfg.allowMultiple = false) (hd : ∀ b, cfg.innerDelimiter b = true → cfg.outerDelimiter b = true)
    (ho : Orderly cfg units keywords numerals) (h : parse cfg units keywords numerals s = .ok d) :
    parse { cfg with allowMultiple := true, conjunctions := conjunctions } units keywords numerals s =
      .ok (if nanos d = 0 then ⟨false, ⟨0, 0⟩⟩ else d) := by
  obtain ⟨d', g1, g2, g3⟩ := C63_single_multiple cfg units keywords numerals conjunctions s d hs hc hconj hm hd ho h
  have k2 := C99_sign { cfg with allowMultiple := true, conjunctions := conjunctions } units keywords numerals s d' hs
    ⟨hc.inner, hc.outer, hconj⟩ rfl (Or.inl hd) g1
  rw [g1]
  congr 1
  by_cases h0 : nanos d = 0
  · rw [if_pos h0]
    exact duration_ext (by decide) g2 (g3.trans h0) (by decide) k2
  · rw [if_neg h0]
    refine duration_ext (parse_wf hs hc h) g2 g3 ?_ k2
    unfold nanos at *
    cases d.isNegative <;> simp at * <;> omega

end

/-- C63 for `DurationParser`. -/
theorem C63_standard_exact (units units' : List TimeUnit) (cfg cfg' : Config) (s : Bytes) (d : Duration)
    (hs : IsText s) (hc : CfgText cfg) (hm : cfg.allowMultiple = true)
    (hdelim : ∀ b, IsDelimiter cfg b → ¬ IsLetter b ∧ ¬ IsDigit b ∧ b ≠ 46)
    (hunits : ∀ u ∈ units, u ∈ units') (hmore : AllowsMore cfg cfg') (hcomp : CompatibleMultiple cfg cfg')
    (h : ({ DurationParser.withTimeUnits units with config := cfg } : DurationParser).parse s = .ok d) :
    ({ DurationParser.withTimeUnits units' with config := cfg' } : DurationParser).parse s = .ok d :=
  C63_multiple_exact cfg cfg' _ _ none none s d hs hc hm hmore hcomp (standard_more hunits) (standard_orderly cfg units' hdelim) h

/-- C86 for `CustomDurationParser`. -/
theorem C86_custom_exact (calls more : List CustomCall) (hmore : ∀ c ∈ more, AddsWords c) (p p' : CustomDurationParser)
    (hp : p = calls.foldl callCustomSetter CustomDurationParser.new) (hp' : p' = more.foldl callCustomSetter p)
    (hc : CfgText p.config)
    (ho : OrderlyTables p.config ((calls ++ more).flatMap CustomCall.units) ((calls ++ more).flatMap CustomCall.keywordUnits)
      ((calls ++ more).flatMap CustomCall.numeralList))
    (hu : Once ((calls ++ more).flatMap CustomCall.units))
    (hk : Once (((calls ++ more).flatMap CustomCall.keywordUnits).map (·.timeUnit)))
    (hd : p.config.allowMultiple = true → ∀ b, p.config.innerDelimiter b = true → p.config.outerDelimiter b = true)
    (s : Bytes) (hs : IsText s) (d : Duration) (h : p.parse s = .ok d) : p'.parse s = .ok d := by
  have hcfg : p'.config = p.config := by rw [hp']; exact adds_config more hmore p
  have e' : p' = (calls ++ more).foldl callCustomSetter CustomDurationParser.new := by rw [hp', hp, List.foldl_append]
  obtain ⟨t1, -, -⟩ := C35_custom_tables calls
  obtain ⟨t2, t3, t4⟩ := C35_custom_tables (calls ++ more)
  have ho := orderly_words ho
  rw [← t2, ← t3, ← t4, ← e'] at ho
  have k1 : UnitsMore p.timeUnits.like p'.timeUnits.like := by
    rw [hp, e', t1, t2]
    exact custom_units_more (by intro r hr; rw [List.flatMap_append]; exact List.mem_append_left _ hr) hu
  have k2 := keywords_more hk
  have k3 := numerals_more (calls := calls) (more := more)
  rw [← hp, ← e'] at k2 k3
  unfold CustomDurationParser.parse at h ⊢
  rw [hcfg]
  have hrefl : AllowsMore p.config p.config :=
    ⟨rfl, rfl, rfl, rfl, rfl, id, id, id, id, id, id, id, id⟩
  cases hm : p.config.allowMultiple with
  | false => exact C86_single p.config p.config _ _ _ _ _ _ s d hs hc hm hrefl k1 k2 k3 ho h
  | true =>
    exact C86_multiple_exact p.config p.config _ _ _ _ _ _ s d hs hc hm hrefl ⟨hd hm, Or.inl rfl, Or.inl rfl⟩ k1 k2 k3 ho h


/-- the hypotheses are met -/
example (s : Bytes) (hs : IsText s) (d : Duration)
    (h : ({ DurationParser.withTimeUnits [.nanoSecond, .microSecond, .milliSecond, .second, .minute, .hour, .day, .week] with
      config := strictMultiple } : DurationParser).parse s = .ok d) :
    ({ DurationParser.withTimeUnits allUnits with config := liberalMultiple } : DurationParser).parse s = .ok d := by
  exact C63_standard_exact _ allUnits strictMultiple liberalMultiple s d hs
    ⟨defaultConfig_text.inner, defaultConfig_text.outer, by intro ws h w hw; cases h; rw [List.mem_singleton.1 hw]; exact isText_ascii (by decide)⟩
    rfl (whitespace_delimiters _ rfl rfl) (by decide)
    ⟨rfl, rfl, rfl, rfl, rfl, by decide, by decide, by decide, by decide, by decide, by decide, by decide, by decide⟩
    strictMultiple_compatible h


end Fundu.Props
