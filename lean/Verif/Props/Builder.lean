import Verif.Spec.Calls
/-!
# Property C35: builders and setters agree

`lastSetting`, `AfterCalls` and the kinds of calls are in Spec/Calls.lean.
-/
namespace Fundu.Props
open Fundu Fundu.Spec

theorem lastSetting_foldl {κ α σ : Type} (setting : κ → Option α) (field : σ → α) (step : σ → κ → σ)
    (h : ∀ s k, field (step s k) = (setting k).getD (field s)) (calls : List κ) (s : σ) :
    field (calls.foldl step s) = lastSetting setting (field s) calls := by
  unfold lastSetting
  induction calls generalizing s with
  | nil => rfl
  | cons k ks ih =>
    rw [List.foldl_cons, ih, h, List.reverse_cons, List.findSome?_append]
    cases hq : ks.reverse.findSome? setting with
    | some x => rfl
    | none =>
      simp only [List.findSome?_cons, List.findSome?_nil, Option.none_or, Option.getD_none]
      cases setting k <;> rfl

theorem foldl_map_eq {κ κ' σ : Type} (f : κ → κ') (step : σ → κ' → σ) (l : List κ) (s : σ) :
    l.foldl (fun s k => step s (f k)) s = (l.map f).foldl step s := by
  rw [List.foldl_map]

/-- what all the methods have in common -/
theorem afterCalls_of {σ : Type} (config : σ → Config) (step : σ → SetterCall → σ)
    (h : ∀ s k, config (step s k) = (callStandardParser ⟨TimeUnits.new, config s⟩ k).config)
    (calls : List SetterCall) (s : σ) : AfterCalls (config s) calls (config (calls.foldl step s)) := by
  constructor
  case defaultMultiplier =>
    induction calls generalizing s with
    | nil => rfl
    | cons k ks ih =>
      rw [List.foldl_cons, ih, h]
      cases k with
      | allowAgo v => cases v <;> rfl
      | _ => rfl
  case defaultUnit =>
    refine lastSetting_foldl _ (fun s => (config s).defaultUnit) step (fun s k => ?_) calls s
    rw [h]
    cases k with
    | allowAgo v => cases v <;> rfl
    | _ => rfl
  case allowTimeUnitDelimiter =>
    refine lastSetting_foldl _ (fun s => (config s).allowTimeUnitDelimiter) step (fun s k => ?_) calls s
    rw [h]
    cases k with
    | allowAgo v => cases v <;> rfl
    | _ => rfl
  case allowSignDelimiter =>
    refine lastSetting_foldl _ (fun s => (config s).allowSignDelimiter) step (fun s k => ?_) calls s
    rw [h]
    cases k with
    | allowAgo v => cases v <;> rfl
    | _ => rfl
  case allowNegative =>
    refine lastSetting_foldl _ (fun s => (config s).allowNegative) step (fun s k => ?_) calls s
    rw [h]
    cases k with
    | allowAgo v => cases v <;> rfl
    | _ => rfl
  case allowAgo =>
    refine lastSetting_foldl _ (fun s => (config s).allowAgo) step (fun s k => ?_) calls s
    rw [h]
    cases k with
    | allowAgo v => cases v <;> rfl
    | _ => rfl
  case disableExponent =>
    refine lastSetting_foldl _ (fun s => (config s).disableExponent) step (fun s k => ?_) calls s
    rw [h]
    cases k with
    | allowAgo v => cases v <;> rfl
    | _ => rfl
  case disableFraction =>
    refine lastSetting_foldl _ (fun s => (config s).disableFraction) step (fun s k => ?_) calls s
    rw [h]
    cases k with
    | allowAgo v => cases v <;> rfl
    | _ => rfl
  case disableInfinity =>
    refine lastSetting_foldl _ (fun s => (config s).disableInfinity) step (fun s k => ?_) calls s
    rw [h]
    cases k with
    | allowAgo v => cases v <;> rfl
    | _ => rfl
  case numberIsOptional =>
    refine lastSetting_foldl _ (fun s => (config s).numberIsOptional) step (fun s k => ?_) calls s
    rw [h]
    cases k with
    | allowAgo v => cases v <;> rfl
    | _ => rfl
  case allowMultiple =>
    refine lastSetting_foldl _ (fun s => (config s).allowMultiple) step (fun s k => ?_) calls s
    rw [h]
    cases k with
    | allowAgo v => cases v <;> rfl
    | _ => rfl
  case conjunctions =>
    refine lastSetting_foldl _ (fun s => (config s).conjunctions) step (fun s k => ?_) calls s
    rw [h]
    cases k with
    | allowAgo v => cases v <;> rfl
    | _ => rfl
  case innerDelimiter =>
    refine lastSetting_foldl _ (fun s => (config s).innerDelimiter) step (fun s k => ?_) calls s
    rw [h]
    cases k with
    | allowAgo v => cases v <;> rfl
    | _ => rfl
  case outerDelimiter =>
    refine lastSetting_foldl _ (fun s => (config s).outerDelimiter) step (fun s k => ?_) calls s
    rw [h]
    cases k with
    | allowAgo v => cases v <;> rfl
    | _ => rfl

/-- C35: after any calls of setters each option of a `DurationParser` has the value of the last call
setting it (`allow_ago(true)` switches `allow_negative` on); the time units stay the same. -/
theorem C35_standard_setters (p : DurationParser) (calls : List SetterCall) :
    AfterCalls p.config calls (calls.foldl callStandardParser p).config ∧
    (calls.foldl callStandardParser p).timeUnits = p.timeUnits := by
  refine ⟨afterCalls_of (·.config) callStandardParser (fun s k => ?_) calls p, ?_⟩
  · cases k with
    | allowAgo v => cases v <;> rfl
    | _ => rfl
  · induction calls generalizing p with
    | nil => rfl
    | cons k ks ih =>
      rw [List.foldl_cons, ih]
      cases k with
      | allowAgo v => cases v <;> rfl
      | _ => rfl

/-- C35: the same for a `CustomDurationParser`. -/
theorem C35_custom_setters (p : CustomDurationParser) (calls : List SetterCall) :
    AfterCalls p.config calls (calls.foldl callCustomParser p).config ∧
    (calls.foldl callCustomParser p).timeUnits = p.timeUnits ∧
    (calls.foldl callCustomParser p).keywords = p.keywords ∧
    (calls.foldl callCustomParser p).numerals = p.numerals := by
  refine ⟨afterCalls_of (·.config) callCustomParser (fun s k => ?_) calls p, ?_⟩
  · cases k with
    | allowAgo v => cases v <;> rfl
    | _ => rfl
  · induction calls generalizing p with
    | nil => exact ⟨rfl, rfl, rfl⟩
    | cons k ks ih =>
      rw [List.foldl_cons]
      obtain ⟨h1, h2, h3⟩ := ih (callCustomParser p k)
      rw [h1, h2, h3]
      cases k with
      | allowAgo v => cases v <;> exact ⟨rfl, rfl, rfl⟩
      | _ => exact ⟨rfl, rfl, rfl⟩

/-- C35: a `ConfigBuilder` builds the default configuration changed by the calls. -/
theorem C35_config_builder (calls : List BuilderCall) :
    AfterCalls {} (calls.map BuilderCall.setter) (calls.foldl callConfigBuilder ConfigBuilder.new).build := by
  have h : ∀ b : ConfigBuilder,
      AfterCalls b.config (calls.map BuilderCall.setter) (calls.foldl callConfigBuilder b).config := by
    intro b
    have e : calls.foldl callConfigBuilder b =
        ⟨((calls.map BuilderCall.setter).foldl callStandardParser ⟨TimeUnits.new, b.config⟩).config⟩ := by
      induction calls generalizing b with
      | nil => rfl
      | cons k ks ih =>
        rw [List.foldl_cons, ih, List.map_cons, List.foldl_cons]
        cases k <;> rfl
    rw [e]
    exact (C35_standard_setters ⟨TimeUnits.new, b.config⟩ _).1
  exact h ConfigBuilder.new

/-- the time units chosen by the calls -/
def chosenUnits : StandardCall → Option TimeUnits
  | .defaultTimeUnits => some DurationParser.new.timeUnits
  | .allTimeUnits => some DurationParser.withAllTimeUnits.timeUnits
  | .timeUnits units => some (DurationParser.withTimeUnits units).timeUnits
  | .option _ => none

/-- the calls setting an option -/
def optionCall : StandardCall → Option BuilderCall
  | .option call => some call
  | _ => none

/-- C35: the parser built by a `DurationParserBuilder` is the parser with the time units chosen last (none at
the beginning), on which the corresponding setters were called in the same order. -/
theorem C35_standard_builder (calls : List StandardCall) :
    (calls.foldl callStandard DurationParserBuilder.new).build =
      ((calls.filterMap optionCall).map BuilderCall.setter).foldl callStandardParser
        { DurationParser.withoutTimeUnits with
          timeUnits := lastSetting chosenUnits DurationParser.withoutTimeUnits.timeUnits calls } := by
  have hcfg : ∀ (b : DurationParserBuilder) (p : DurationParser), b.config = p.config →
      (calls.foldl callStandard b).config =
        (((calls.filterMap optionCall).map BuilderCall.setter).foldl callStandardParser p).config := by
    induction calls with
    | nil => intro b p h; exact h
    | cons k ks ih =>
      intro b p h
      rw [List.foldl_cons]
      cases k with
      | option call =>
        show _ = ((call.setter :: (ks.filterMap optionCall).map BuilderCall.setter).foldl callStandardParser p).config
        rw [List.foldl_cons]
        apply ih
        cases call <;>
          simp only [callStandard, callStandardBuilder, BuilderCall.setter, callStandardParser,
            DurationParserBuilder.defaultUnit, DurationParserBuilder.allowTimeUnitDelimiter,
            DurationParserBuilder.allowSignDelimiter, DurationParserBuilder.allowNegative,
            DurationParserBuilder.allowAgo, DurationParserBuilder.disableExponent,
            DurationParserBuilder.disableFraction, DurationParserBuilder.disableInfinity,
            DurationParserBuilder.numberIsOptional, DurationParserBuilder.parseMultiple,
            DurationParserBuilder.innerDelimiter, DurationParserBuilder.outerDelimiter,
            DurationParser.defaultUnit, DurationParser.allowTimeUnitDelimiter,
            DurationParser.allowSignDelimiter, DurationParser.allowNegative,
            DurationParser.allowAgo, DurationParser.disableExponent,
            DurationParser.disableFraction, DurationParser.disableInfinity,
            DurationParser.numberIsOptional, DurationParser.parseMultiple,
            DurationParser.setInnerDelimiter, DurationParser.setOuterDelimiter, h, if_true]
      | _ => exact ih _ p h
  have hunits : (calls.foldl callStandard DurationParserBuilder.new).build.timeUnits =
      lastSetting chosenUnits DurationParser.withoutTimeUnits.timeUnits calls := by
    refine lastSetting_foldl chosenUnits (fun b => b.build.timeUnits) callStandard (fun b k => ?_) calls
      DurationParserBuilder.new
    cases k with
    | option call => cases call <;> (obtain ⟨c, cfg⟩ := b; cases c <;> rfl)
    | _ => rfl
  have hbuild : ∀ b : DurationParserBuilder, b.build.config = b.config := by
    intro b; obtain ⟨c, cfg⟩ := b; cases c <;> rfl
  have hext : ∀ a b : DurationParser, a.timeUnits = b.timeUnits → a.config = b.config → a = b := by
    intro a b h1 h2; cases a; cases b; simp only at h1 h2; rw [h1, h2]
  apply hext
  · rw [hunits, (C35_standard_setters _ _).2]
  · rw [hbuild]
    exact hcfg _ _ rfl

theorem foldl_timeUnit (p : CustomDurationParser) (us : List CustomTimeUnit) :
    us.foldl CustomDurationParser.timeUnit p =
      { p with timeUnits := us.foldl CustomTimeUnits.addCustomTimeUnit p.timeUnits } := by
  induction us generalizing p with
  | nil => rfl
  | cons u us ih => rw [List.foldl_cons, ih]; rfl

theorem foldl_keyword (p : CustomDurationParser) (ks : List TimeKeyword) :
    ks.foldl CustomDurationParser.keyword p =
      { p with keywords := ks.foldl (fun t k => t.addCustomTimeUnit k.toCustomTimeUnit) p.keywords } := by
  induction ks generalizing p with
  | nil => rfl
  | cons u us ih => rw [List.foldl_cons, ih]; rfl

theorem foldl_numeral (p : CustomDurationParser) (ns : List Numeral) :
    ns.foldl CustomDurationParser.numeral p = { p with numerals := p.numerals ++ ns } := by
  induction ns generalizing p with
  | nil => simp
  | cons u us ih => rw [List.foldl_cons, ih]; simp [CustomDurationParser.numeral]

theorem foldl_timeUnit_builder (b : CustomDurationParserBuilder) (us : List CustomTimeUnit) :
    us.foldl CustomDurationParserBuilder.timeUnit b = { b with timeUnits := b.timeUnits ++ us } := by
  induction us generalizing b with
  | nil => simp
  | cons u us ih => rw [List.foldl_cons, ih]; simp [CustomDurationParserBuilder.timeUnit]

theorem foldl_keyword_builder (b : CustomDurationParserBuilder) (us : List TimeKeyword) :
    us.foldl CustomDurationParserBuilder.keyword b = { b with keywords := b.keywords ++ us } := by
  induction us generalizing b with
  | nil => simp
  | cons u us ih => rw [List.foldl_cons, ih]; simp [CustomDurationParserBuilder.keyword]

theorem foldl_numeral_builder (b : CustomDurationParserBuilder) (us : List Numeral) :
    us.foldl CustomDurationParserBuilder.numeral b = { b with numerals := b.numerals ++ us } := by
  induction us generalizing b with
  | nil => simp
  | cons u us ih => rw [List.foldl_cons, ih]; simp [CustomDurationParserBuilder.numeral]

theorem build_callCustom (b : CustomDurationParserBuilder) (k : CustomCall) :
    (callCustom b k).build = callCustomSetter b.build k := by
  cases k with
  | timeUnit u =>
    simp [callCustom, callCustomSetter, CustomDurationParserBuilder.timeUnit, CustomDurationParserBuilder.build,
      CustomDurationParser.timeUnit, CustomTimeUnits.withTimeUnits]
  | timeUnits us =>
    simp [callCustom, callCustomSetter, CustomDurationParserBuilder.addTimeUnits, foldl_timeUnit_builder,
      CustomDurationParser.addTimeUnits, foldl_timeUnit, CustomDurationParserBuilder.build,
      CustomTimeUnits.withTimeUnits]
  | keyword u =>
    simp [callCustom, callCustomSetter, CustomDurationParserBuilder.keyword, CustomDurationParserBuilder.build,
      CustomDurationParser.keyword, CustomTimeUnits.withKeywords]
  | keywords us =>
    simp [callCustom, callCustomSetter, CustomDurationParserBuilder.addKeywords, foldl_keyword_builder,
      CustomDurationParser.addKeywords, foldl_keyword, CustomDurationParserBuilder.build,
      CustomTimeUnits.withKeywords]
  | numeral u => rfl
  | numerals us =>
    simp [callCustom, callCustomSetter, CustomDurationParserBuilder.addNumerals, foldl_numeral_builder,
      CustomDurationParser.addNumerals, foldl_numeral, CustomDurationParserBuilder.build]
  | option call => cases call <;> rfl

/-- C35: the parser built by a `CustomDurationParserBuilder` is the new parser on which the corresponding
methods were called in the same order. -/
theorem C35_custom_builder (calls : List CustomCall) :
    (calls.foldl callCustom CustomDurationParserBuilder.new).build =
      calls.foldl callCustomSetter CustomDurationParser.new := by
  have h : ∀ b : CustomDurationParserBuilder,
      (calls.foldl callCustom b).build = calls.foldl callCustomSetter b.build := by
    induction calls with
    | nil => intro b; rfl
    | cons k ks ih => intro b; rw [List.foldl_cons, List.foldl_cons, ih, build_callCustom]
  exact h CustomDurationParserBuilder.new

/-- C35: the tables depend only on the registered units, keywords and numerals, in the order of the calls. -/
theorem C35_custom_tables (calls : List CustomCall) :
    let p := calls.foldl callCustomSetter CustomDurationParser.new
    p.timeUnits = CustomTimeUnits.withTimeUnits (calls.flatMap CustomCall.units) ∧
    p.keywords = CustomTimeUnits.withKeywords (calls.flatMap CustomCall.keywordUnits) ∧
    p.numerals = calls.flatMap CustomCall.numeralList := by
  have h : ∀ p : CustomDurationParser,
      let q := calls.foldl callCustomSetter p
      q.timeUnits = (calls.flatMap CustomCall.units).foldl CustomTimeUnits.addCustomTimeUnit p.timeUnits ∧
      q.keywords = (calls.flatMap CustomCall.keywordUnits).foldl
        (fun t k => t.addCustomTimeUnit k.toCustomTimeUnit) p.keywords ∧
      q.numerals = p.numerals ++ calls.flatMap CustomCall.numeralList := by
    induction calls with
    | nil => intro p; simp
    | cons k ks ih =>
      intro p
      obtain ⟨h1, h2, h3⟩ := ih (callCustomSetter p k)
      simp only [List.foldl_cons, List.flatMap_cons, List.foldl_append] at *
      rw [h1, h2, h3]
      cases k with
      | timeUnit u => exact ⟨rfl, rfl, rfl⟩
      | timeUnits us =>
        simp only [callCustomSetter, CustomDurationParser.addTimeUnits, foldl_timeUnit]
        exact ⟨rfl, rfl, rfl⟩
      | keyword u => exact ⟨rfl, rfl, rfl⟩
      | keywords us =>
        simp only [callCustomSetter, CustomDurationParser.addKeywords, foldl_keyword]
        exact ⟨rfl, rfl, rfl⟩
      | numeral u =>
        simp [callCustomSetter, CustomDurationParser.numeral, CustomCall.units, CustomCall.keywordUnits,
          CustomCall.numeralList]
      | numerals us =>
        simp [callCustomSetter, CustomDurationParser.addNumerals, foldl_numeral, CustomCall.units,
          CustomCall.keywordUnits, CustomCall.numeralList]
      | option call => cases call <;> exact ⟨rfl, rfl, rfl⟩
  exact h CustomDurationParser.new

/-- the last call counts, and `allow_ago` does not switch `allow_negative` off -/
example :
    (([.allowNegative true, .allowAgo false, .disableFraction true, .disableFraction false] :
      List SetterCall).foldl callStandardParser DurationParser.new).config.allowNegative = true ∧
    (([.allowNegative true, .allowAgo false, .disableFraction true, .disableFraction false] :
      List SetterCall).foldl callStandardParser DurationParser.new).config.disableFraction = false ∧
    (([.allowAgo true, .allowNegative false] :
      List SetterCall).foldl callStandardParser DurationParser.new).config.allowNegative = false := by decide

end Fundu.Props
