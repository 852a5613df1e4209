import Verif.Proofs.DistinctFacts
import Verif.Props.Gate
import Verif.Props.Bare
/-! # C119: parsers with different options or time units can be told apart -/
namespace Fundu.Props
open Fundu Spec Distinct

section
variable {c c' : Config} (hc : PlainDelimiters c) (hc' : PlainDelimiters c') {us us' : List TimeUnit} (hu : us ≠ []) (hu' : us' ≠ [])
  (h : ∀ s, IsText s → parse c (table us) none none s = parse c' (table us') none none s)
include hc hc' hu hu' h

theorem distinct_unit : c.defaultUnit = c'.defaultUnit := by
  have k := h (b! "1") ((isText_iff _).2 (by decide +kernel))
  rw [runPlain hc us hu _ (by decide), runPlain hc' us' hu' _ (by decide)] at k
  have e1 := eval_one c.defaultUnit (mem_all _) c.allowMultiple c.allowNegative c.numberIsOptional
  have e2 := eval_one c'.defaultUnit (mem_all _) c'.allowMultiple c'.allowNegative c'.numberIsOptional
  exact eval_lengths _ (mem_all _) _ (mem_all _) (e1.symm.trans (k.trans e2))

theorem distinct_multiple : c.allowMultiple = c'.allowMultiple := by
  have k := h (b! "1 1") ((isText_iff _).2 (by decide +kernel))
  rw [runPlain hc us hu _ (by decide), runPlain hc' us' hu' _ (by decide)] at k
  have e1 := eval_two c.defaultUnit (mem_all _) c.allowMultiple c.allowNegative c.numberIsOptional c.allowTimeUnitDelimiter c.allowAgo
  have e2 := eval_two c'.defaultUnit (mem_all _) c'.allowMultiple c'.allowNegative c'.numberIsOptional c'.allowTimeUnitDelimiter c'.allowAgo
  exact e1.symm.trans ((congrArg accepted k).trans e2)

theorem distinct_negative : c.allowNegative = c'.allowNegative := by
  have k := h (b! "-1") ((isText_iff _).2 (by decide +kernel))
  rw [runPlain hc us hu _ (by decide), runPlain hc' us' hu' _ (by decide)] at k
  have e1 := eval_minus c.defaultUnit (mem_all _) c.allowMultiple c.allowNegative c.numberIsOptional
  have e2 := eval_minus c'.defaultUnit (mem_all _) c'.allowMultiple c'.allowNegative c'.numberIsOptional
  exact e1.symm.trans ((congrArg accepted k).trans e2)

theorem distinct_fraction : c.disableFraction = c'.disableFraction := by
  have k := h (b! "1.5") ((isText_iff _).2 (by decide +kernel))
  rw [runPlain hc us hu _ (by decide), runPlain hc' us' hu' _ (by decide)] at k
  have e1 := eval_fraction c.defaultUnit (mem_all _) c.allowMultiple c.allowNegative c.numberIsOptional c.disableFraction
  have e2 := eval_fraction c'.defaultUnit (mem_all _) c'.allowMultiple c'.allowNegative c'.numberIsOptional c'.disableFraction
  exact Bool.not_inj (e1.symm.trans ((congrArg accepted k).trans e2))

theorem distinct_exponent : c.disableExponent = c'.disableExponent := by
  have k := h (b! "1e1") ((isText_iff _).2 (by decide +kernel))
  rw [runPlain hc us hu _ (by decide), runPlain hc' us' hu' _ (by decide)] at k
  have e1 := eval_exponent c.defaultUnit (mem_all _) c.allowMultiple c.allowNegative c.numberIsOptional c.disableExponent
  have e2 := eval_exponent c'.defaultUnit (mem_all _) c'.allowMultiple c'.allowNegative c'.numberIsOptional c'.disableExponent
  exact Bool.not_inj (e1.symm.trans ((congrArg accepted k).trans e2))

theorem distinct_infinity : c.disableInfinity = c'.disableInfinity := by
  have k := h (b! "inf") ((isText_iff _).2 (by decide +kernel))
  rw [runPlain hc us hu _ (by decide), runPlain hc' us' hu' _ (by decide)] at k
  have e1 := eval_infinity c.defaultUnit (mem_all _) c.allowMultiple c.allowNegative c.numberIsOptional c.disableInfinity
  have e2 := eval_infinity c'.defaultUnit (mem_all _) c'.allowMultiple c'.allowNegative c'.numberIsOptional c'.disableInfinity
  exact Bool.not_inj (e1.symm.trans ((congrArg accepted k).trans e2))

theorem distinct_sign : c.allowSignDelimiter = c'.allowSignDelimiter := by
  have k := h (b! "+ 1") ((isText_iff _).2 (by decide +kernel))
  rw [runPlain hc us hu _ (by decide), runPlain hc' us' hu' _ (by decide)] at k
  have e1 := eval_sign c.defaultUnit (mem_all _) c.allowMultiple c.allowNegative c.numberIsOptional c.allowSignDelimiter c.allowAgo
  have e2 := eval_sign c'.defaultUnit (mem_all _) c'.allowMultiple c'.allowNegative c'.numberIsOptional c'.allowSignDelimiter c'.allowAgo
  exact e1.symm.trans ((congrArg accepted k).trans e2)

end

/-- the fact for the text `1u`, for any parser -/
theorem accepts_unit {c : Config} (hc : PlainDelimiters c) (us : List TimeUnit) (u : TimeUnit) :
    accepted (parse c (table us) none none (b! "1" ++ u.defaultIdentifier)) = decide (u ∈ us) := by
  have hs : ∀ u ∈ allUnits, ∀ w ∈ allUnits, w.defaultIdentifier <:+: b! "1" ++ u.defaultIdentifier → w = u ∨ w ∈ others u := by decide +kernel
  obtain ⟨sub, h1, tail, h2, e⟩ := runUnit hc us u _ (hs u (mem_all u))
  have ht : tail ∈ [[], [filler u]] := by
    rcases h2 with ⟨-, rfl⟩ | ⟨-, rfl⟩ <;> simp
  rw [e]
  have el : lite (b! "1" ++ u.defaultIdentifier) c = { defaultUnit := c.defaultUnit, allowMultiple := c.allowMultiple, allowNegative := c.allowNegative, numberIsOptional := c.numberIsOptional } := by
    cases u <;> rfl
  rw [el]
  exact eval_unit u (mem_all u) sub h1 tail ht _ _ (mem_all _) _ _ _

section
variable {c : Config} (hc : PlainDelimiters c) (us : List TimeUnit) (u : TimeUnit) (hu : u ∈ us)
include hc hu

theorem run_known (s : Bytes) (hs : ∀ w ∈ allUnits, w.defaultIdentifier <:+: s → w = u ∨ w ∈ others u) :
    ∃ sub ∈ subs (others u), parse c (table us) none none s = parse (lite s c) (table (canon u true sub [filler u])) none none s := by
  obtain ⟨sub, h1, tail, h2, e⟩ := runUnit hc us u s hs
  refine ⟨sub, h1, ?_⟩
  rcases h2 with ⟨rfl, -⟩ | ⟨-, rfl⟩
  · cases hu
  · rw [e, decide_eq_true hu]

theorem accepts_optional : accepted (parse c (table us) none none u.defaultIdentifier) = c.numberIsOptional := by
  have hs : ∀ u ∈ allUnits, ∀ w ∈ allUnits, w.defaultIdentifier <:+: u.defaultIdentifier → w = u ∨ w ∈ others u := by decide +kernel
  obtain ⟨sub, h1, e⟩ := run_known hc us u hu _ (hs u (mem_all u))
  have el : lite u.defaultIdentifier c = { defaultUnit := c.defaultUnit, allowMultiple := c.allowMultiple, allowNegative := c.allowNegative, numberIsOptional := c.numberIsOptional } := by
    cases u <;> rfl
  rw [e, el]
  exact eval_optional u (mem_all u) sub h1 _ (mem_all _) _ _ _

theorem accepts_ago : (accepted (parse c (table us) none none (b! "1" ++ u.defaultIdentifier ++ b! " ago")) ||
    decide (parse c (table us) none none (b! "1" ++ u.defaultIdentifier ++ b! " ago") = fail .negativeNumber)) = c.allowAgo := by
  have hs : ∀ u ∈ allUnits, ∀ w ∈ allUnits, w.defaultIdentifier <:+: b! "1" ++ u.defaultIdentifier ++ b! " ago" → w = u ∨ w ∈ others u := by
    decide +kernel
  obtain ⟨sub, h1, e⟩ := run_known hc us u hu _ (hs u (mem_all u))
  have el : lite (b! "1" ++ u.defaultIdentifier ++ b! " ago") c = { defaultUnit := c.defaultUnit, allowMultiple := c.allowMultiple, allowNegative := c.allowNegative, numberIsOptional := c.numberIsOptional, allowAgo := c.allowAgo } := by
    cases u <;> rfl
  rw [e, el]
  exact eval_ago u (mem_all u) sub h1 _ (mem_all _) _ _ _ _

theorem accepts_delimiter : decide (parse c (table us) none none (b! "1 " ++ u.defaultIdentifier) =
    parse { defaultUnit := u } (table []) none none (b! "1")) = c.allowTimeUnitDelimiter := by
  have hs : ∀ u ∈ allUnits, ∀ w ∈ allUnits, w.defaultIdentifier <:+: b! "1 " ++ u.defaultIdentifier → w = u ∨ w ∈ others u := by decide +kernel
  obtain ⟨sub, h1, e⟩ := run_known hc us u hu _ (hs u (mem_all u))
  have el : lite (b! "1 " ++ u.defaultIdentifier) c = { defaultUnit := c.defaultUnit, allowMultiple := c.allowMultiple, allowNegative := c.allowNegative, numberIsOptional := c.numberIsOptional, allowTimeUnitDelimiter := c.allowTimeUnitDelimiter, allowAgo := c.allowAgo } := by
    cases u <;> rfl
  rw [e, el]
  exact eval_delimiter u (mem_all u) sub h1 _ (mem_all _) _ _ _ _ _

end

/-- C119: two parsers with time units and the default delimiters give the same results for all texts only if they have the same time units
and the same options. -/
theorem C119_apart (c c' : Config) (hc : PlainDelimiters c) (hc' : PlainDelimiters c') (us us' : List TimeUnit) (hne : us ≠ []) (p p' : DurationParser)
    (hp : p.timeUnits = (DurationParser.withTimeUnits us).timeUnits) (hp' : p'.timeUnits = (DurationParser.withTimeUnits us').timeUnits)
    (hpc : p.config = c) (hpc' : p'.config = c') :
    (∀ s, IsText s → p.parse s = p'.parse s) ↔ (∀ u, u ∈ us ↔ u ∈ us') ∧ SameSettings c c' := by
  have e : ∀ s, p.parse s = parse c (table us) none none s := by
    intro s; show parse p.config p.timeUnits.like none none s = _; rw [hp, hpc]
  have e' : ∀ s, p'.parse s = parse c' (table us') none none s := by
    intro s; show parse p'.config p'.timeUnits.like none none s = _; rw [hp', hpc']
  simp only [e, e']
  constructor
  · intro h
    have hmem : ∀ u, u ∈ us ↔ u ∈ us' := by
      intro u
      have k := congrArg accepted (h (b! "1" ++ u.defaultIdentifier) ((isText_iff _).2 (by cases u <;> decide +kernel)))
      rw [accepts_unit hc, accepts_unit hc'] at k
      exact decide_eq_decide.1 k
    obtain ⟨u, hu⟩ := List.exists_mem_of_ne_nil us hne
    have hu' := (hmem u).1 hu
    have hne' : us' ≠ [] := List.ne_nil_of_mem hu'
    refine ⟨hmem, ?_⟩
    have k1 := distinct_unit hc hc' hne hne' h
    have k2 := distinct_multiple hc hc' hne hne' h
    have k3 := distinct_negative hc hc' hne hne' h
    have k4 := distinct_fraction hc hc' hne hne' h
    have k5 := distinct_exponent hc hc' hne hne' h
    have k6 := distinct_infinity hc hc' hne hne' h
    have k7 := distinct_sign hc hc' hne hne' h
    have k8 : c.numberIsOptional = c'.numberIsOptional := by
      rw [← accepts_optional hc us u hu, ← accepts_optional hc' us' u hu', h _ ((isText_iff _).2 (by cases u <;> decide +kernel))]
    have k9 : c.allowAgo = c'.allowAgo := by
      rw [← accepts_ago hc us u hu, ← accepts_ago hc' us' u hu', h _ ((isText_iff _).2 (by cases u <;> decide +kernel))]
    have k10 : c.allowTimeUnitDelimiter = c'.allowTimeUnitDelimiter := by
      rw [← accepts_delimiter hc us u hu, ← accepts_delimiter hc' us' u hu', h _ ((isText_iff _).2 (by cases u <;> decide +kernel))]
    have k11 := hc.inner.trans hc'.inner.symm
    have k12 := hc.outer.trans hc'.outer.symm
    have k13 := hc.conjunctions.trans hc'.conjunctions.symm
    unfold SameSettings
    clear h e e' hc hc' hpc hpc'
    cases c; cases c'
    simp only at k1 k2 k3 k4 k5 k6 k7 k8 k9 k10 k11 k12 k13
    subst k1 k2 k3 k4 k5 k6 k7 k8 k9 k10 k11 k12 k13
    rfl
  · rintro ⟨hmem, hs⟩ s -
    have : parse c' (table us') none none s = parse c (table us') none none s := by
      have k := C65_default_multiplier c' (table us') none none s c.defaultMultiplier
      unfold SameSettings at hs
      rw [hs] at k
      exact k.symm
    rw [this]
    refine (C104_standard us us' ⟨(DurationParser.withTimeUnits us).timeUnits, c⟩ ⟨(DurationParser.withTimeUnits us').timeUnits, c⟩ rfl rfl rfl ?_ s
      fun u _ => (hmem u).symm).symm
    simp only [List.eq_nil_iff_forall_not_mem, hmem]

/-- C119: so a call of a setter of a parser with the default delimiters changes the result of some text, unless the option was already set
like this. -/
theorem C119_call (us : List TimeUnit) (hne : us ≠ []) (p : DurationParser) (hp : p.timeUnits = (DurationParser.withTimeUnits us).timeUnits)
    (call : SetterCall) (hc : PlainDelimiters p.config) (hc' : PlainDelimiters (callStandardParser p call).config) :
    (∃ s, IsText s ∧ (callStandardParser p call).parse s ≠ p.parse s) ↔ (callStandardParser p call).config ≠ p.config := by
  have k := C119_apart _ _ hc' hc us us hne (callStandardParser p call) p ((standard_one (s := []) p call).1.trans hp) hp rfl rfl
  have hd : (callStandardParser p call).config.defaultMultiplier = p.config.defaultMultiplier := by cases call <;> first | rfl | (unfold callStandardParser; split <;> rfl) | (simp [callStandardParser, DurationParser.allowAgo]; split <;> rfl)
  have hs : SameSettings (callStandardParser p call).config p.config ↔ (callStandardParser p call).config = p.config := by
    unfold SameSettings
    rw [hd]
    exact eq_comm
  rw [← not_iff_not, not_exists, not_not, ← hs]
  simp only [not_and, not_not]
  rw [k]
  exact ⟨fun h => h.2, fun h => ⟨fun _ => Iff.rfl, h⟩⟩

/-! ## Examples -/

/-- these parsers do not have the same results: `allowAgo` allows negative durations too, but not the other way round -/
example : ∃ s, IsText s ∧ (callStandardParser (DurationParser.new.allowNegative true) (.allowAgo true)).parse s ≠ (DurationParser.new.allowNegative true).parse s :=
  (C119_call [.nanoSecond, .microSecond, .milliSecond, .second, .minute, .hour, .day, .week] (by decide) (DurationParser.new.allowNegative true) rfl
    (.allowAgo true) ⟨rfl, rfl, rfl⟩ ⟨rfl, rfl, rfl⟩).2 fun h => absurd (congrArg Config.allowAgo h) (by decide)

example : ∃ s, IsText s ∧ (DurationParser.withTimeUnits [.month, .second]).parse s ≠ (DurationParser.withTimeUnits [.second]).parse s := by
  by_contra h
  have h := not_exists.1 h
  simp only [not_and, not_not] at h
  have k := (C119_apart {} {} ⟨rfl, rfl, rfl⟩ ⟨rfl, rfl, rfl⟩ [.month, .second] [.second] (by decide) (DurationParser.withTimeUnits [.month, .second])
    (DurationParser.withTimeUnits [.second]) rfl rfl rfl rfl).1 h
  exact absurd ((k.1 .month).1 (by decide)) (by decide)

/-- the order in which the time units are given has no influence -/
example (s : Bytes) (ht : IsText s) : (DurationParser.withTimeUnits [.month, .second, .month]).parse s = (DurationParser.withTimeUnits [.second, .month]).parse s :=
  (C119_apart {} {} ⟨rfl, rfl, rfl⟩ ⟨rfl, rfl, rfl⟩ [.month, .second, .month] [.second, .month] (by decide) _ _ rfl rfl rfl rfl).2
    ⟨by intro u; cases u <;> decide, rfl⟩ s ht

theorem none_get (id : Bytes) : (table []).get id = none := by
  cases hg : (table []).get id with
  | none => rfl
  | some r =>
    obtain ⟨u, hu, -⟩ := (C34_get [] id r).1 hg
    cases hu

/-- C119, the condition is needed: without time units an option can be useless, here `number_is_optional` -/
theorem C119_condition_needed : (∀ s, IsText s → (DurationParser.withoutTimeUnits.numberIsOptional true).parse s = DurationParser.withoutTimeUnits.parse s) ∧
    (DurationParser.withoutTimeUnits.numberIsOptional true).config.numberIsOptional ≠ DurationParser.withoutTimeUnits.config.numberIsOptional := by
  have ha : AsciiDelimiter isAsciiWhitespace := by
    have key : ∀ n < 256, isAsciiWhitespace (UInt8.ofNat n) = true → (UInt8.ofNat n).toNat < 128 := by decide +kernel
    intro b h
    have k := key b.toNat b.toNat_lt
    rw [UInt8.ofNat_toNat] at k
    exact k h
  refine ⟨fun s hs => ?_, by decide⟩
  refine C117_single {} true (table []) none none s hs ⟨ha, ha, fun ws h => by cases h⟩ rfl ?_
  have unit : ∀ r u l, ¬ UnitSingle {} (table []) r u l := by
    rintro r u l (⟨h, k⟩ | ⟨h, -, -, k⟩ | ⟨h, -, -, k, -, -⟩) <;> simp [none_get] at k
  rintro ⟨neg, r, -, -, h⟩
  refine h ⟨fun ⟨u, l, k⟩ => unit _ _ _ k, ?_⟩
  rintro ⟨f, ⟨-, -, -, k, -⟩ | ⟨k, -⟩⟩
  · simp [none_get] at k
  · exact unit _ _ _ k

end Fundu.Props
