import Verif.Proofs.OptionsMultiple
import Verif.Props.Standard
/-!
# Property C63: allowing more does not change the meaning of accepted texts
-/
namespace Fundu.Props
open Fundu Fundu.Spec

theorem parse_wf {cfg : Config} {units : TimeUnitsLike} {keywords : Option TimeUnitsLike} {numerals : Option NumbersLike}
    {s : Bytes} {d : Duration} (hs : IsText s) (hc : CfgText cfg) (h : parse cfg units keywords numerals s = .ok d) : d.WF := by
  rcases C23_only_multiplication_panics cfg units keywords numerals s hs hc with ⟨d', h', hw⟩ | ⟨e, h'⟩ | h' <;> rw [h] at h'
  · cases h'; exact hw
  · cases h'
  · cases h'

/-- C63: if every option of `cfg` is also allowed by `cfg'` and every unit of `units` is a unit of `units'` with the same
meaning, then a text accepted with `cfg` and `units` is accepted with `cfg'` and `units'`, with the same result (single durations). -/
theorem C63_single (cfg cfg' : Config) (units units' : TimeUnitsLike) (keywords : Option TimeUnitsLike)
    (numerals : Option NumbersLike) (s : Bytes) (d : Duration)
    (hs : IsText s) (hc : CfgText cfg) (hm : cfg.allowMultiple = false)
    (hmore : AllowsMore cfg cfg') (hunits : UnitsMore units units') (ho : Orderly cfg units' keywords numerals)
    (h : parse cfg units keywords numerals s = .ok d) :
    parse cfg' units' keywords numerals s = .ok d := by
  have hc' : CfgText cfg' := ⟨hmore.inner ▸ hc.inner, hmore.outer ▸ hc.outer, hmore.conjunctions ▸ hc.conjunctions⟩
  exact (C27_single cfg' units' keywords numerals s d hs hc' (hmore.multiple.trans hm)).2
    (more_denotesSingle hmore hunits ho ((C27_single cfg units keywords numerals s d hs hc hm).1 h))

/-- C63: the same for several durations. -/
theorem C63_multiple (cfg cfg' : Config) (units units' : TimeUnitsLike) (keywords : Option TimeUnitsLike)
    (numerals : Option NumbersLike) (s : Bytes) (d : Duration)
    (hs : IsText s) (hc : CfgText cfg) (hm : cfg.allowMultiple = true)
    (hmore : AllowsMore cfg cfg') (hcomp : CompatibleMultiple cfg cfg')
    (hunits : UnitsMore units units') (ho : Orderly cfg units' keywords numerals)
    (h : parse cfg units keywords numerals s = .ok d) :
    ∃ d', parse cfg' units' keywords numerals s = .ok d' ∧ d'.WF ∧ nanos d' = nanos d := by
  have hc' : CfgText cfg' := ⟨hmore.inner ▸ hc.inner, hmore.outer ▸ hc.outer, hmore.conjunctions ▸ hc.conjunctions⟩
  have hd' : ∀ b, cfg'.innerDelimiter b = true → cfg'.outerDelimiter b = true := by
    rw [hmore.inner, hmore.outer]; exact hcomp.delimiters
  refine (C27_multiple cfg' units' keywords numerals s (nanos d) hs hc' (hmore.multiple.trans hm) (Or.inl hd')).2 ?_
  obtain ⟨ds, h1, h2⟩ := (C27_multiple cfg units keywords numerals s (nanos d) hs hc hm (Or.inl hcomp.delimiters)).1
    ⟨d, h, parse_wf hs hc h, rfl⟩
  exact ⟨ds, more_denotesMultiple hmore hcomp hunits ho h1, h2⟩

/-- C63: a text accepted by a parser of single durations is accepted by the parser of several durations with the
same settings, with the same result. -/
theorem C63_single_multiple (cfg : Config) (units : TimeUnitsLike) (keywords : Option TimeUnitsLike)
    (numerals : Option NumbersLike) (conjunctions : Option (List Bytes)) (s : Bytes) (d : Duration)
    (hs : IsText s) (hc : CfgText cfg) (hconj : ∀ ws, conjunctions = some ws → ∀ w ∈ ws, IsText w)
    (hm : cfg.allowMultiple = false)
    (hd : ∀ b, cfg.innerDelimiter b = true → cfg.outerDelimiter b = true)
    (ho : Orderly cfg units keywords numerals)
    (h : parse cfg units keywords numerals s = .ok d) :
    ∃ d', parse { cfg with allowMultiple := true, conjunctions := conjunctions } units keywords numerals s = .ok d' ∧
      d'.WF ∧ nanos d' = nanos d := by
  have h1 := (C27_single cfg units keywords numerals s d hs hc hm).1 h
  refine (C27_multiple (asMultiple cfg conjunctions) units keywords numerals s (nanos d) hs
    ⟨hc.inner, hc.outer, hconj⟩ rfl (Or.inl hd)).2 ?_
  refine ⟨[d], denotesMultiple_of_single hd ho conjunctions h1, ?_⟩
  have := clamp_nanos (parse_wf hs hc h)
  show nanos d = clamp (0 + nanos d)
  rw [Int.zero_add, this]

/-! ## The standard parser -/

theorem standard_orderly (cfg : Config) (units : List TimeUnit)
    (hd : ∀ b, IsDelimiter cfg b → ¬ IsLetter b ∧ ¬ IsDigit b ∧ b ≠ 46) :
    Orderly cfg (DurationParser.withTimeUnits units).timeUnits.like none none := by
  have hid : ∀ {P : Bytes → Prop}, (∀ u : TimeUnit, P u.defaultIdentifier) →
      ∀ id, IsIdentifier (DurationParser.withTimeUnits units).timeUnits.like none none id → P id := by
    rintro P hP id (⟨u, h⟩ | ⟨k, u, h, -⟩ | ⟨n, q, h, -⟩)
    · obtain ⟨u, -, rfl, -⟩ := (C34_get units id _).1 h
      exact hP u
    · cases h
    · cases h
  refine ⟨hd, hid ?_, hid ?_, hid ?_, hid ?_, hid ?_, ?_, ?_, ?_⟩
  · intro u; cases u <;> decide
  · have : ∀ u : TimeUnit, ∀ b ∈ u.defaultIdentifier, IsLetter b ∧ ¬ NextDuration b := by
      intro u; cases u <;> decide
    intro u b hb
    exact ⟨fun h => (hd b h).1 (this u b hb).1, (this u b hb).2⟩
  · rintro u ⟨b, l, h, hb⟩
    subst hb
    revert h
    cases u <;> simp [TimeUnit.defaultIdentifier] <;> decide
  · rintro u ⟨r, x, h, hx⟩
    have h1 := congrArg List.length h
    have h2 := congrArg List.length hx
    have h3 : u.defaultIdentifier.length ≤ 2 := by cases u <;> decide
    rw [List.length_append] at h1
    have : (b! "inf").length = 3 := by decide
    simp only [List.length_map] at h2
    omega
  · intro u; cases u <;> decide
  · intro k h; cases h
  · intro n h; cases h
  · intro k n h; cases h

theorem standard_more {units units' : List TimeUnit} (h : ∀ u ∈ units, u ∈ units') :
    UnitsMore (DurationParser.withTimeUnits units).timeUnits.like (DurationParser.withTimeUnits units').timeUnits.like := by
  refine ⟨fun id r => ?_, ?_, ?_⟩
  · rw [C34_get, C34_get]
    rintro ⟨u, hu, k⟩
    exact ⟨u, h u hu, k⟩
  · rw [C34_is_empty, C34_is_empty]
    rintro rfl
    exact List.eq_nil_iff_forall_not_mem.2 fun u hu => absurd (h u hu) (by simp)
  · rw [C34_is_empty]
    rintro rfl id
    cases hg : (DurationParser.withTimeUnits []).timeUnits.like.get id with
    | none => rfl
    | some r =>
      obtain ⟨u, hu, -⟩ := (C34_get [] id r).1 hg
      cases hu

/-- C63 for `DurationParser`: of two parsers of single durations with the same delimiters and default unit, the second having
at least the units of the first and all it allows, the second accepts what the first accepts, with the same result. -/
theorem C63_standard (units units' : List TimeUnit) (cfg cfg' : Config) (s : Bytes) (d : Duration)
    (hs : IsText s) (hc : CfgText cfg) (hm : cfg.allowMultiple = false)
    (hdelim : ∀ b, IsDelimiter cfg b → ¬ IsLetter b ∧ ¬ IsDigit b ∧ b ≠ 46)
    (hunits : ∀ u ∈ units, u ∈ units') (hmore : AllowsMore cfg cfg')
    (h : ({ DurationParser.withTimeUnits units with config := cfg } : DurationParser).parse s = .ok d) :
    ({ DurationParser.withTimeUnits units' with config := cfg' } : DurationParser).parse s = .ok d :=
  C63_single cfg cfg' _ _ none none s d hs hc hm hmore (standard_more hunits) (standard_orderly cfg units' hdelim) h

/-- C63 for `DurationParser`, several durations. -/
theorem C63_standard_multiple (units units' : List TimeUnit) (cfg cfg' : Config) (s : Bytes) (d : Duration)
    (hs : IsText s) (hc : CfgText cfg) (hm : cfg.allowMultiple = true)
    (hdelim : ∀ b, IsDelimiter cfg b → ¬ IsLetter b ∧ ¬ IsDigit b ∧ b ≠ 46)
    (hunits : ∀ u ∈ units, u ∈ units') (hmore : AllowsMore cfg cfg') (hcomp : CompatibleMultiple cfg cfg')
    (h : ({ DurationParser.withTimeUnits units with config := cfg } : DurationParser).parse s = .ok d) :
    ∃ d', ({ DurationParser.withTimeUnits units' with config := cfg' } : DurationParser).parse s = .ok d' ∧ d'.WF ∧
      nanos d' = nanos d :=
  C63_multiple cfg cfg' _ _ none none s d hs hc hm hmore hcomp (standard_more hunits) (standard_orderly cfg units' hdelim) h

/-! ## Concrete cases -/

theorem whitespace_delimiters (cfg : Config) (h1 : cfg.innerDelimiter = isAsciiWhitespace)
    (h2 : cfg.outerDelimiter = isAsciiWhitespace) (b : UInt8) (h : IsDelimiter cfg b) :
    ¬ IsLetter b ∧ ¬ IsDigit b ∧ b ≠ 46 := by
  have key : ∀ n < 256, isAsciiWhitespace (UInt8.ofNat n) = true →
      ¬ IsLetter (UInt8.ofNat n) ∧ ¬ IsDigit (UInt8.ofNat n) ∧ UInt8.ofNat n ≠ 46 := by decide +kernel
  have := key b.toNat b.toNat_lt
  rw [UInt8.ofNat_toNat] at this
  unfold IsDelimiter at h
  rw [h1, h2] at h
  exact this (h.elim id id)

/-- the settings of a strict and of a liberal parser -/
def strictConfig : Config := { disableExponent := true, disableInfinity := true }
def liberalConfig : Config := { allowNegative := true, allowAgo := true, allowTimeUnitDelimiter := true, allowSignDelimiter := true,
                                numberIsOptional := true }

/-- a strict and a liberal parser of the default units and of all units -/
example : ({ DurationParser.withAllTimeUnits with config := liberalConfig } : DurationParser).parse (b! "1.5h") =
    .ok ⟨false, ⟨5400, 0⟩⟩ :=
  C63_standard [.nanoSecond, .microSecond, .milliSecond, .second, .minute, .hour, .day, .week] allUnits strictConfig
    liberalConfig (b! "1.5h") ⟨false, ⟨5400, 0⟩⟩ (isText_ascii (by decide))
    ⟨defaultConfig_text.inner, defaultConfig_text.outer, by intro ws h; cases h⟩ rfl (whitespace_delimiters _ rfl rfl) (by decide)
    ⟨rfl, rfl, rfl, rfl, rfl, by decide, by decide, by decide, by decide, by decide, by decide, by decide, by decide⟩
    (by decide +kernel)

def strictMultiple : Config := { strictConfig with allowMultiple := true, conjunctions := some [b! "and"] }
def liberalMultiple : Config := { strictMultiple with allowNegative := true, allowAgo := true, disableExponent := false,
                                                      numberIsOptional := true }

theorem strictMultiple_compatible : CompatibleMultiple strictMultiple liberalMultiple := by
  refine ⟨fun _ h => h, Or.inl rfl, Or.inr ?_⟩
  intro w hw
  rw [List.mem_singleton.1 hw]
  constructor
  · rintro ⟨x, h⟩
    have := congrArg (fun l => l.take 2) h
    simp only [List.map_append] at this
    rw [List.take_append_of_le_length (by decide)] at this
    revert this
    decide
  · rintro ⟨r, x, h, hx⟩
    have h2 := congrArg List.length hx
    have h3 := congrArg List.length h
    have : x = b! "and" := by
      simp only [List.length_map, List.length_append] at h2 h3
      have e1 : (b! "ago").length = 3 := by decide
      have e2 : (b! "and").length = 3 := by decide
      have : r = [] := List.eq_nil_of_length_eq_zero (by omega)
      rw [h, this, List.append_nil]
    rw [this] at hx
    revert hx
    decide

/-- several durations, the negative ones now being allowed -/
example : ∃ d', ({ DurationParser.withAllTimeUnits with config := liberalMultiple } : DurationParser).parse (b! "2h and 30m") = .ok d' ∧
    d'.WF ∧ nanos d' = 9000 * 10 ^ 9 :=
  C63_standard_multiple [.nanoSecond, .microSecond, .milliSecond, .second, .minute, .hour, .day, .week] allUnits strictMultiple
    liberalMultiple (b! "2h and 30m") ⟨false, ⟨9000, 0⟩⟩ (isText_ascii (by decide))
    ⟨defaultConfig_text.inner, defaultConfig_text.outer, by intro ws h w hw; cases h; rw [List.mem_singleton.1 hw]; exact isText_ascii (by decide)⟩
    rfl (whitespace_delimiters _ rfl rfl) (by decide)
    ⟨rfl, rfl, rfl, rfl, rfl, by decide, by decide, by decide, by decide, by decide, by decide, by decide, by decide⟩
    strictMultiple_compatible (by decide +kernel)

/-- a single duration with a parser of several durations -/
example : ∃ d', ({ DurationParser.new with config := { strictConfig with allowMultiple := true, conjunctions := some [b! "and"] } } :
    DurationParser).parse (b! "3w") = .ok d' ∧ d'.WF ∧ nanos d' = 1814400 * 10 ^ 9 :=
  C63_single_multiple strictConfig DurationParser.new.timeUnits.like none none (some [b! "and"]) (b! "3w")
    ⟨false, ⟨1814400, 0⟩⟩ (isText_ascii (by decide))
    ⟨defaultConfig_text.inner, defaultConfig_text.outer, by intro ws h; cases h⟩
    (by intro ws h w hw; cases h; rw [List.mem_singleton.1 hw]; exact isText_ascii (by decide)) rfl (fun _ h => h)
    (standard_orderly _ [.nanoSecond, .microSecond, .milliSecond, .second, .minute, .hour, .day, .week]
      (whitespace_delimiters _ rfl rfl)) (by decide +kernel)

/-- Why `CompatibleMultiple` is needed: making the white space in front of units optional makes the parser
reject a text it accepted (finding F7) … -/
example :
    ({ DurationParser.new with config := { allowMultiple := true, conjunctions := some [b! "and"] } } : DurationParser).parse
      (b! "1 and 2") = .ok ⟨false, ⟨3, 0⟩⟩ ∧
    ({ DurationParser.new with config := { allowMultiple := true, conjunctions := some [b! "and"], allowTimeUnitDelimiter := true } } :
      DurationParser).parse (b! "1 and 2") = fail (.invalidInput (.text (b! "and 2"))) := by decide +kernel

/-- … or read it differently. -/
example :
    ({ DurationParser.new with config := { allowMultiple := true, numberIsOptional := true } } : DurationParser).parse
      (b! "1 m") = .ok ⟨false, ⟨61, 0⟩⟩ ∧
    ({ DurationParser.new with config := { allowMultiple := true, numberIsOptional := true, allowTimeUnitDelimiter := true } } :
      DurationParser).parse (b! "1 m") = .ok ⟨false, ⟨60, 0⟩⟩ := by decide +kernel

end Fundu.Props
