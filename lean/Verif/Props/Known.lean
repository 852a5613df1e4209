import Verif.Proofs.Known
import Verif.Props.Access
/-!
# C121: what a parser reads tells what its words mean

If a parser reads every text which another parser with the same options reads, with the same result, then it knows every time unit of the
other one which can be used, and the unit has the same length.
-/
namespace Fundu.Props
open Fundu Fundu.Spec

section
variable {cfg : Config} {units units' : TimeUnitsLike} {keywords keywords' : Option TimeUnitsLike} {numerals numerals' : Option NumbersLike}

/-- the number 1, and what is between it and the word -/
theorem known_behind {r id : Bytes} {p : TimeUnit × Multiplier} (hs : IsText r) (hc : CfgText cfg)
    (hd : DelimitersOk cfg keywords numerals) (hneg : cfg.allowNegative = true)
    (h : ReadsAll cfg units units' keywords keywords' numerals numerals') (hb : BehindNumber cfg r) (hr0 : r ≠ [])
    (hr : AfterDelims cfg.allowTimeUnitDelimiter cfg.innerDelimiter r id)
    (he : units.isEmpty = false) (hid : units.get id = some p) (hf : Fits p.1.multiplier p.2)
    (h0 : id ≠ []) (hstop : ∀ b ∈ id, ¬ UnitStop cfg b)
    (hlaw : units'.isEmpty = true → ∀ w, units'.get w = none)
    (hmul : cfg.allowMultiple = true → WordStart cfg id ∧ keywords' = none ∧ numerals' = none) :
    ∃ p' x, units'.get id = some p' ∧ OneOf p x ∧ OneOf p' x := by
  obtain ⟨N, hN, hT⟩ := number_in_front hb
  have hst : IsText (N ++ r) := text_joined (one_sign (r := []) hN).2 hs
  have hsign := (one_sign (r := r) hN).1
  have hdig : StartsWith IsDigit (N ++ r) := by
    simp only [List.mem_cons, List.not_mem_nil, or_false] at hN
    rcases hN with rfl | rfl | rfl
    · exact ⟨49, _, rfl, by decide⟩
    · exact ⟨49, _, rfl, by decide⟩
    · exact ⟨49, _, rfl, by decide⟩
  have hne : N ++ r ≠ [] := by simp [hr0]
  have hnum : IsNumber cfg units keywords numerals (N ++ r) false (b! "1") [] 0 (product p.1.multiplier p.2) := by
    refine ⟨some p, ⟨hf, rfl⟩, ?_⟩
    cases hm : cfg.allowMultiple with
    | false => exact ⟨_, .absent hne hsign, .number hT (.present hr h0 he (unit_single hm h0 hstop hid))⟩
    | true => exact .last (.absent hne hsign) (.numberUnit hT hr he (unit_multi hm h0 hstop hid))
  obtain ⟨d, h1, h2, -⟩ := number_result hst hc hd hnum
  obtain ⟨p', k1, k2⟩ := Known.known hst hc hT hsign hdig hr hr0 h0 hstop hmul hlaw (h _ _ hst (h2 (Or.inl hneg)))
  exact ⟨p', nanos d, k1, ⟨d, h1, rfl⟩, k2⟩

/-- C121: a parser which reads every text of another parser knows the time units of the other one which can follow a number, and they
have the same lengths. -/
theorem C121_unit (id : Bytes) {p : TimeUnit × Multiplier} (hs : IsText id) (hc : CfgText cfg)
    (hd : DelimitersOk cfg keywords numerals) (hneg : cfg.allowNegative = true)
    (h : ReadsAll cfg units units' keywords keywords' numerals numerals')
    (he : units.isEmpty = false) (hid : units.get id = some p) (hf : Fits p.1.multiplier p.2)
    (h0 : id ≠ []) (hstop : ∀ b ∈ id, ¬ UnitStop cfg b) (hb : BehindNumber cfg id)
    (hi : cfg.allowTimeUnitDelimiter = true → ¬ StartsWith (cfg.innerDelimiter · = true) id)
    (hlaw : units'.isEmpty = true → ∀ w, units'.get w = none)
    (hmul : cfg.allowMultiple = true → WordStart cfg id ∧ keywords' = none ∧ numerals' = none) :
    ∃ p' x, units'.get id = some p' ∧ OneOf p x ∧ OneOf p' x := by
  refine known_behind hs hc hd hneg h hb h0 ?_ he hid hf h0 hstop hlaw hmul
  unfold AfterDelims
  split
  · exact ⟨[], split_of (w := []) (by simp) (hi ‹_›)⟩
  · rfl

/-- C121: the same for time units which can stand behind a number and a delimiter. -/
theorem C121_unit_behind_delimiter (id : Bytes) (b : UInt8) {p : TimeUnit × Multiplier} (hs : IsText id) (hc : CfgText cfg)
    (hd : DelimitersOk cfg keywords numerals) (hneg : cfg.allowNegative = true)
    (h : ReadsAll cfg units units' keywords keywords' numerals numerals')
    (he : units.isEmpty = false) (hid : units.get id = some p) (hf : Fits p.1.multiplier p.2)
    (h0 : id ≠ []) (hstop : ∀ b ∈ id, ¬ UnitStop cfg b) (ha : cfg.allowTimeUnitDelimiter = true)
    (hb : cfg.innerDelimiter b = true) (hb' : BehindNumber cfg [b]) (hi : ¬ StartsWith (cfg.innerDelimiter · = true) id)
    (hlaw : units'.isEmpty = true → ∀ w, units'.get w = none)
    (hmul : cfg.allowMultiple = true → WordStart cfg id ∧ keywords' = none ∧ numerals' = none) :
    ∃ p' x, units'.get id = some p' ∧ OneOf p x ∧ OneOf p' x := by
  have hbi : BehindNumber cfg ([b] ++ id) := by
    obtain ⟨h1, h2, h3⟩ := hb'
    exact ⟨fun h => h1 ((startsWith_append (by simp)).1 h), fun h => h2 ((startsWith_append (by simp)).1 h),
      fun h => h3 ((startsWith_append (by simp)).1 h)⟩
  have ht : IsText [b] := isText_ascii (by simpa using hc.inner b hb)
  refine known_behind (text_joined ht hs) hc hd hneg h hbi (by simp) ?_ he hid hf h0 hstop hlaw hmul
  unfold AfterDelims
  rw [if_pos ha]
  exact ⟨[b], split_of (by simpa using hb) hi⟩

/-- C121: a keyword of the first parser is a keyword of the second one, or one of its time units if these need no number, with the same
length (parsers of one duration). -/
theorem C121_keyword (id : Bytes) {k : TimeUnitsLike} {p : TimeUnit × Multiplier} (hs : IsText id) (hc : CfgText cfg)
    (hneg : cfg.allowNegative = true) (hm : cfg.allowMultiple = false)
    (h : ReadsAll cfg units units' keywords keywords' none none)
    (hk : keywords = some k) (hid : k.get id = some p) (hf : Fits p.1.multiplier p.2)
    (hsign : ¬ StartsWith (fun b => b = 43 ∨ b = 45) id) (hw : WordStart cfg id)
    (hi : cfg.allowAgo = true → ∀ b ∈ id, ¬ cfg.innerDelimiter b = true) :
    ∃ p' x, ((∃ k', keywords' = some k' ∧ k'.get id = some p') ∨ (cfg.numberIsOptional = true ∧ units'.get id = some p')) ∧
      OneOf p x ∧ OneOf p' x := by
  obtain ⟨d, hv⟩ := value_exists false (b! "1") [] 0 (product p.1.multiplier p.2)
  have hsg : SignPart cfg id false id := .absent hw.1 hsign
  have hg : Gives (parse cfg units keywords none id) (nanos d) :=
    ⟨d, (C27_single cfg units keywords none id d hs hc hm).2 ⟨false, _, _, hsg, .keyword hw hk hid, ⟨.word hf hv, Or.inl hneg⟩⟩, hv.1, rfl⟩
  obtain ⟨d', h1, h2, h3⟩ := h id _ hs hg
  obtain ⟨neg, s', item, g1, g2, g3⟩ := (C27_single cfg units' keywords' none id d' hs hc hm).1 h1
  obtain ⟨rfl, rfl⟩ := signPart_unique g1 hsg
  cases g2 with
  | number q => exact (wordStart_not_number hw q).elim
  | infinity q1 q2 =>
    refine (hw.2.2.2 q1 ?_).elim
    refine ⟨s'.drop 3, s'.take 3, (List.take_append_drop ..).symm, ?_⟩
    unfold SameText at q2 ⊢
    rw [List.map_take]
    rcases q2 with q2 | q2 <;> rw [q2] <;> decide
  | keyword _ q2 q3 =>
    cases g3.1 with
    | word _ hv' => exact ⟨_, nanos d, Or.inl ⟨_, q2, q3⟩, ⟨d, hv, rfl⟩, d', hv', h3⟩
  | unit _ _ q3 q4 =>
    have hk' := Known.single_known hi q4
    cases g3.1 with
    | word _ hv' => exact ⟨_, nanos d, Or.inr ⟨q3, hk'⟩, ⟨d, hv, rfl⟩, d', hv', h3⟩
  | numeral _ _ _ q => cases q

end

/-- C121 for custom parsers: two parsers with the same options which read the same texts with the same results know the same time units
among those whose name is a word without delimiters, digits, signs, points and a leading `e`, and these have the same lengths. -/
theorem C121_custom (calls calls' : List CustomCall) (p p' : CustomDurationParser)
    (hp : p = calls.foldl callCustomSetter CustomDurationParser.new) (hp' : p' = calls'.foldl callCustomSetter CustomDurationParser.new)
    (hcfg : p'.config = p.config) (hc : CfgText p.config) (hneg : p.config.allowNegative = true)
    (hwords : p.config.allowMultiple = true → p.keywords.isEmpty = true ∧ p.numerals = [] ∧ p'.keywords.isEmpty = true ∧ p'.numerals = [])
    (h : ∀ (s : Bytes) (x : Int), IsText s → (Gives (p.parse s) x ↔ Gives (p'.parse s) x))
    (hfit : ∀ r ∈ (calls ++ calls').flatMap CustomCall.units, Fits r.baseUnit.multiplier r.multiplier)
    (id : Bytes) (hs : IsText id) (hw : WordStart p.config id) (hx : ¬ StartsWith (fun b => b = 101 ∨ b = 69) id)
    (hstop : ∀ b ∈ id, ¬ UnitStop p.config b) (hi : ¬ StartsWith (p.config.innerDelimiter · = true) id) :
    (p.getTimeUnitById id = none ∧ p'.getTimeUnitById id = none) ∨
      ∃ u u' x, p.getTimeUnitById id = some u ∧ p'.getTimeUnitById id = some u' ∧ OneOf u x ∧ OneOf u' x := by
  have hb : BehindNumber p.config id := ⟨hw.2.1, fun k => absurd k hw.2.2.1, fun k => absurd k hx⟩
  have law : ∀ (c : List CustomCall), ((c.foldl callCustomSetter CustomDurationParser.new).timeUnits.like.isEmpty = true →
      ∀ w, (c.foldl callCustomSetter CustomDurationParser.new).timeUnits.like.get w = none) := fun c => (C73_empty_knows_nothing c).1
  have half : ∀ (c c' : List CustomCall) (q q' : CustomDurationParser), q = c.foldl callCustomSetter CustomDurationParser.new →
      q' = c'.foldl callCustomSetter CustomDurationParser.new → q.config = p.config → q'.config = p.config →
      (p.config.allowMultiple = true → q.keywords.isEmpty = true ∧ q.numerals = [] ∧ q'.keywords.isEmpty = true ∧ q'.numerals = []) →
      (∀ (s : Bytes) (x : Int), IsText s → Gives (q.parse s) x → Gives (q'.parse s) x) →
      (∀ r ∈ c.flatMap CustomCall.units, Fits r.baseUnit.multiplier r.multiplier) →
      ∀ u, q.getTimeUnitById id = some u → ∃ u' x, q'.getTimeUnitById id = some u' ∧ OneOf u x ∧ OneOf u' x := by
    intro c c' q q' hq hq' e e' hwd hh hf u hu
    have hne : q.timeUnits.like.isEmpty = false := by
      cases hx : q.timeUnits.like.isEmpty with
      | false => rfl
      | true =>
        subst hq
        have := law c hx id
        change _ = some u at hu
        rw [show (CustomDurationParser.getTimeUnitById _ id) = none from this] at hu
        cases hu
    refine C121_unit (units := q.timeUnits.like) (units' := q'.timeUnits.like)
      (keywords := if !q.keywords.isEmpty then some q.keywords.like else none)
      (keywords' := if !q'.keywords.isEmpty then some q'.keywords.like else none)
      (numerals := if !q.numerals.isEmpty then some (numeralsGet q.numerals) else none)
      (numerals' := if !q'.numerals.isEmpty then some (numeralsGet q'.numerals) else none)
      id hs hc ?_ hneg ?_ hne hu ?_ hw.1 hstop hb (fun _ => hi) ?_ ?_
    · cases hm : p.config.allowMultiple with
      | false => exact Or.inl hm
      | true =>
        obtain ⟨k1, k2, -, -⟩ := hwd hm
        exact Or.inr (Or.inr ⟨by simp [k1], by simp [k2]⟩)
    · intro s x hst hg
      have := hh s x hst (by unfold CustomDurationParser.parse; rw [e]; exact hg)
      unfold CustomDurationParser.parse at this
      rwa [e'] at this
    · obtain ⟨u1, u2⟩ := u
      subst hq
      obtain ⟨r, k1, rfl, rfl, -⟩ := (C73_get c id).2 u1 u2 hu
      exact hf r k1
    · subst hq'
      exact law c'
    · intro hm
      obtain ⟨-, -, k3, k4⟩ := hwd hm
      exact ⟨hw, by simp [k3], by simp [k4]⟩
  have hf1 : ∀ r ∈ calls.flatMap CustomCall.units, Fits r.baseUnit.multiplier r.multiplier :=
    fun r hr => hfit r (by rw [List.flatMap_append]; exact List.mem_append_left _ hr)
  have hf2 : ∀ r ∈ calls'.flatMap CustomCall.units, Fits r.baseUnit.multiplier r.multiplier :=
    fun r hr => hfit r (by rw [List.flatMap_append]; exact List.mem_append_right _ hr)
  cases h1 : p.getTimeUnitById id with
  | some u =>
    obtain ⟨u', x, g1, g2, g3⟩ := half calls calls' p p' hp hp' rfl hcfg hwords (fun s x hs => (h s x hs).1) hf1 u h1
    exact Or.inr ⟨u, u', x, rfl, g1, g2, g3⟩
  | none =>
    cases h2 : p'.getTimeUnitById id with
    | none => exact Or.inl ⟨rfl, rfl⟩
    | some u' =>
      obtain ⟨u, x, g1, -, -⟩ := half calls' calls p' p hp' hp hcfg rfl
        (fun hm => by obtain ⟨a, b, c, d⟩ := hwords hm; exact ⟨c, d, a, b⟩) (fun s x hs => (h s x hs).2) hf2 u' h2
      rw [h1] at g1
      cases g1

/-! ## Examples -/

/-- the default configuration with negative durations -/
def negativeConfig : Config := { allowNegative := true }

theorem negativeConfig_text : CfgText negativeConfig := ⟨defaultConfig_text.1, defaultConfig_text.2, defaultConfig_text.3⟩

theorem strange_same : SameUsable negativeConfig (strangeUnits true) (strangeUnits false) none none none none := by
  refine ⟨rfl, fun id hu => ?_, fun _ _ => rfl, fun _ _ => rfl⟩
  have : id ≠ b! "2x" := by
    rintro rfl
    exact C89_digit_unused (b! "2x") ⟨50, _, rfl, by decide⟩ rfl hu
  simp [strangeUnits, this]

/-- Two parsers which read the same texts: one of them has a time unit which cannot be used (C89). -/
theorem known_strange : ReadsAll negativeConfig (strangeUnits true) (strangeUnits false) none none none none :=
  fun s _ hs ⟨d, h1, h2, h3⟩ =>
    ⟨d, (C89_unused_single _ _ _ none none none none s d hs negativeConfig_text rfl strange_same).1 h1, h2, h3⟩

/-- so both know `era`, with the same length -/
example : ∃ p' x, (strangeUnits false).get (b! "era") = some p' ∧ OneOf (.year, ⟨1000, 0⟩) x ∧ OneOf p' x := by
  refine C121_unit (b! "era") (isText_ascii (by decide)) negativeConfig_text (Or.inl rfl) rfl known_strange rfl rfl (by decide) (by decide) ?_ ?_ ?_ ?_ ?_
  · rintro b - h
    unfold UnitStop at h
    rw [if_neg (by decide)] at h
    cases h.1
  · refine ⟨?_, ?_, fun _ => rfl⟩
    · rw [show b! "era" = 101 :: b! "ra" from rfl, startsWith_cons]; decide
    · exact fun _ => Or.inl rfl
  · intro h; cases h
  · intro h; cases h
  · intro h; cases h

/-- C121: the condition that the unit can be used is needed: only one of these two parsers knows `2x`. -/
theorem C121_condition_needed : ∃ (cfg : Config) (units units' : TimeUnitsLike), ReadsAll cfg units units' none none none none ∧
    units.get (b! "2x") = some (.second, ⟨2, 0⟩) ∧ units'.get (b! "2x") = none :=
  ⟨_, _, _, known_strange, by decide, by decide⟩

/-- two custom parsers, one with a long day -/
def dayParser (hours : Int) : List CustomCall :=
  [.timeUnit ⟨.hour, ⟨hours, 0⟩, [b! "d", b! "day"]⟩, .option .allowNegative]

theorem day_length (hours : Int) (h : hours = 24 ∨ hours = 25) {x : Int} (hx : OneOf (.hour, ⟨hours, 0⟩) x) : x = hours * 3600000000000 := by
  obtain ⟨d, h1, rfl⟩ := hx
  have := (value_one h1 (by rcases h with rfl | rfl <;> decide)).2
  rw [this]
  rcases h with rfl | rfl <;> · unfold literalSign; norm_num [product, TimeUnit.multiplier, maxNanos]

/-- They do not read the same texts with the same results. -/
example : ¬ ∀ (s : Bytes) (x : Int), IsText s →
    (Gives (((dayParser 24).foldl callCustomSetter CustomDurationParser.new).parse s) x ↔
      Gives (((dayParser 25).foldl callCustomSetter CustomDurationParser.new).parse s) x) := by
  intro h
  have hc : CfgText ((dayParser 24).foldl callCustomSetter CustomDurationParser.new).config :=
    ⟨defaultConfig_text.1, defaultConfig_text.2, defaultConfig_text.3⟩
  have key := C121_custom (dayParser 24) (dayParser 25) _ _ rfl rfl rfl hc rfl (fun hm => by cases hm) h (by decide) (b! "d")
    (isText_ascii (by decide)) ⟨by decide, by rw [startsWith_cons]; decide, by rw [startsWith_cons]; decide, ?_⟩
    (by rw [startsWith_cons]; decide) ?_ (by rw [startsWith_cons]; decide)
  · rcases key with ⟨k, -⟩ | ⟨u, u', x, k1, k2, k3, k4⟩
    · exact absurd k (by decide)
    · have e1 : u = (.hour, ⟨24, 0⟩) := Option.some.inj (k1.symm.trans (by decide))
      have e2 : u' = (.hour, ⟨25, 0⟩) := Option.some.inj (k2.symm.trans (by decide))
      subst e1 e2
      have := (day_length 24 (Or.inl rfl) k3).symm.trans (day_length 25 (Or.inr rfl) k4)
      omega
  · rintro - ⟨r, x, h1, h2⟩
    have h1 := congrArg List.length h1
    have h2 := congrArg List.length h2
    simp at h1 h2
    omega
  · rintro b - hb
    unfold UnitStop at hb
    rw [if_neg (by decide)] at hb
    cases hb.1

end Fundu.Props
