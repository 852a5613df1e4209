import Verif.Proofs.ExponentError
import Verif.Props.Buffer
/-!
# Properties C20, C21, C27-C32: the language of the parser and the values of its texts

The specification is `Verif/Spec/Grammar.lean`.
-/
namespace Fundu.Props
open Fundu Fundu.Spec

/-! ## Lemmas about the grammar -/

theorem signPart_unique {cfg : Config} {s r r' : Bytes} {neg neg' : Bool} (h : SignPart cfg s neg r)
    (h' : SignPart cfg s neg' r') : neg = neg' ∧ r = r' := by
  obtain ⟨o, k1, rfl⟩ := (sign_iff neg).1 h
  obtain ⟨o', k1', rfl⟩ := (sign_iff neg').1 h'
  rw [k1] at k1'
  cases k1'
  exact ⟨rfl, rfl⟩

theorem numberText_unique {cfg : Config} {s W F r W' F' r' : Bytes} {e e' : Int} (h : NumberText cfg s W F e r)
    (h' : NumberText cfg s W' F' e' r') : W = W' ∧ F = F' ∧ e = e' ∧ r = r' := by
  obtain ⟨r1, r2, h1, h2, h3⟩ := h
  obtain ⟨r1', r2', h1', h2', h3'⟩ := h'
  rw [splitDigit_iff] at h1 h1'
  obtain ⟨rfl, rfl⟩ := h1
  obtain ⟨rfl, rfl⟩ := h1'
  have a := ((fract_iff _ _).1 h2).2
  have a' := ((fract_iff _ _).1 h2').2
  rw [a] at a'
  cases a'
  rw [exp_iff] at h3 h3'
  rw [h3] at h3'
  cases h3'
  exact ⟨rfl, rfl, rfl, rfl⟩

/-- a number starts with a digit or a point -/
theorem numberText_head {cfg : Config} {s W F r : Bytes} {e : Int} (h : NumberText cfg s W F e r) :
    StartsWith IsDigit s ∨ StartsWith (· = 46) s := by
  obtain ⟨r1, r2, h1, h2, -⟩ := h
  obtain ⟨rfl, hd, -⟩ := h1
  cases W with
  | cons b l => exact Or.inl ⟨b, l ++ r1, rfl, hd b (by simp)⟩
  | nil =>
    cases h2 with
    | absent h _ => exact absurd rfl h
    | present _ _ _ => exact Or.inr ⟨46, _, rfl, rfl⟩

theorem wordStart_not_number {cfg : Config} {s W F r : Bytes} {e : Int} (h : WordStart cfg s) :
    ¬ NumberText cfg s W F e r := by
  intro hn
  rcases numberText_head hn with g | g
  · exact h.2.1 g
  · exact h.2.2.1 g

theorem afterInf_not_number {cfg : Config} {s t W F r : Bytes} {e : Int} (h : AfterWord (b! "inf") s t) :
    ¬ NumberText cfg s W F e r := by
  intro hn
  obtain ⟨x, rfl, hx⟩ := h
  cases x with
  | nil => cases hx
  | cons b l =>
    have hb : lower b = 105 := by
      unfold SameText at hx
      simp only [List.map_cons] at hx
      injection hx
    have hne : ¬ (IsDigit b ∨ b = 46) := by
      rintro (h | h)
      · unfold lower at hb
        unfold IsDigit at h
        rw [if_neg (by omega)] at hb
        subst hb
        revert h; decide
      · subst h; revert hb; decide
    rcases numberText_head hn with ⟨b', l', h1, h2⟩ | ⟨b', l', h1, h2⟩ <;> cases h1
    · exact hne (Or.inl h2)
    · exact hne (Or.inr h2)

theorem numberText_not_inf {cfg : Config} {s w W F r : Bytes} {e : Int} (h : NumberText cfg s W F e r)
    (hs : SameText s w) (hw : w = b! "inf" ∨ w = b! "infinity") : False := by
  have : ∃ t, AfterWord (b! "inf") s t := by
    refine ⟨s.drop 3, s.take 3, (List.take_append_drop ..).symm, ?_⟩
    unfold SameText at hs ⊢
    rw [List.map_take, hs]
    rcases hw with rfl | rfl <;> decide
  obtain ⟨t, ht⟩ := this
  exact afterInf_not_number ht h

section
variable (cfg : Config) (units : TimeUnitsLike) (keywords : Option TimeUnitsLike) (numerals : Option NumbersLike)

/-! ## C27 -/

theorem envOk_plain {cfg : Config} (h : CfgText cfg) (units : TimeUnitsLike) (keywords : Option TimeUnitsLike)
    (numerals : Option NumbersLike) :
    EnvOk { cfg := cfg, units := units, keywords := keywords, numerals := numerals,
            scan := fun d c => c.advanceTo d } where
  cfg := cfgOk_of_text h
  scan := by
    intro I c d hd hc
    show Safe _ (c.advanceTo d) _
    rw [Cursor.advanceTo_eq d c hc.pos']
    exact ⟨Cursor.inv_word hd hc, Cursor.word_valid hd hc, rfl⟩

/-- C27: a parser of a single duration accepts a text iff it is a duration of the grammar, and the result is
the duration this denotes. For all texts, all settings with ASCII delimiters, and all tables of units, keywords
and numerals. -/
theorem C27_single (s : Bytes) (d : Duration) (hs : IsText s) (hc : CfgText cfg) (hm : cfg.allowMultiple = false) :
    parse cfg units keywords numerals s = .ok d ↔ DenotesSingle cfg units keywords numerals s d := by
  rw [C33_buffer_transparent cfg units keywords numerals s (Or.inr (Or.inr hm))]
  unfold parseUnbuffered parseWith
  simp only [hm, Bool.false_eq_true, if_false]
  exact parseSingle_iff (env := ⟨cfg, units, keywords, numerals, fun d c => c.advanceTo d⟩) (cfgOk_of_text hc) rfl
    ((isText_iff s).mp hs) d

/-- C27: a parser of multiple durations accepts a text iff it is a sequence of durations of the grammar, and the
result is their saturating sum from left to right. The hypothesis about the delimiters excludes finding F5. -/
theorem C27_multiple (s : Bytes) (x : Int) (hs : IsText s) (hc : CfgText cfg) (hm : cfg.allowMultiple = true)
    (hd : (∀ b, cfg.innerDelimiter b = true → cfg.outerDelimiter b = true) ∨ (keywords = none ∧ numerals = none)) :
    (∃ d, parse cfg units keywords numerals s = .ok d ∧ d.WF ∧ nanos d = x) ↔
      ∃ ds, DenotesMultiple cfg units keywords numerals s ds ∧ x = saturatingSum (ds.map nanos) := by
  rw [C33_buffer_transparent cfg units keywords numerals s (hd.imp_right Or.inl)]
  unfold parseUnbuffered parseWith parseMultiple
  simp only [hm, if_true]
  have hI := (isText_iff s).mp hs
  by_cases hne : s = []
  · subst hne
    constructor
    · rintro ⟨d, h, -⟩; cases h
    · rintro ⟨ds, ⟨items, h, -⟩, -⟩
      cases h with
      | last h _ => cases h with | absent h _ => exact absurd rfl h
      | more h _ _ _ => cases h with | absent h _ => exact absurd rfl h
  · exact loop_iff (env := ⟨cfg, units, keywords, numerals, fun d c => c.advanceTo d⟩)
      (envOk_plain hc units keywords numerals) rfl _ Duration.ZERO (by decide)
      ⟨Inv.new hI, Cursor.rest_new s, Nat.zero_le _⟩ hne (by show _ < 0 + _; omega) x

/-- C27: the grammar is unambiguous: a text has at most one reading as a duration. -/
theorem C27_unambiguous_single (s : Bytes) (neg neg' : Bool) (r r' : Bytes) (item item' : Item)
    (h1 : SignPart cfg s neg r) (h2 : SingleText cfg units keywords numerals r item)
    (h1' : SignPart cfg s neg' r') (h2' : SingleText cfg units keywords numerals r' item') :
    neg = neg' ∧ r = r' ∧ item = item' := by
  obtain ⟨o, k1, rfl⟩ := (sign_iff neg).1 h1
  obtain ⟨o', k1', rfl⟩ := (sign_iff neg').1 h1'
  rw [k1] at k1'
  cases k1'
  have a := (single_iff (env := ⟨cfg, units, keywords, numerals, fun d c => c.advanceTo d⟩) item []).2 ⟨rfl, h2⟩
  have a' := (single_iff (env := ⟨cfg, units, keywords, numerals, fun d c => c.advanceTo d⟩) item' []).2 ⟨rfl, h2'⟩
  rw [a] at a'
  cases a'
  exact ⟨rfl, rfl, rfl⟩

/-- C27: and at most one reading as a sequence of durations. -/
theorem C27_unambiguous_multiple (s : Bytes) (items items' : List (Bool × Item))
    (h : Durations cfg units keywords numerals s items) (h' : Durations cfg units keywords numerals s items') :
    items = items' := by
  have key : ∀ {s : Bytes} {neg neg' : Bool} {r r' t t' : Bytes} {item item' : Item}, SignPart cfg s neg r →
      MultiText cfg units keywords numerals r item t → SignPart cfg s neg' r' →
      MultiText cfg units keywords numerals r' item' t' → neg = neg' ∧ item = item' ∧ t = t' := by
    intro s neg neg' r r' t t' item item' h1 h2 h1' h2'
    have a := (template_iff (env := ⟨cfg, units, keywords, numerals, fun d c => c.advanceTo d⟩) .multiple neg item).2
      ⟨r, h1, (multi_iff item).2 h2⟩
    have a' := (template_iff (env := ⟨cfg, units, keywords, numerals, fun d c => c.advanceTo d⟩) .multiple neg' item').2
      ⟨r', h1', (multi_iff item').2 h2'⟩
    rw [a] at a'
    cases a'
    exact ⟨rfl, rfl, rfl⟩
  induction h generalizing items' with
  | last h1 h2 =>
    cases h' with
    | last h1' h2' =>
      obtain ⟨rfl, rfl, -⟩ := key h1 h2 h1' h2'
      rfl
    | more h1' h2' h3' _ =>
      obtain ⟨-, -, h⟩ := key h1 h2 h1' h2'
      exact absurd h.symm h3'
  | more h1 h2 h3 h4 ih =>
    cases h' with
    | last h1' h2' =>
      obtain ⟨-, -, h⟩ := key h1 h2 h1' h2'
      exact absurd h h3
    | more h1' h2' h3' h4' =>
      obtain ⟨rfl, rfl, rfl⟩ := key h1 h2 h1' h2'
      rw [ih _ h4']

/-- single durations, negative ones and `ago` allowed, delimiters after sign and number -/
def singleConfig : Config :=
  { allowAgo := true, allowNegative := true, numberIsOptional := true, allowSignDelimiter := true,
    allowTimeUnitDelimiter := true }

theorem singleConfig_text : CfgText singleConfig :=
  ⟨exampleConfig_text.inner, exampleConfig_text.outer, by intro ws h; cases h⟩

/-- `- 1.5e1  century AGO` is a duration of the grammar, it denotes 1500 years -/
example : DenotesSingle singleConfig exampleUnits none none (b! "- 1.5e1  century AGO") ⟨false, ⟨47336400000, 0⟩⟩ :=
  (C27_single singleConfig exampleUnits none none _ _ ⟨"- 1.5e1  century AGO".toList, by decide +kernel⟩
    singleConfig_text rfl).mp (by decide +kernel)

/-- a sequence of a numeral, a number with unit and a number with sign and unit -/
example : ∃ ds, DenotesMultiple exampleConfig exampleUnits (some exampleKeywords) (some exampleNumerals)
    (b! "two s and 1.5µs +0.1century") ds ∧ 315576002000001500 = saturatingSum (ds.map nanos) :=
  (C27_multiple exampleConfig exampleUnits (some exampleKeywords) (some exampleNumerals) _ _ exampleInput_text
    exampleConfig_text rfl (Or.inl (fun _ h => h))).mp
    ⟨⟨false, ⟨315576002, 1500⟩⟩, by decide +kernel⟩

end
/-! ## C20 -/

section
variable (cfg : Config) (units : TimeUnitsLike) (keywords : Option TimeUnitsLike) (numerals : Option NumbersLike)

/-- C20: if the exponent digits `E` (with their sign `n`) of the first number denote an integer outside of the
range of `i16`, the error is `NegativeExponentOverflow` or `PositiveExponentOverflow`, according to the sign of the
exponent, whatever follows, for one and for multiple durations. -/
theorem C20_overflow (s : Bytes) (hs : IsText s) (hc : CfgText cfg) {neg : Bool} {r W r1 F : Bytes}
    {x : UInt8} {q q' E rest : Bytes} {n : Bool} (h1 : SignPart cfg s neg r) (h2 : Split IsDigit r W r1)
    (h3 : FractionPart cfg W r1 F (x :: q)) (hx : x = 101 ∨ x = 69) (hd : cfg.disableExponent = false)
    (h4 : ExponentSign q n q') (h5 : Split IsDigit q' E rest)
    (h6 : (if n then -(decimal E : Int) else decimal E) < -32768 ∨
      32767 < (if n then -(decimal E : Int) else decimal E)) :
    parse cfg units keywords numerals s =
      fail (if n then .negativeExponentOverflow else .positiveExponentOverflow) := by
  unfold parse
  refine parseWith_overflow (env := { cfg := cfg, units := units, keywords := keywords, numerals := numerals })
    (cfgOk_of_text hc) ((isText_iff s).mp hs) h1 h2 h3 hx hd h4 h5 ?_
  intro h
  unfold IsI16 I16_MIN I16_MAX at h
  omega

/-- C20: otherwise (and if there is at least one digit) the number is accepted with exactly this exponent, if
what follows it is. -/
theorem C20_in_range (s : Bytes) (d : Duration) (hs : IsText s) (hc : CfgText cfg) (hm : cfg.allowMultiple = false)
    {neg : Bool} {r W r1 F : Bytes}
    {x : UInt8} {q q' E rest : Bytes} {n : Bool} (h1 : SignPart cfg s neg r) (h2 : Split IsDigit r W r1)
    (h3 : FractionPart cfg W r1 F (x :: q)) (hx : x = 101 ∨ x = 69) (hd : cfg.disableExponent = false)
    (h4 : ExponentSign q n q') (h5 : Split IsDigit q' E rest) (hE : E ≠ [])
    (h6 : -32768 ≤ (if n then -(decimal E : Int) else decimal E) ∧
      (if n then -(decimal E : Int) else decimal E) ≤ 32767) :
    parse cfg units keywords numerals s = .ok d ↔ ∃ u, UnitPart cfg units rest u ∧
      Accepted cfg neg (.number W F (if n then -(decimal E : Int) else decimal E) u) d := by
  rw [C27_single cfg units keywords numerals s d hs hc hm]
  have hi : IsI16 (if n then -(decimal E : Int) else decimal E) := h6
  have hN : NumberText cfg r W F (if n then -(decimal E : Int) else decimal E) rest :=
    ⟨r1, _, h2, h3, .present hx hd h4 h5 hE hi⟩
  constructor
  · rintro ⟨neg', r', item, k1, k2, k3⟩
    obtain ⟨rfl, rfl⟩ := signPart_unique h1 k1
    cases k2 with
    | @number W' F' e' r2 u g1 g2 =>
      obtain ⟨rfl, rfl, rfl, rfl⟩ := numberText_unique hN g1
      exact ⟨u, g2, k3⟩
    | infinity _ g => exact absurd g (by
        rintro (g | g)
        · exact numberText_not_inf hN g (Or.inl rfl)
        · exact numberText_not_inf hN g (Or.inr rfl))
    | keyword g _ _ => exact absurd hN (wordStart_not_number g)
    | unit g _ _ _ => exact absurd hN (wordStart_not_number g)
    | numeral g _ _ _ _ _ _ _ _ _ => exact absurd hN (wordStart_not_number g)
  · rintro ⟨u, g1, g2⟩
    exact ⟨neg, r, _, h1, .number hN g1, g2⟩

/-- `1e-0000000000032769s` has an exponent below the range, `1e00000000000032767s` one at its end -/
example : parse singleConfig exampleUnits none none (b! "1e-0000000000032769s") = fail .negativeExponentOverflow ∧
    parse singleConfig exampleUnits none none (b! "1E+32768") = fail .positiveExponentOverflow ∧
    parse singleConfig exampleUnits none none (b! "1e00000000000032767s") = .ok Duration.MAX := by decide +kernel

example : ExponentSign (b! "-0000000000032769s") true (b! "0000000000032769s") ∧
    Split IsDigit (b! "0000000000032769s") (b! "0000000000032769") (b! "s") ∧
    -(decimal (b! "0000000000032769") : Int) < -32768 := by
  refine ⟨.minus, ⟨by decide, by decide, ?_⟩, by decide⟩
  rintro ⟨b, l, h1, h2⟩
  cases h1
  revert h2
  decide

/-! ## C21 -/

/-- C21: if the text after the sign starts with `inf` in any case, a parser of a single duration accepts it iff
it is `inf` or `infinity`, in any case, and not forbidden by its sign; the result is then the maximum or minimum. -/
theorem C21_infinity (s : Bytes) (d : Duration) (hs : IsText s) (hc : CfgText cfg) (hm : cfg.allowMultiple = false)
    (hd : cfg.disableInfinity = false) {neg : Bool} {r t : Bytes} (h1 : SignPart cfg s neg r)
    (h2 : AfterWord (b! "inf") r t) :
    parse cfg units keywords numerals s = .ok d ↔
      (SameText r (b! "inf") ∨ SameText r (b! "infinity")) ∧ (cfg.allowNegative = true ∨ neg = false) ∧
        d = if neg then Duration.MIN else Duration.MAX := by
  rw [C27_single cfg units keywords numerals s d hs hc hm]
  have hinf : (∃ x, AfterWord (b! "inf") r x) := ⟨t, h2⟩
  have hden : Denotes cfg neg .infinity d ↔ d = if neg then Duration.MIN else Duration.MAX := by
    rw [← L.value_iff]
    unfold L.value
    constructor
    · intro h; injection h with h; rw [← h]; cases neg <;> rfl
    · rintro rfl; cases neg <;> rfl
  have hn : (d = if neg then Duration.MIN else Duration.MAX) → (d.isNegative = false ↔ neg = false) := by
    rintro rfl; cases neg <;> simp [Duration.MIN, Duration.MAX]
  constructor
  · rintro ⟨neg', r', item, k1, k2, k3, k4⟩
    obtain ⟨rfl, rfl⟩ := signPart_unique h1 k1
    cases k2 with
    | number g1 _ => exact absurd g1 (afterInf_not_number h2)
    | infinity _ g =>
      rw [hden] at k3
      rw [hn k3] at k4
      exact ⟨g, k4, k3⟩
    | keyword g _ _ => exact absurd hinf (g.2.2.2 hd)
    | unit g _ _ _ => exact absurd hinf (g.2.2.2 hd)
    | numeral g _ _ _ _ _ _ _ _ _ => exact absurd hinf (g.2.2.2 hd)
  · rintro ⟨k1, k2, k3⟩
    rw [← hn k3] at k2
    exact ⟨neg, r, _, h1, .infinity hd k1, hden.2 k3, k2⟩

/-- C21: if infinity is disabled the words mean nothing unless a table contains them -/
theorem C21_disabled (s : Bytes) (hs : IsText s) (hc : CfgText cfg) (hm : cfg.allowMultiple = false)
    (hd : cfg.disableInfinity = true) {neg : Bool} {r : Bytes} (h1 : SignPart cfg s neg r)
    (h2 : SameText r (b! "inf") ∨ SameText r (b! "infinity")) (hu : units.get r = none)
    (hk : ∀ k, keywords = some k → k.get r = none) (hi : ∀ b ∈ r, cfg.innerDelimiter b = false) (d : Duration) :
    parse cfg units keywords numerals s ≠ .ok d := by
  rw [Ne, C27_single cfg units keywords numerals s d hs hc hm]
  have hword : ∀ {w x : Bytes}, Split (¬ cfg.innerDelimiter · = true) r w x → w = r ∧ x = [] := by
    intro w x h
    obtain ⟨h1, -, h3⟩ := h
    cases x with
    | nil => exact ⟨by rw [h1, List.append_nil], rfl⟩
    | cons b l => exact absurd ⟨b, l, rfl, by simp [hi b (by rw [h1]; simp)]⟩ h3
  have hsingle : ∀ u x, ¬ UnitSingle cfg units r u x := by
    intro u x h
    cases h with
    | whole _ g => rw [hu] at g; cases g
    | plain _ _ _ g => rw [hu] at g; cases g
    | ago _ g1 _ g2 _ _ =>
      obtain ⟨rfl, -⟩ := hword g1
      rw [hu] at g2; cases g2
  rintro ⟨neg', r', item, k1, k2, -⟩
  obtain ⟨rfl, rfl⟩ := signPart_unique h1 k1
  cases k2 with
  | number g1 _ =>
    rcases h2 with h2 | h2
    · exact numberText_not_inf g1 h2 (Or.inl rfl)
    · exact numberText_not_inf g1 h2 (Or.inr rfl)
  | infinity g _ => rw [hd] at g; cases g
  | keyword _ g1 g2 => rw [hk _ g1] at g2; cases g2
  | unit _ _ _ g => exact hsingle _ _ g
  | numeral _ _ _ _ g1 _ _ g2 g3 _ =>
    obtain ⟨-, rfl⟩ := hword g1
    have := (List.append_eq_nil_iff.1 g2.1.symm).2
    exact g3 this

/-- C21: in a sequence of durations infinity counts as the maximum or minimum too, and it does not occur if it
is disabled -/
theorem C21_multiple (s : Bytes) (items : List (Bool × Item)) (neg : Bool)
    (h : Durations cfg units keywords numerals s items) (hi : (neg, .infinity) ∈ items) :
    cfg.disableInfinity = false ∧ ∀ d, Denotes cfg neg .infinity d ↔ d = if neg then Duration.MIN else Duration.MAX := by
  constructor
  · have key : ∀ {r t item}, MultiText cfg units keywords numerals r item t → item = .infinity →
        cfg.disableInfinity = false := by
      intro r t item h he
      cases h <;> first | assumption | cases he
    induction h with
    | last _ h2 =>
      simp only [List.mem_singleton, Prod.mk.injEq] at hi
      exact key h2 hi.2.symm
    | more _ h2 _ _ ih =>
      simp only [List.mem_cons, Prod.mk.injEq] at hi
      rcases hi with hi | hi
      · exact key h2 hi.2.symm
      · exact ih hi
  · intro d
    rw [← L.value_iff]
    unfold L.value
    constructor
    · intro h; injection h with h; rw [← h]; cases neg <;> rfl
    · rintro rfl; cases neg <;> rfl

example : parse singleConfig exampleUnits none none (b! "-iNFinItY") = .ok Duration.MIN ∧
    AfterWord (b! "inf") (b! "iNFinItY") (b! "inItY") ∧ SameText (b! "iNFinItY") (b! "infinity") ∧
    (parse singleConfig exampleUnits none none (b! "infs")).toOption = none ∧
    (parse { singleConfig with disableInfinity := true } exampleUnits none none (b! "inf")).toOption = none ∧
    parse exampleConfig exampleUnits none none (b! "1s inf") = .ok Duration.MAX := by
  refine ⟨by decide +kernel, ⟨b! "iNF", by decide, by decide⟩, by decide, by decide +kernel,
    by decide +kernel, by decide +kernel⟩

end

/-! ## C28 -/

theorem word_after_delim {d : Delimiter} {b : UInt8} {l w x : Bytes} (hb : d b = true)
    (h : Split (¬ d · = true) (b :: l) w x) : w = [] := by
  obtain ⟨g1, g2, -⟩ := h
  cases w with
  | nil => rfl
  | cons y w =>
    injection g1 with g1 _
    subst g1
    exact absurd hb (g2 b (by simp))

section
variable (cfg : Config) (units : TimeUnitsLike) (keywords : Option TimeUnitsLike) (numerals : Option NumbersLike)

/-- The settings under which the grammar describes the parser: a single duration, or delimiters which exclude
finding F5. -/
def DelimitersOk (cfg : Config) (keywords : Option TimeUnitsLike) (numerals : Option NumbersLike) : Prop :=
  cfg.allowMultiple = false ∨ (∀ b, cfg.innerDelimiter b = true → cfg.outerDelimiter b = true) ∨
    (keywords = none ∧ numerals = none)

/-- an accepted text is, after its first sign, a duration of the grammar -/
theorem accepted_text (s : Bytes) (d : Duration) (hs : IsText s) (hc : CfgText cfg)
    (hd : DelimitersOk cfg keywords numerals) (h : parse cfg units keywords numerals s = .ok d) {neg : Bool} {r : Bytes}
    (h1 : SignPart cfg s neg r) :
    (cfg.allowMultiple = false ∧ ∃ item, SingleText cfg units keywords numerals r item) ∨
      (cfg.allowMultiple = true ∧ ∃ item t, MultiText cfg units keywords numerals r item t) := by
  cases hm : cfg.allowMultiple with
  | false =>
    obtain ⟨neg', r', item, k1, k2, -⟩ := (C27_single cfg units keywords numerals s d hs hc hm).1 h
    obtain ⟨rfl, rfl⟩ := signPart_unique h1 k1
    exact Or.inl ⟨rfl, item, k2⟩
  | true =>
    have hd' := hd.resolve_left (by rw [hm]; simp)
    have hwf : d.WF := by
      rcases C23_only_multiplication_panics cfg units keywords numerals s hs hc with ⟨d', g1, g2⟩ | ⟨e, g⟩ | g
      · rw [g1] at h; cases h; exact g2
      · rw [g] at h; cases h
      · rw [g] at h; cases h
    obtain ⟨ds, ⟨items, k, -⟩, -⟩ := (C27_multiple cfg units keywords numerals s _ hs hc hm hd').1 ⟨d, h, hwf, rfl⟩
    cases k with
    | last k1 k2 =>
      obtain ⟨rfl, rfl⟩ := signPart_unique h1 k1
      exact Or.inr ⟨rfl, _, _, k2⟩
    | more k1 k2 _ _ =>
      obtain ⟨rfl, rfl⟩ := signPart_unique h1 k1
      exact Or.inr ⟨rfl, _, _, k2⟩

/-- an accepted text which starts with a digit or a point (after the sign) starts with a number -/
theorem accepted_number (s : Bytes) (d : Duration) (hs : IsText s) (hc : CfgText cfg)
    (hd : DelimitersOk cfg keywords numerals) (h : parse cfg units keywords numerals s = .ok d) {neg : Bool} {r : Bytes}
    (h1 : SignPart cfg s neg r) (h2 : StartsWith IsDigit r ∨ StartsWith (· = 46) r) :
    ∃ W F e t, NumberText cfg r W F e t := by
  have hw : ¬ WordStart cfg r := fun g => h2.elim g.2.1 g.2.2.1
  have hi : ∀ t, ¬ AfterWord (b! "inf") r t := by
    rintro t ⟨x, rfl, hx⟩
    cases x with
    | nil => cases hx
    | cons b l =>
      have hb : lower b = 105 := by
        unfold SameText at hx
        simp only [List.map_cons] at hx
        injection hx
      rcases h2 with ⟨b', l', g1, g2⟩ | ⟨b', l', g1, g2⟩ <;> cases g1
      · unfold lower at hb
        unfold IsDigit at g2
        rw [if_neg (by omega)] at hb
        subst hb
        revert g2; decide
      · subst g2; revert hb; decide
  have hi' : ∀ w, SameText r w → w = b! "inf" ∨ w = b! "infinity" → False := by
    intro w hs hw
    refine hi (r.drop 3) ⟨r.take 3, (List.take_append_drop ..).symm, ?_⟩
    unfold SameText at hs ⊢
    rw [List.map_take, hs]
    rcases hw with rfl | rfl <;> decide
  rcases accepted_text cfg units keywords numerals s d hs hc hd h h1 with ⟨-, item, k⟩ | ⟨-, item, t, k⟩
  · cases k with
    | number g _ => exact ⟨_, _, _, _, g⟩
    | infinity _ g =>
      rcases g with g | g
      · exact (hi' _ g (Or.inl rfl)).elim
      · exact (hi' _ g (Or.inr rfl)).elim
    | keyword g _ _ => exact absurd g hw
    | unit g _ _ _ => exact absurd g hw
    | numeral g _ _ _ _ _ _ _ _ _ => exact absurd g hw
  · cases k with
    | numberEnd g => exact ⟨_, _, _, _, g⟩
    | numberUnit g _ _ _ => exact ⟨_, _, _, _, g⟩
    | number g _ _ _ _ => exact ⟨_, _, _, _, g⟩
    | inf _ g _ _ => exact absurd g (hi _)
    | infinity _ g _ _ _ _ => exact absurd g (hi _)
    | keyword g _ _ _ => exact absurd g hw
    | unit g _ _ _ => exact absurd g hw
    | numeral g _ _ _ _ _ _ _ _ _ => exact absurd g hw

/-- C28: with `disable_fraction` no text with a point after its sign and whole digits is accepted. -/
theorem C28_fraction (s : Bytes) (d : Duration) (hs : IsText s) (hc : CfgText cfg)
    (hd : DelimitersOk cfg keywords numerals) (hf : cfg.disableFraction = true) {neg : Bool} {r W t : Bytes}
    (h1 : SignPart cfg s neg r) (h2 : Split IsDigit r W (46 :: t)) :
    parse cfg units keywords numerals s ≠ .ok d := by
  intro h
  have hhead : StartsWith IsDigit r ∨ StartsWith (· = 46) r := by
    obtain ⟨rfl, g, -⟩ := h2
    cases W with
    | nil => exact Or.inr ⟨46, t, rfl, rfl⟩
    | cons b l => exact Or.inl ⟨b, _, rfl, g b (by simp)⟩
  obtain ⟨W', F, e, t', r1, r2, g1, g2, -⟩ := accepted_number cfg units keywords numerals s d hs hc hd h h1 hhead
  obtain ⟨rfl, e1⟩ := (splitDigit_iff ..).1 h2
  obtain ⟨rfl, rfl⟩ := (splitDigit_iff ..).1 g1
  rw [← e1] at g2
  cases g2 with
  | absent _ g => exact g ⟨46, t, rfl, rfl⟩
  | present g _ _ => rw [hf] at g; cases g

/-- C28: with `disable_exponent` no text with an `e` or `E` after its sign and digits is accepted. -/
theorem C28_exponent (s : Bytes) (d : Duration) (hs : IsText s) (hc : CfgText cfg)
    (hd : DelimitersOk cfg keywords numerals) (hf : cfg.disableExponent = true) {neg : Bool} {r W r1 F t : Bytes}
    {x : UInt8} (h1 : SignPart cfg s neg r) (h2 : Split IsDigit r W r1) (h3 : FractionPart cfg W r1 F (x :: t))
    (hx : x = 101 ∨ x = 69) :
    parse cfg units keywords numerals s ≠ .ok d := by
  intro h
  have hhead : StartsWith IsDigit r ∨ StartsWith (· = 46) r := by
    obtain ⟨rfl, g, -⟩ := h2
    cases W with
    | nil =>
      cases h3 with
      | absent g _ => exact absurd rfl g
      | present _ _ _ => exact Or.inr ⟨46, _, rfl, rfl⟩
    | cons b l => exact Or.inl ⟨b, _, rfl, g b (by simp)⟩
  obtain ⟨W', F', e, t', r1', r2', g1, g2, g3⟩ := accepted_number cfg units keywords numerals s d hs hc hd h h1 hhead
  obtain ⟨rfl, rfl⟩ := (splitDigit_iff ..).1 h2
  obtain ⟨rfl, rfl⟩ := (splitDigit_iff ..).1 g1
  have a := ((fract_iff _ _).1 h3).2
  have a' := ((fract_iff _ _).1 g2).2
  rw [a] at a'
  cases a'
  cases g3 with
  | absent g => exact g ⟨x, t, rfl, hx⟩
  | present _ g _ _ _ _ => rw [hf] at g; cases g

/-- C28: without time units nothing may follow a single number. -/
theorem C28_no_units (s : Bytes) (d : Duration) (hs : IsText s) (hc : CfgText cfg) (hm : cfg.allowMultiple = false)
    (hu : units.isEmpty = true) {neg : Bool} {r W F t : Bytes} {e : Int}
    (h1 : SignPart cfg s neg r) (h2 : NumberText cfg r W F e t)
    (h : parse cfg units keywords numerals s = .ok d) : t = [] := by
  obtain ⟨neg', r', item, k1, k2, -⟩ := (C27_single cfg units keywords numerals s d hs hc hm).1 h
  obtain ⟨rfl, rfl⟩ := signPart_unique h1 k1
  cases k2 with
  | number g1 g2 =>
    obtain ⟨-, -, -, rfl⟩ := numberText_unique h2 g1
    cases g2 with
    | absent => rfl
    | present _ _ g _ => rw [hu] at g; cases g
  | infinity _ g => exact absurd g (by
      rintro (g | g)
      · exact numberText_not_inf h2 g (Or.inl rfl)
      · exact numberText_not_inf h2 g (Or.inr rfl))
  | keyword g _ _ => exact absurd h2 (wordStart_not_number g)
  | unit g _ _ _ => exact absurd h2 (wordStart_not_number g)
  | numeral g _ _ _ _ _ _ _ _ _ => exact absurd h2 (wordStart_not_number g)

/-- C28: without `allow_time_unit_delimiter` no delimiter is accepted between the number and the unit of a single
duration (if no unit of the table starts with one). -/
theorem C28_unit_delimiter (s : Bytes) (d : Duration) (hs : IsText s) (hc : CfgText cfg)
    (hm : cfg.allowMultiple = false) (ha : cfg.allowTimeUnitDelimiter = false)
    (hu : ∀ id, StartsWith (cfg.innerDelimiter · = true) id → units.get id = none) {neg : Bool} {r W F t : Bytes}
    {e : Int} (h1 : SignPart cfg s neg r) (h2 : NumberText cfg r W F e t)
    (h3 : StartsWith (cfg.innerDelimiter · = true) t) : parse cfg units keywords numerals s ≠ .ok d := by
  intro h
  obtain ⟨neg', r', item, k1, k2, -⟩ := (C27_single cfg units keywords numerals s d hs hc hm).1 h
  obtain ⟨rfl, rfl⟩ := signPart_unique h1 k1
  cases k2 with
  | number g1 g2 =>
    obtain ⟨-, -, -, rfl⟩ := numberText_unique h2 g1
    cases g2 with
    | absent => obtain ⟨_, _, g, _⟩ := h3; cases g
    | present g _ _ g' =>
      unfold AfterDelims at g
      rw [ha] at g
      simp only [Bool.false_eq_true, if_false] at g
      subst g
      cases g' with
      | whole _ g => rw [hu _ h3] at g; cases g
      | plain _ _ _ g => rw [hu _ h3] at g; cases g
      | ago _ g1 g2 _ _ _ =>
        obtain ⟨b, l, rfl, hb⟩ := h3
        exact g2 (word_after_delim hb g1)
  | infinity _ g => exact absurd g (by
      rintro (g | g)
      · exact numberText_not_inf h2 g (Or.inl rfl)
      · exact numberText_not_inf h2 g (Or.inr rfl))
  | keyword g _ _ => exact absurd h2 (wordStart_not_number g)
  | unit g _ _ _ => exact absurd h2 (wordStart_not_number g)
  | numeral g _ _ _ _ _ _ _ _ _ => exact absurd h2 (wordStart_not_number g)

/-- C28: without `allow_sign_delimiter` no delimiter is accepted after the sign of a single duration (if the
delimiter is not a character which starts a number or infinity, and no identifier in a table starts with one). -/
theorem C28_sign_delimiter (sign b : UInt8) (l : Bytes) (d : Duration) (hs : IsText (sign :: b :: l)) (hc : CfgText cfg)
    (hm : cfg.allowMultiple = false) (ha : cfg.allowSignDelimiter = false) (hsign : sign = 43 ∨ sign = 45)
    (hb : cfg.innerDelimiter b = true) (hb' : ¬ IsDigit b ∧ b ≠ 46 ∧ b ≠ 105 ∧ b ≠ 73)
    (hu : ∀ id, StartsWith (cfg.innerDelimiter · = true) id → units.get id = none)
    (hk : ∀ k, keywords = some k → ∀ id, StartsWith (cfg.innerDelimiter · = true) id → k.get id = none) :
    parse cfg units keywords numerals (sign :: b :: l) ≠ .ok d := by
  intro h
  obtain ⟨neg, r, item, k1, k2, -⟩ := (C27_single cfg units keywords numerals _ d hs hc hm).1 h
  have hr : r = b :: l := by
    cases k1 with
    | absent _ g => exact absurd ⟨sign, _, rfl, hsign⟩ g
    | plus g _ => unfold AfterDelims at g; rw [ha] at g; exact g
    | minus g _ => unfold AfterDelims at g; rw [ha] at g; exact g
  subst hr
  have hst : StartsWith (cfg.innerDelimiter · = true) (b :: l) := ⟨b, l, rfl, hb⟩
  have hword : ∀ {w x : Bytes}, Split (¬ cfg.innerDelimiter · = true) (b :: l) w x → w = [] := word_after_delim hb
  have hsingle : ∀ u x, ¬ UnitSingle cfg units (b :: l) u x := by
    intro u x g
    cases g with
    | whole _ g => rw [hu _ hst] at g; cases g
    | plain _ _ _ g => rw [hu _ hst] at g; cases g
    | ago _ g1 g2 _ _ _ => exact g2 (hword g1)
  cases k2 with
  | number g _ =>
    rcases numberText_head g with ⟨_, _, g1, g2⟩ | ⟨_, _, g1, g2⟩ <;> cases g1
    · exact hb'.1 g2
    · exact hb'.2.1 g2
  | infinity _ g =>
    have hl : lower b = 105 := by
      rcases g with g | g
      · unfold SameText at g
        rw [List.map_cons] at g
        injection g
      · unfold SameText at g
        rw [List.map_cons] at g
        injection g
    unfold lower at hl
    split at hl
    · have : b = 73 := by
        have e := congrArg UInt8.toNat hl
        rw [UInt8.toNat_add] at e
        apply UInt8.toNat.inj
        show b.toNat = 73
        have e2 : (105 : UInt8).toNat = 105 := rfl
        have e3 : (32 : UInt8).toNat = 32 := rfl
        omega
      exact hb'.2.2.2 this
    · exact hb'.2.2.1 hl
  | keyword _ g1 g2 => rw [hk _ g1 _ hst] at g2; cases g2
  | unit _ _ _ g => exact hsingle _ _ g
  | numeral _ _ _ _ g1 g2 _ _ _ _ => exact g2 (hword g1)

/-- C28: the same for each of several durations: no fraction digits with `disable_fraction`, exponent 0 with
`disable_exponent`, no unit of a number without time units. -/
theorem C28_multiple (s : Bytes) (items : List (Bool × Item)) (h : Durations cfg units keywords numerals s items)
    (neg : Bool) (W F : Bytes) (e : Int) (u : Option (TimeUnit × Multiplier)) (hi : (neg, .number W F e u) ∈ items) :
    (cfg.disableFraction = true → F = []) ∧ (cfg.disableExponent = true → e = 0) ∧
      (units.isEmpty = true → u = none) := by
  have number : ∀ {r t W F e}, NumberText cfg r W F e t →
      (cfg.disableFraction = true → F = []) ∧ (cfg.disableExponent = true → e = 0) := by
    rintro r t W F e ⟨r1, r2, -, g1, g2⟩
    constructor
    · intro hf
      cases g1 with
      | absent _ _ => rfl
      | present g _ _ => rw [hf] at g; cases g
    · intro hf
      cases g2 with
      | absent _ => rfl
      | present _ g _ _ _ _ => rw [hf] at g; cases g
  have key : ∀ {r t item}, MultiText cfg units keywords numerals r item t → item = .number W F e u →
      (cfg.disableFraction = true → F = []) ∧ (cfg.disableExponent = true → e = 0) ∧
        (units.isEmpty = true → u = none) := by
    intro r t item h he
    cases h with
    | numberEnd g => cases he; exact ⟨(number g).1, (number g).2, fun _ => rfl⟩
    | numberUnit g _ g' _ => cases he; exact ⟨(number g).1, (number g).2, fun h => by rw [g'] at h; cases h⟩
    | number g _ _ _ _ => cases he; exact ⟨(number g).1, (number g).2, fun _ => rfl⟩
    | inf _ _ _ _ => cases he
    | infinity _ _ _ _ _ _ => cases he
    | keyword _ _ _ _ => cases he
    | unit _ _ _ _ => cases he
    | numeral _ _ _ _ _ _ _ _ _ _ => cases he
  induction h with
  | last _ h2 =>
    simp only [List.mem_singleton, Prod.mk.injEq] at hi
    exact key h2 hi.2.symm
  | more _ h2 _ _ ih =>
    simp only [List.mem_cons, Prod.mk.injEq] at hi
    rcases hi with hi | hi
    · exact key h2 hi.2.symm
    · exact ih hi

/-- the settings matter: each of these texts is accepted without the setting -/
example :
    (parse { singleConfig with disableFraction := true } exampleUnits none none (b! "1.5s")).toOption = none ∧
    (parse { singleConfig with disableExponent := true } exampleUnits none none (b! "1e5s")).toOption = none ∧
    (parse { singleConfig with allowTimeUnitDelimiter := false } exampleUnits none none (b! "1 s")).toOption = none ∧
    (parse { singleConfig with allowSignDelimiter := false } exampleUnits none none (b! "+ 1s")).toOption = none ∧
    (parse singleConfig ⟨true, fun _ => none⟩ none none (b! "1s")).toOption = none ∧
    parse singleConfig exampleUnits none none (b! "+ 1.5e1 s") = .ok ⟨false, ⟨15, 0⟩⟩ := by decide +kernel

example : ∀ id, StartsWith (singleConfig.innerDelimiter · = true) id → exampleUnits.get id = none := by
  rintro _ ⟨b, l, rfl, hb⟩
  have : b = 32 ∨ b = 9 ∨ b = 10 ∨ b = 12 ∨ b = 13 := by
    simp only [singleConfig, isAsciiWhitespace, Bool.or_eq_true, decide_eq_true_eq] at hb
    rcases hb with (((h | h) | h) | h) | h <;> simp [h]
  rcases this with rfl | rfl | rfl | rfl | rfl <;> simp [exampleUnits]

end

end Fundu.Props
