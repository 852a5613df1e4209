import Verif.Props.Standard
import Verif.Proofs.Spans
import Verif.Props.Concat
/-!
# Properties C76, C77: every duration can be written down; a sign in front of a text
-/
namespace Fundu.Props
open Fundu Fundu.Spec

/-! ## C76 -/

/-- `s` is the duration `d` written in seconds with nine decimal places: a minus sign exactly if `d` is marked as
negative (a plus sign is optional otherwise), the whole seconds, a point and nine digits for the nanoseconds -/
def Written (d : Duration) (s : Bytes) : Prop :=
  ∃ sign W F, s = sign ++ (W ++ (46 :: F)) ∧ SignText sign d.isNegative ∧ AllDigits W ∧ W ≠ [] ∧ AllDigits F ∧
    F.length = 9 ∧ decimal W = d.inner.secs ∧ decimal F = d.inner.nanos

theorem written_number {cfg : Config} (hf : cfg.disableFraction = false) {W F : Bytes} (hW : AllDigits W) (hne : W ≠ [])
    (hF : AllDigits F) : NumberText cfg (W ++ (46 :: F)) W F 0 [] :=
  ⟨46 :: F, [], split_of hW (by rw [startsWith_cons]; decide), .present hf (split_self hF) (Or.inl hne),
    .absent not_startsWith_nil⟩

theorem digit_not_sign {b : UInt8} (h : IsDigit b) : ¬ (b = 43 ∨ b = 45) := by
  rintro (rfl | rfl) <;> revert h <;> decide

theorem written_sign {cfg : Config} (hd : cfg.allowSignDelimiter = true → ∀ b, IsDigit b → cfg.innerDelimiter b = false)
    {sign r : Bytes} {neg : Bool} (h : SignText sign neg) (hr : StartsWith IsDigit r) : SignPart cfg (sign ++ r) neg r := by
  obtain ⟨b, l, rfl, hb⟩ := hr
  have ha : AfterDelims cfg.allowSignDelimiter cfg.innerDelimiter (b :: l) (b :: l) := by
    unfold AfterDelims
    split
    · rename_i hs
      refine ⟨[], rfl, (by simp), ?_⟩
      rw [startsWith_cons, hd hs b hb]
      simp
    · rfl
  rcases h with ⟨rfl, rfl⟩ | ⟨rfl, rfl⟩ | ⟨rfl, rfl⟩
  · refine .absent (by simp) ?_
    rw [List.nil_append, startsWith_cons]
    exact digit_not_sign hb
  · exact .plus ha (by simp)
  · exact .minus ha (by simp)

theorem written_value {neg : Bool} {W F : Bytes} (hl : F.length = 9) {d : Duration} {secs ns : Nat}
    (h1 : decimal W = secs) (h2 : decimal F = ns) (hm : (secs : Int) * 1000000000 + ns ≤ maxNanos)
    (hv : Value neg W F 0 TimeUnit.second.multiplier d) :
    nanos d = (if neg then -1 else 1) * ((secs : Int) * 1000000000 + ns) := by
  rw [documented_value (u := .second) (id := b! "s") (len := 1000000000) (by decide) (by omega) hv]
  congr 1
  have e : literalValue W F 0 * ((1000000000 : Nat) : ℚ) = (((secs : Int) * 1000000000 + ns : Int) : ℚ) := by
    unfold literalValue
    rw [h1, h2, hl]
    push_cast
    norm_num
    ring
  rw [e, Int.floor_intCast]
  omega

/-- the sign mark of a value: never negative for a positive sign, negative for a minus sign if it is not zero -/
theorem written_mark {neg : Bool} {W F : Bytes} {d : Duration} (hv : Value neg W F 0 TimeUnit.second.multiplier d)
    (hn : neg = false) : d.isNegative = false := by
  subst hn
  cases h : d.isNegative with
  | false => rfl
  | true => exact absurd (hv.2.2.1 h).2.2 (by decide)

theorem written_text {d : Duration} {s : Bytes} (h : Written d s) : IsText s := by
  obtain ⟨sign, W, F, rfl, h1, h2, -, h3, -⟩ := h
  refine isText_ascii fun b hb => ?_
  simp only [List.mem_append, List.mem_cons] at hb
  rcases hb with hb | hb | rfl | hb
  · exact signText_ascii h1 b hb
  · exact digit_ascii (h2 b hb)
  · decide
  · exact digit_ascii (h3 b hb)

theorem written_item {cfg : Config} {d : Duration} {s : Bytes} (hw : d.WF) (h : Written d s) (hu : cfg.defaultUnit = .second)
    (hf : cfg.disableFraction = false)
    (hd : cfg.allowSignDelimiter = true → ∀ b, IsDigit b → cfg.innerDelimiter b = false)
    (hn : cfg.allowNegative = true ∨ d.isNegative = false) :
    ∃ r W F x, SignPart cfg s d.isNegative r ∧ NumberText cfg r W F 0 [] ∧
      Accepted cfg d.isNegative (.number W F 0 none) x ∧ x.WF ∧ nanos x = nanos d := by
  obtain ⟨sign, W, F, rfl, h1, h2, h3, h4, h5, h6, h7⟩ := h
  obtain ⟨x, hx⟩ := value_exists d.isNegative W F 0 TimeUnit.second.multiplier
  refine ⟨_, W, F, x, written_sign hd h1 (startsWith_digits h2 h3), written_number hf h2 h3 h4,
    ⟨.number (by rw [hu]; exact hx), hn.imp_right fun h => written_mark hx h⟩, hx.1, ?_⟩
  have hm := stdNanos_le d.inner hw
  unfold stdNanos at hm
  rw [written_value h5 h6 h7 hm hx]
  unfold nanos
  cases d.isNegative <;> simp

section
variable (cfg : Config) (units : TimeUnitsLike) (keywords : Option TimeUnitsLike) (numerals : Option NumbersLike)

/-- C76: every duration written in seconds with nine decimal places is parsed to an equal duration, whatever the time
units, keywords and numerals of the parser are and whatever its other options are (fractions must not be disabled, the
default unit must be the second, and a negative duration must be allowed). -/
theorem C76_written (d : Duration) (hw : d.WF) (s : Bytes) (h : Written d s) (hc : CfgText cfg)
    (hu : cfg.defaultUnit = .second) (hf : cfg.disableFraction = false)
    (hd : cfg.allowSignDelimiter = true → ∀ b, IsDigit b → cfg.innerDelimiter b = false)
    (hn : cfg.allowNegative = true ∨ d.isNegative = false)
    (hm : cfg.allowMultiple = false ∨ (∀ b, cfg.innerDelimiter b = true → cfg.outerDelimiter b = true) ∨
      (keywords = none ∧ numerals = none)) :
    ∃ x, parse cfg units keywords numerals s = .ok x ∧ x.WF ∧ nanos x = nanos d ∧ x.eq d = true := by
  suffices hx : ∃ x, parse cfg units keywords numerals s = .ok x ∧ x.WF ∧ nanos x = nanos d by
    obtain ⟨x, h1, h2, h3⟩ := hx
    exact ⟨x, h1, h2, h3, (C01_eq_iff x d h2 hw).2 h3⟩
  obtain ⟨r, W, F, x, h1, h2, h3, h4, h5⟩ := written_item hw h hu hf hd hn
  cases hmult : cfg.allowMultiple with
  | false =>
    refine ⟨x, ?_, h4, h5⟩
    exact (C27_single cfg units keywords numerals s x (written_text h) hc hmult).2
      ⟨d.isNegative, r, _, h1, .number h2 .absent, h3⟩
  | true =>
    have hm' := hm.resolve_left (by rw [hmult]; simp)
    obtain ⟨y, g1, g2, g3⟩ := (C27_multiple cfg units keywords numerals s (nanos x) (written_text h) hc hmult hm').2
      ⟨[x], ⟨[(d.isNegative, .number W F 0 none)], .last h1 (.numberEnd h2), .cons h3 .nil⟩, by
        show nanos x = clamp (0 + nanos x)
        rw [Int.zero_add, clamp_nanos h4]⟩
    exact ⟨y, g1, g2, g3.trans h5⟩

end

theorem nineDigits (n : Nat) (h : n < 1000000000) : ∃ F, AllDigits F ∧ F.length = 9 ∧ decimal F = n := by
  have key : ∀ k n : Nat, n < 10 ^ k → ∃ F, AllDigits F ∧ F.length = k ∧ decimal F = n := by
    intro k
    induction k with
    | zero => intro n hn; exact ⟨[], (fun b hb => by cases hb), rfl, by simp at hn; simp [decimal, hn]⟩
    | succ k ih =>
      intro n hn
      obtain ⟨F, h1, h2, h3⟩ := ih (n % 10 ^ k) (Nat.mod_lt _ (by positivity))
      have hq : n / 10 ^ k < 10 := by
        rw [Nat.div_lt_iff_lt_mul (by positivity)]
        rw [pow_succ] at hn; omega
      have hdm := Nat.div_add_mod n (10 ^ k)
      generalize n / 10 ^ k = q at *
      have hb : (UInt8.ofNat (48 + q)).toNat = 48 + q := by
        rw [UInt8.toNat_ofNat']; omega
      refine ⟨UInt8.ofNat (48 + q) :: F, ?_, by simp [h2], ?_⟩
      · intro b hb'
        rcases List.mem_cons.1 hb' with rfl | hb'
        · unfold IsDigit; rw [hb]; omega
        · exact h1 b hb'
      · simp only [decimal, hb, h2, h3]
        rw [show 48 + q - 48 = q by omega, Nat.mul_comm]
        exact hdm
  exact key 9 n (by norm_num; exact h)

theorem someDigits (n : Nat) : ∃ W, AllDigits W ∧ W ≠ [] ∧ decimal W = n := by
  induction n using Nat.strongRecOn with
  | ind n ih =>
    have hb : (UInt8.ofNat (48 + n % 10)).toNat = 48 + n % 10 := by
      rw [UInt8.toNat_ofNat']; omega
    have hd : IsDigit (UInt8.ofNat (48 + n % 10)) := by
      unfold IsDigit; rw [hb]; omega
    by_cases h0 : n < 10
    · refine ⟨[UInt8.ofNat (48 + n % 10)], ?_, by simp, ?_⟩
      · intro b hb'; rw [List.mem_singleton] at hb'; rw [hb']; exact hd
      · simp only [decimal, hb, List.length_nil]; omega
    · obtain ⟨W, h1, h2, h3⟩ := ih (n / 10) (by omega)
      refine ⟨W ++ [UInt8.ofNat (48 + n % 10)], ?_, by simp, ?_⟩
      · intro b hb'
        rcases List.mem_append.1 hb' with hb' | hb'
        · exact h1 b hb'
        · rw [List.mem_singleton] at hb'; rw [hb']; exact hd
      · rw [decimal_append, h3]
        simp only [decimal, hb, List.length_cons, List.length_nil]
        omega

/-- C76: every duration has such a text, so each duration is the result of parsing some text. -/
theorem C76_every_duration (d : Duration) (hw : d.WF) : ∃ s, Written d s := by
  obtain ⟨W, h1, h2, h3⟩ := someDigits d.inner.secs
  obtain ⟨F, g1, g2, g3⟩ := nineDigits d.inner.nanos (by have := hw.2; omega)
  cases hn : d.isNegative with
  | false => exact ⟨_, [], W, F, rfl, by rw [hn]; exact Or.inl ⟨rfl, rfl⟩, h1, h2, g1, g2, h3, g3⟩
  | true => exact ⟨_, b! "-", W, F, rfl, by rw [hn]; exact Or.inr (Or.inr ⟨rfl, rfl⟩), h1, h2, g1, g2, h3, g3⟩

/-- C76: two different durations are never written with the same text. -/
theorem C76_injective (d d' : Duration) (hw : d.WF) (hw' : d'.WF) (s : Bytes) (h : Written d s) (h' : Written d' s) :
    nanos d = nanos d' := by
  obtain ⟨x, h1, -, h2, -⟩ := C76_written { allowNegative := true } ⟨true, fun _ => none⟩ none none d hw s h
    ⟨defaultConfig_text.inner, defaultConfig_text.outer, by intro ws h; cases h⟩ rfl rfl (by intro h; cases h) (Or.inl rfl) (Or.inl rfl)
  obtain ⟨x', h1', -, h2', -⟩ := C76_written { allowNegative := true } ⟨true, fun _ => none⟩ none none d' hw' s h'
    ⟨defaultConfig_text.inner, defaultConfig_text.outer, by intro ws h; cases h⟩ rfl rfl (by intro h; cases h) (Or.inl rfl) (Or.inl rfl)
  rw [h1] at h1'
  cases h1'
  exact h2.symm.trans h2'

/-- C76: `parse_duration` gives back every `std::time::Duration` exactly. -/
theorem C76_parse_duration (x : StdDuration) (hw : x.WF) (s : Bytes) (h : Written ⟨false, x⟩ s) :
    parseDuration s = .ok x := by
  obtain ⟨d, h1, h2, h3, -⟩ := C76_written DurationParser.new.config DurationParser.new.timeUnits.like none none ⟨false, x⟩ hw s h
    defaultConfig_text rfl rfl (by intro h; cases h) (Or.inr rfl) (Or.inl rfl)
  rcases C56_parse_duration s (written_text h) with ⟨d', y, g1, g2, g3, g4⟩ | ⟨e, g1, -⟩
  · have e : d' = d := by
      have : DurationParser.new.parse s = .ok d := h1
      rw [this] at g1
      cases g1
      rfl
    subst e
    rw [g2]
    congr 1
    rw [h3] at g4
    have : nanos ⟨false, x⟩ = stdNanos x := rfl
    rw [this] at g4
    obtain ⟨a, b⟩ := x
    obtain ⟨a', b'⟩ := y
    obtain ⟨k1, k2⟩ := hw
    obtain ⟨k3, k4⟩ := g3
    simp only [stdNanos] at *
    have e1 : a' = a := by omega
    have e2 : b' = b := by omega
    rw [e1, e2]
  · have : DurationParser.new.parse s = .ok d := h1
    rw [this] at g1
    cases g1

example : Written ⟨true, ⟨18446744073709551615, 1⟩⟩ (b! "-18446744073709551615.000000001") ∧
    ((DurationParser.withTimeUnits [.hour]).allowNegative true).parse (b! "-18446744073709551615.000000001") =
      .ok ⟨true, ⟨18446744073709551615, 1⟩⟩ := by
  refine ⟨⟨b! "-", b! "18446744073709551615", b! "000000001", by decide +kernel, Or.inr (Or.inr ⟨rfl, rfl⟩),
    by decide +kernel, by decide, by decide +kernel, rfl, by decide +kernel, by decide +kernel⟩, by decide +kernel⟩

example : Written ⟨false, ⟨12, 345000000⟩⟩ (b! "0012.345000000") ∧ parseDuration (b! "0012.345000000") = .ok ⟨12, 345000000⟩ := by
  refine ⟨⟨[], b! "0012", b! "345000000", by decide +kernel, Or.inl ⟨rfl, rfl⟩,
    by decide +kernel, by decide, by decide +kernel, rfl, by decide +kernel, by decide +kernel⟩, by decide +kernel⟩

/-! ## C77 -/

section
variable (cfg : Config) (units : TimeUnitsLike) (keywords : Option TimeUnitsLike) (numerals : Option NumbersLike)

/-- the text has no sign, and no delimiters which would be skipped after a sign -/
def NoSign (cfg : Config) (s : Bytes) : Prop :=
  ¬ StartsWith (fun b => b = 43 ∨ b = 45) s ∧ (cfg.allowSignDelimiter = true → ¬ StartsWith (cfg.innerDelimiter · = true) s)

theorem noSign_after {cfg : Config} {s r : Bytes} (h : NoSign cfg s) :
    AfterDelims cfg.allowSignDelimiter cfg.innerDelimiter s r ↔ r = s := by
  unfold AfterDelims
  by_cases ha : cfg.allowSignDelimiter = true
  · rw [if_pos ha]
    have hs : Split (cfg.innerDelimiter · = true) s [] s := ⟨rfl, by simp, h.2 ha⟩
    constructor
    · rintro ⟨ds, hd⟩; exact (split_unique hd hs).2
    · rintro rfl; exact ⟨[], hs⟩
  · rw [if_neg ha]

theorem noSign_absent {cfg : Config} {s r : Bytes} {neg : Bool} (h : NoSign cfg s) :
    SignPart cfg s neg r ↔ s ≠ [] ∧ neg = false ∧ r = s := by
  constructor
  · intro hp
    cases hp with
    | absent h1 _ => exact ⟨h1, rfl, rfl⟩
    | plus _ _ => exact absurd ⟨_, _, rfl, Or.inl rfl⟩ h.1
    | minus _ _ => exact absurd ⟨_, _, rfl, Or.inr rfl⟩ h.1
  · rintro ⟨h1, rfl, rfl⟩; exact .absent h1 h.1

theorem noSign_plus {cfg : Config} {s r : Bytes} {neg : Bool} (h : NoSign cfg s) :
    SignPart cfg (43 :: s) neg r ↔ s ≠ [] ∧ neg = false ∧ r = s := by
  constructor
  · intro hp
    cases hp with
    | absent _ h2 => exact absurd ⟨_, _, rfl, Or.inl rfl⟩ h2
    | plus h1 h2 =>
      have := (noSign_after h).1 h1
      subst this
      exact ⟨h2, rfl, rfl⟩
  · rintro ⟨h1, rfl, rfl⟩; exact .plus ((noSign_after h).2 rfl) h1

theorem noSign_minus {cfg : Config} {s r : Bytes} {neg : Bool} (h : NoSign cfg s) :
    SignPart cfg (45 :: s) neg r ↔ s ≠ [] ∧ neg = true ∧ r = s := by
  constructor
  · intro hp
    cases hp with
    | absent _ h2 => exact absurd ⟨_, _, rfl, Or.inr rfl⟩ h2
    | minus h1 h2 =>
      have := (noSign_after h).1 h1
      subst this
      exact ⟨h2, rfl, rfl⟩
  · rintro ⟨h1, rfl, rfl⟩; exact .minus ((noSign_after h).2 rfl) h1

theorem sign_text {s : Bytes} (hs : IsText s) (b : UInt8) (hb : b.toNat < 128) : IsText (b :: s) := by
  exact text_joined (a := [b]) (isText_ascii (by intro c hc; rw [List.mem_singleton] at hc; rw [hc]; exact hb)) hs

/-- C77: a plus sign in front of a text without a sign changes nothing, for parsers of one duration. -/
theorem C77_plus_single (s : Bytes) (hs : IsText s) (hc : CfgText cfg) (hm : cfg.allowMultiple = false) (hn : NoSign cfg s)
    (d : Duration) :
    parse cfg units keywords numerals (b! "+" ++ s) = .ok d ↔ parse cfg units keywords numerals s = .ok d := by
  show parse cfg units keywords numerals (43 :: s) = .ok d ↔ _
  rw [C27_single cfg units keywords numerals _ d (sign_text hs 43 (by decide)) hc hm, C27_single cfg units keywords numerals s d hs hc hm]
  unfold DenotesSingle
  simp only [noSign_plus hn, noSign_absent hn]

/-- C77: a plus sign in front of a text without a sign changes nothing, for parsers of several durations. -/
theorem C77_plus_multiple (s : Bytes) (hs : IsText s) (hc : CfgText cfg) (hm : cfg.allowMultiple = true) (hn : NoSign cfg s)
    (hd : (∀ b, cfg.innerDelimiter b = true → cfg.outerDelimiter b = true) ∨ (keywords = none ∧ numerals = none)) (x : Int) :
    (∃ d, parse cfg units keywords numerals (b! "+" ++ s) = .ok d ∧ d.WF ∧ nanos d = x) ↔
      ∃ d, parse cfg units keywords numerals s = .ok d ∧ d.WF ∧ nanos d = x := by
  show (∃ d, parse cfg units keywords numerals (43 :: s) = .ok d ∧ d.WF ∧ nanos d = x) ↔ _
  rw [C27_multiple cfg units keywords numerals _ x (sign_text hs 43 (by decide)) hc hm hd,
    C27_multiple cfg units keywords numerals s x hs hc hm hd]
  have key : ∀ items, Durations cfg units keywords numerals (43 :: s) items ↔ Durations cfg units keywords numerals s items := by
    intro items
    constructor
    · intro h
      cases h with
      | last h1 h2 => exact .last ((noSign_absent hn).2 ((noSign_plus hn).1 h1)) h2
      | more h1 h2 h3 h4 => exact .more ((noSign_absent hn).2 ((noSign_plus hn).1 h1)) h2 h3 h4
    · intro h
      cases h with
      | last h1 h2 => exact .last ((noSign_plus hn).2 ((noSign_absent hn).1 h1)) h2
      | more h1 h2 h3 h4 => exact .more ((noSign_plus hn).2 ((noSign_absent hn).1 h1)) h2 h3 h4
  unfold DenotesMultiple
  simp only [key]

/-- the text is a number or infinity, not a word -/
def NoWord (cfg : Config) (s : Bytes) : Prop :=
  StartsWith IsDigit s ∨ StartsWith (· = 46) s ∨
    (cfg.disableInfinity = false ∧ (SameText s (b! "inf") ∨ SameText s (b! "infinity")))

/-- the powers of ten of all words are small enough for their signs (see finding F1): at most 19 -/
structure SmallExponents (units : TimeUnitsLike) (keywords : Option TimeUnitsLike) (numerals : Option NumbersLike) : Prop where
  ofUnits : ∀ id u m, units.get id = some (u, m) → u.multiplier.exponent + m.exponent ≤ 19
  ofKeywords : ∀ k, keywords = some k → ∀ id u m, k.get id = some (u, m) → u.multiplier.exponent + m.exponent ≤ 19
  ofNumerals : ∀ n, numerals = some n → ∀ w q, n w = some q → ∀ id u m, units.get id = some (u, m) →
    q.exponent + u.multiplier.exponent + m.exponent ≤ 19

theorem value_opposite {neg : Bool} {W F : Bytes} {e : Int} {m : Multiplier} {d d' : Duration} (h : Value neg W F e m d)
    (h' : Value (!neg) W F e m d') : nanos d' = -nanos d := by
  rw [h.2.1, h'.2.1]
  have : literalSign (!neg) m.coefficient = -literalSign neg m.coefficient := by
    unfold literalSign
    cases neg <;> by_cases hc : m.coefficient < 0 <;> simp [hc]
  rw [this]
  ring

theorem unitSingle_get {cfg : Config} {units : TimeUnitsLike} {s r : Bytes} {u : TimeUnit} {m : Multiplier}
    (h : UnitSingle cfg units s (u, m) r) : ∃ id m', units.get id = some (u, m') ∧ m'.exponent = m.exponent := by
  cases h with
  | whole _ h => exact ⟨_, _, h, rfl⟩
  | plain _ _ _ h => exact ⟨_, _, h, rfl⟩
  | ago _ _ _ h => exact ⟨_, _, h, rfl⟩

/-- an item with the other sign denotes the negation -/
theorem denotes_negated {cfg : Config} {neg : Bool} {units : TimeUnitsLike} {keywords : Option TimeUnitsLike}
    {numerals : Option NumbersLike} {s : Bytes} {item : Item} {d : Duration}
    (hw : NoWord cfg s ∨ SmallExponents units keywords numerals) (hi : SingleText cfg units keywords numerals s item)
    (h : Denotes cfg neg item d) : ∃ d', Denotes cfg (!neg) item d' ∧ nanos d' = -nanos d := by
  have noword : WordStart cfg s → SmallExponents units keywords numerals := by
    intro hws
    refine hw.resolve_left ?_
    rintro (h | h | ⟨h, h'⟩)
    · exact hws.2.1 h
    · exact hws.2.2.1 h
    · refine hws.2.2.2 h ⟨s.drop 3, s.take 3, (List.take_append_drop ..).symm, ?_⟩
      unfold SameText at h' ⊢
      rw [List.map_take]
      rcases h' with h' | h' <;> rw [h'] <;> decide
  have word : ∀ u m, (product u.multiplier m).exponent ≤ 19 → Denotes cfg neg (.word (u, m)) d →
      ∃ d', Denotes cfg (!neg) (.word (u, m)) d' ∧ nanos d' = -nanos d := by
    intro u m he h
    cases h with
    | word h1 h2 =>
      rw [decide_eq_true he, Bool.and_true] at h2
      obtain ⟨d', hd'⟩ := value_exists (!neg) (b! "1") [] 0 (product u.multiplier m)
      exact ⟨d', .word h1 (by rw [decide_eq_true he, Bool.and_true]; exact hd'), value_opposite h2 hd'⟩
  cases hi with
  | number _ _ =>
    cases h with
    | number h =>
      obtain ⟨d', hd'⟩ := value_exists (!neg) _ _ _ _
      exact ⟨d', .number hd', value_opposite h hd'⟩
    | numberUnit hf h =>
      obtain ⟨d', hd'⟩ := value_exists (!neg) _ _ _ _
      exact ⟨d', .numberUnit hf hd', value_opposite h hd'⟩
  | infinity _ _ =>
    cases h with
    | infinity h1 h2 =>
      cases neg with
      | false => exact ⟨⟨true, ⟨18446744073709551615, 999999999⟩⟩, .infinity (by decide) (by decide), by rw [h2]; decide⟩
      | true => exact ⟨⟨false, ⟨18446744073709551615, 999999999⟩⟩, .infinity (by decide) (by decide), by rw [h2]; decide⟩
  | @keyword k u hws hk hg =>
    obtain ⟨u, m⟩ := u
    exact word u m ((noword hws).ofKeywords k hk _ u m hg) h
  | @unit u hws _ _ hg =>
    obtain ⟨u, m⟩ := u
    obtain ⟨id, m', g1, g2⟩ := unitSingle_get hg
    have := (noword hws).ofUnits id u m' g1
    rw [g2] at this
    exact word u m this h
  | @numeral n w r1 q ds r2 u hws _ _ hn _ _ hq _ _ hg =>
    obtain ⟨u, m⟩ := u
    obtain ⟨id, m', g1, g2⟩ := unitSingle_get hg
    have he := (noword hws).ofNumerals n hn w q hq id u m' g1
    rw [g2] at he
    replace he : (product (product q u.multiplier) m).exponent ≤ 19 := he
    cases h with
    | numeral h1 h2 h3 =>
      rw [decide_eq_true he, Bool.and_true] at h3
      obtain ⟨d', hd'⟩ := value_exists (!neg) (b! "1") [] 0 (product (product q u.multiplier) m)
      exact ⟨d', .numeral h1 h2 (by rw [decide_eq_true he, Bool.and_true]; exact hd'), value_opposite h3 hd'⟩

/-- C77: if negative durations are allowed, a minus sign in front of a text without a sign negates its duration, and the
text with the minus sign is accepted exactly if the one without is. For parsers of one duration; words need powers of
ten of at most 19 (finding F1). -/
theorem C77_minus (s : Bytes) (hs : IsText s) (hc : CfgText cfg) (hm : cfg.allowMultiple = false) (hn : NoSign cfg s)
    (ha : cfg.allowNegative = true) (hw : NoWord cfg s ∨ SmallExponents units keywords numerals) (x : Int) :
    (∃ d, parse cfg units keywords numerals (b! "-" ++ s) = .ok d ∧ nanos d = -x) ↔
      ∃ d, parse cfg units keywords numerals s = .ok d ∧ nanos d = x := by
  show (∃ d, parse cfg units keywords numerals (45 :: s) = .ok d ∧ nanos d = -x) ↔ _
  simp only [C27_single cfg units keywords numerals _ _ (sign_text hs 45 (by decide)) hc hm,
    C27_single cfg units keywords numerals s _ hs hc hm]
  unfold DenotesSingle
  simp only [noSign_minus hn, noSign_absent hn]
  constructor
  · rintro ⟨d, ⟨neg, r, item, ⟨h1, rfl, rfl⟩, h2, h3, h4⟩, h5⟩
    obtain ⟨d', g1, g2⟩ := denotes_negated hw h2 h3
    exact ⟨d', ⟨false, r, item, ⟨h1, rfl, rfl⟩, h2, g1, Or.inl ha⟩, by omega⟩
  · rintro ⟨d, ⟨neg, r, item, ⟨h1, rfl, rfl⟩, h2, h3, h4⟩, h5⟩
    obtain ⟨d', g1, g2⟩ := denotes_negated hw h2 h3
    exact ⟨d', ⟨true, r, item, ⟨h1, rfl, rfl⟩, h2, g1, Or.inl ha⟩, by omega⟩

end

/-- the units of a `DurationParser` meet the condition of `C77_minus` -/
theorem C77_standard (us : List TimeUnit) : SmallExponents (DurationParser.withTimeUnits us).timeUnits.like none none where
  ofUnits := by
    intro id u m h
    obtain ⟨u', _, _, h3⟩ := (C34_get us id (u, m)).1 h
    cases h3
    cases u <;> decide
  ofKeywords := by intro k h; cases h
  ofNumerals := by intro n h; cases h

example : NoSign ((DurationParser.withTimeUnits [.hour]).allowNegative true).config (b! "1.5h") ∧
    ((DurationParser.withTimeUnits [.hour]).allowNegative true).parse (b! "1.5h") = .ok ⟨false, ⟨5400, 0⟩⟩ ∧
    ((DurationParser.withTimeUnits [.hour]).allowNegative true).parse (b! "-1.5h") = .ok ⟨true, ⟨5400, 0⟩⟩ := by
  refine ⟨⟨?_, by intro h; cases h⟩, by decide +kernel⟩
  rintro ⟨_, _, h, h'⟩
  cases h
  revert h'; decide

end Fundu.Props
