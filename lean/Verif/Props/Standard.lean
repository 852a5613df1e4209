import Verif.Props.Words
import Verif.Props.Units
import Verif.Props.Builder
import Verif.Props.Conversion
import Verif.Spec.Units
import Verif.Spec.Spans
/-!
# Properties C55-C57: lengths of the time units; the standard and the custom parser do not panic
-/
namespace Fundu.Props
open Fundu Fundu.Spec

/-! ## C55 -/

theorem isText_ascii {s : Bytes} (h : ∀ b ∈ s, b.toNat < 128) : IsText s := (isText_iff s).2 (utf8Valid_ascii h)

theorem defaultConfig_text : CfgText {} :=
  ⟨exampleConfig_text.inner, exampleConfig_text.outer, by intro ws h; cases h⟩

theorem digit_ascii {b : UInt8} (h : IsDigit b) : b.toNat < 128 := by have := h.2; omega

/-- identifiers of the documented units are ASCII letters, not `e`, `E` or `i` -/
theorem documented_id {u : TimeUnit} {id : Bytes} {len : Nat} (h : (u, id, len) ∈ documentedUnits) :
    (∀ b ∈ id, b.toNat < 128) ∧ id ≠ [] ∧ u.defaultIdentifier = id ∧
    (∀ b, id.head? = some b → ¬ IsDigit b ∧ b ≠ 46 ∧ b ≠ 101 ∧ b ≠ 69) := by
  simp only [documentedUnits, List.mem_cons, List.not_mem_nil, or_false, Prod.mk.injEq] at h
  rcases h with ⟨rfl, rfl, rfl⟩ | ⟨rfl, rfl, rfl⟩ | ⟨rfl, rfl, rfl⟩ | ⟨rfl, rfl, rfl⟩ | ⟨rfl, rfl, rfl⟩ |
    ⟨rfl, rfl, rfl⟩ | ⟨rfl, rfl, rfl⟩ | ⟨rfl, rfl, rfl⟩ | ⟨rfl, rfl, rfl⟩ | ⟨rfl, rfl, rfl⟩ <;>
  exact ⟨by decide, by decide, by decide, by decide⟩

theorem documented_multiplier {u : TimeUnit} {id : Bytes} {len : Nat} (h : (u, id, len) ∈ documentedUnits) :
    0 < u.multiplier.coefficient ∧ (u.multiplier.exponent = 0 ∨ u.multiplier.coefficient = 1) ∧
    (10 : ℚ) ^ u.multiplier.exponent * (u.multiplier.coefficient : ℚ) * 10 ^ 9 = len := by
  simp only [documentedUnits, List.mem_cons, List.not_mem_nil, or_false, Prod.mk.injEq] at h
  rcases h with ⟨rfl, rfl, rfl⟩ | ⟨rfl, rfl, rfl⟩ | ⟨rfl, rfl, rfl⟩ | ⟨rfl, rfl, rfl⟩ | ⟨rfl, rfl, rfl⟩ |
    ⟨rfl, rfl, rfl⟩ | ⟨rfl, rfl, rfl⟩ | ⟨rfl, rfl, rfl⟩ | ⟨rfl, rfl, rfl⟩ | ⟨rfl, rfl, rfl⟩ <;>
  refine ⟨by decide, by decide, ?_⟩ <;> norm_num [TimeUnit.multiplier, zpow_neg]

theorem documented_value {u : TimeUnit} {id : Bytes} {len : Nat} (h : (u, id, len) ∈ documentedUnits)
    {neg : Bool} {W F : Bytes} (hF : F.length ≤ 18) {d : Duration} (hd : Value neg W F 0 u.multiplier d) :
    nanos d = (if neg then -1 else 1) * min maxNanos ⌊literalValue W F 0 * len⌋ := by
  obtain ⟨h1, h2, h3⟩ := documented_multiplier h
  rw [hd.2.1]
  have hs : literalSign neg u.multiplier.coefficient = if neg then -1 else 1 := by
    unfold literalSign
    rw [if_neg (show ¬ u.multiplier.coefficient < 0 by omega), mul_one]
  have hx : (∃ z : ℤ, literalValue W F (0 + u.multiplier.exponent) * 10 ^ 18 = z) ∨
      u.multiplier.coefficient = 1 ∨ u.multiplier.coefficient = -1 := by
    rcases h2 with h2 | h2
    · left
      obtain ⟨n, hn⟩ := Int.eq_ofNat_of_zero_le (show 0 ≤ (18 : ℤ) - F.length by omega)
      refine ⟨decimal (W ++ F) * 10 ^ n, ?_⟩
      rw [literalValue_eq, mul_assoc, show ((10 : ℚ) ^ 18) = 10 ^ (18 : ℤ) by norm_num,
        ← zpow_add₀ (by norm_num), h2, show 0 + 0 - (F.length : ℤ) + 18 = (n : ℤ) by omega]
      push_cast
      rw [zpow_natCast]
    · exact Or.inr (Or.inl h2)
  rw [hs, C17_exact _ _ hx, abs_of_pos h1]
  congr 3
  rw [literalValue_eq, literalValue_eq, mul_assoc, mul_assoc, ← h3,
    show (0 : ℤ) + u.multiplier.exponent - F.length = u.multiplier.exponent + (0 - F.length) by ring,
    zpow_add₀ (by norm_num)]
  ring

theorem not_startsWith {p : UInt8 → Prop} {s : Bytes} (h : ∀ b, s.head? = some b → ¬ p b) : ¬ StartsWith p s := by
  rintro ⟨b, l, rfl, hb⟩
  exact h b rfl hb

theorem signText_part {cfg : Config} (hsd : cfg.allowSignDelimiter = false) {s r : Bytes} {neg : Bool}
    (h : SignText s neg) (hr : StartsWith IsDigit r) : SignPart cfg (s ++ r) neg r := by
  obtain ⟨b, l, rfl, hb⟩ := hr
  have hd : AfterDelims cfg.allowSignDelimiter cfg.innerDelimiter (b :: l) (b :: l) := by
    unfold AfterDelims; rw [hsd]; rfl
  rcases h with ⟨rfl, rfl⟩ | ⟨rfl, rfl⟩ | ⟨rfl, rfl⟩
  · refine .absent (by simp) (not_startsWith ?_)
    intro b' h; cases h
    rintro (rfl | rfl) <;> revert hb <;> decide
  · exact .plus hd (by simp)
  · exact .minus hd (by simp)

theorem signText_ascii {s : Bytes} {neg : Bool} (h : SignText s neg) : ∀ b ∈ s, b.toNat < 128 := by
  rcases h with ⟨rfl, -⟩ | ⟨rfl, -⟩ | ⟨rfl, -⟩ <;> decide

theorem startsWith_digits {W r : Bytes} (hW : AllDigits W) (hne : W ≠ []) : StartsWith IsDigit (W ++ r) := by
  cases W with
  | nil => exact absurd rfl hne
  | cons b l => exact ⟨b, l ++ r, rfl, hW b (by simp)⟩

/-- a parser with the given units which allows negative durations accepts a number with a unit -/
theorem parse_unit_literal {units : List TimeUnit} {u : TimeUnit} {id : Bytes} {len : Nat}
    (h : (u, id, len) ∈ documentedUnits) (hu : u ∈ units) {sign W F t : Bytes} {neg : Bool}
    (hsign : SignText sign neg)
    (hascii : ∀ b ∈ t, b.toNat < 128)
    (hN : NumberText ((DurationParser.withTimeUnits units).allowNegative true).config t W F 0 id) (ht : StartsWith IsDigit t)
    (hF : F.length ≤ 18) :
    ∃ d, ((DurationParser.withTimeUnits units).allowNegative true).parse (sign ++ t) = .ok d ∧ d.WF ∧
      nanos d = (if neg then -1 else 1) * min maxNanos ⌊literalValue W F 0 * len⌋ := by
  obtain ⟨h1, h2, h3, h4⟩ := documented_id h
  obtain ⟨d, hd⟩ := value_exists neg W F 0 (product u.multiplier ⟨1, 0⟩)
  have hp : product u.multiplier ⟨1, 0⟩ = u.multiplier := by simp [product]
  refine ⟨d, ?_, hd.1, documented_value h hF (hp ▸ hd)⟩
  have hne' : (DurationParser.withTimeUnits units).timeUnits.like.isEmpty = false := by
    have := C34_is_empty units
    cases he : (DurationParser.withTimeUnits units).timeUnits.like.isEmpty with
    | false => rfl
    | true => rw [this.1 he] at hu; cases hu
  have hget : (DurationParser.withTimeUnits units).timeUnits.like.get id = some (u, ⟨1, 0⟩) :=
    (C34_get units id _).2 ⟨u, hu, h3, rfl⟩
  refine (C27_single ((DurationParser.withTimeUnits units).allowNegative true).config
    (DurationParser.withTimeUnits units).timeUnits.like none none _ d (isText_ascii ?_) ⟨defaultConfig_text.inner, defaultConfig_text.outer, by intro ws h; cases h⟩ rfl).2 ?_
  · intro b hb
    rcases List.mem_append.1 hb with hb | hb
    · exact signText_ascii hsign b hb
    · exact hascii b hb
  · refine ⟨neg, t, _, signText_part rfl hsign ht, .number hN (.present ?_ h2 hne' (.whole rfl hget)), .numberUnit ?_ hd, Or.inl rfl⟩
    · show AfterDelims false _ _ _
      unfold AfterDelims; simp
    · cases u <;> decide

/-- C55: for every documented time unit `u` (identifier `id`, length `len` nanoseconds) among the units of a parser,
the digits `W` followed by `id`, with an optional sign, denote exactly `W * len` nanoseconds, saturating at the
maximum. -/
theorem C55_number_unit (units : List TimeUnit) (u : TimeUnit) (id : Bytes) (len : Nat)
    (h : (u, id, len) ∈ documentedUnits) (hu : u ∈ units) (sign W : Bytes) (neg : Bool) (hsign : SignText sign neg)
    (hW : AllDigits W) (hne : W ≠ []) :
    ∃ d, ((DurationParser.withTimeUnits units).allowNegative true).parse (sign ++ W ++ id) = .ok d ∧ d.WF ∧
      nanos d = (if neg then -1 else 1) * min maxNanos (decimal W * len : ℤ) := by
  obtain ⟨h1, h2, h3, h4⟩ := documented_id h
  have := parse_unit_literal h hu (t := W ++ id) (F := []) hsign
    (by
      intro b hb
      rcases List.mem_append.1 hb with hb | hb
      · exact digit_ascii (hW b hb)
      · exact h1 b hb)
    ⟨id, id, split_of hW (not_startsWith fun b hb => (h4 b hb).1), .absent hne (not_startsWith fun b hb => (h4 b hb).2.1),
      .absent (not_startsWith fun b hb => by
        rintro (h | h)
        · exact (h4 b hb).2.2.1 h
        · exact (h4 b hb).2.2.2 h)⟩
    (startsWith_digits hW hne) (by simp)
  have e : literalValue W [] 0 * (len : ℚ) = ((decimal W * len : ℤ) : ℚ) := by
    unfold literalValue; simp [decimal]
  rw [e, Int.floor_intCast] at this
  rw [List.append_assoc]
  exact this

/-- C55: the order of the time units is that of their lengths. -/
theorem C55_order (u v : TimeUnit) (id id' : Bytes) (len len' : Nat) (h : (u, id, len) ∈ documentedUnits)
    (h' : (v, id', len') ∈ documentedUnits) : compare u.index v.index = compare len len' := by
  have : ∀ x ∈ documentedUnits, ∀ y ∈ documentedUnits, compare x.1.index y.1.index = compare x.2.2 y.2.2 := by decide +kernel
  exact this _ h _ h'

/-- C55: the same with a decimal point and up to 18 fraction digits `F`: the exact value cut off to nanoseconds. -/
theorem C55_fraction_unit (units : List TimeUnit) (u : TimeUnit) (id : Bytes) (len : Nat)
    (h : (u, id, len) ∈ documentedUnits) (hu : u ∈ units) (sign W F : Bytes) (neg : Bool) (hsign : SignText sign neg)
    (hW : AllDigits W) (hne : W ≠ []) (hF : AllDigits F) (hlen : F.length ≤ 18) :
    ∃ d, ((DurationParser.withTimeUnits units).allowNegative true).parse (sign ++ W ++ b! "." ++ F ++ id) = .ok d ∧
      d.WF ∧ nanos d = (if neg then -1 else 1) *
        min maxNanos ⌊((decimal W : ℚ) + (decimal F : ℚ) / 10 ^ F.length) * len⌋ := by
  obtain ⟨h1, h2, h3, h4⟩ := documented_id h
  have := parse_unit_literal h hu (t := W ++ (46 :: (F ++ id))) (F := F) hsign
    (by
      intro b hb
      simp only [List.mem_append, List.mem_cons] at hb
      rcases hb with hb | rfl | hb | hb
      · exact digit_ascii (hW b hb)
      · decide
      · exact digit_ascii (hF b hb)
      · exact h1 b hb)
    ⟨46 :: (F ++ id), id, split_of hW (not_startsWith fun b hb => by cases hb; decide),
      .present rfl (split_of hF (not_startsWith fun b hb => (h4 b hb).1)) (Or.inl hne),
      .absent (not_startsWith fun b hb => by
        rintro (h | h)
        · exact (h4 b hb).2.2.1 h
        · exact (h4 b hb).2.2.2 h)⟩
    (startsWith_digits hW hne) hlen
  have e : literalValue W F 0 = (decimal W : ℚ) + (decimal F : ℚ) / 10 ^ F.length := by
    unfold literalValue; simp
  rw [e] at this
  have e2 : sign ++ W ++ b! "." ++ F ++ id = sign ++ (W ++ (46 :: (F ++ id))) := by
    have : b! "." = [46] := by decide
    rw [this]; simp
  rw [e2]
  exact this

/-- C55: a number without a unit has the default unit, which is seconds if it is not changed. -/
theorem C55_default_unit (units : List TimeUnit) (u : TimeUnit) (id : Bytes) (len : Nat)
    (h : (u, id, len) ∈ documentedUnits) (W : Bytes) (hW : AllDigits W) (hne : W ≠ []) :
    (∃ d, ((DurationParser.withTimeUnits units).defaultUnit u).parse W = .ok d ∧ d.WF ∧
      nanos d = min maxNanos (decimal W * len : ℤ)) ∧
    ((DurationParser.withTimeUnits units).defaultUnit .second).parse W = (DurationParser.withTimeUnits units).parse W := by
  have hdef : (DurationParser.withTimeUnits units).defaultUnit .second = DurationParser.withTimeUnits units := rfl
  refine ⟨?_, by rw [hdef]⟩
  obtain ⟨d, hd⟩ := value_exists false W [] 0 u.multiplier
  have hv := documented_value h (by simp) hd
  have e : literalValue W [] 0 * (len : ℚ) = ((decimal W * len : ℤ) : ℚ) := by
    unfold literalValue; simp [decimal]
  rw [e, Int.floor_intCast] at hv
  simp only [Bool.false_eq_true, if_false, one_mul] at hv
  refine ⟨d, ?_, hd.1, hv⟩
  refine (C27_single ((DurationParser.withTimeUnits units).defaultUnit u).config
    (DurationParser.withTimeUnits units).timeUnits.like none none _ d (isText_ascii fun b hb => digit_ascii (hW b hb)) ⟨defaultConfig_text.inner, defaultConfig_text.outer, by intro ws h; cases h⟩ rfl).2 ?_
  have hs : SignPart ((DurationParser.withTimeUnits units).defaultUnit u).config W false W := by
    have := signText_part (cfg := ((DurationParser.withTimeUnits units).defaultUnit u).config) rfl
      (s := []) (neg := false) (Or.inl ⟨rfl, rfl⟩) (r := W) (by simpa using startsWith_digits (r := []) hW hne)
    exact this
  refine ⟨false, W, _, hs, .number (W := W) (F := []) (e := 0) (r := []) ⟨[], [], split_self hW, .absent hne ?_, .absent ?_⟩ .absent, .number hd, Or.inr ?_⟩
  · exact not_startsWith (by simp)
  · exact not_startsWith (by simp)
  · have hsg : literalSign false u.multiplier.coefficient = 1 := by
      have := (documented_multiplier h).1
      unfold literalSign
      rw [if_neg (show ¬ u.multiplier.coefficient < 0 by omega)]; simp
    have := hd.2.2
    rw [hsg] at this
    cases hn : d.isNegative with
    | false => rfl
    | true => exact absurd (this.1 hn).2.2 (by decide)

example : (DurationParser.withAllTimeUnits.allowNegative true).parse (b! "-12M") =
    .ok ⟨true, ⟨31557600, 0⟩⟩ ∧ DurationParser.withAllTimeUnits.parse (b! "1.5y") = .ok ⟨false, ⟨47336400, 0⟩⟩ := by
  decide +kernel

/-! ## C56 -/

theorem standard_fits (units : List TimeUnit) : TableFits (TimeUnits.withTimeUnits units).like := by
  intro id u m h
  obtain ⟨u', _, _, h3⟩ := (C34_get units id (u, m)).1 h
  cases h3
  cases u <;> decide

/-- C56: a `DurationParser` with any time units and any options (with ASCII delimiters) returns a duration or an
error for every text; it does not panic. -/
theorem C56_no_panic (units : List TimeUnit) (calls : List SetterCall) (s : Bytes) (hs : IsText s)
    (hc : CfgText (calls.foldl callStandardParser (DurationParser.withTimeUnits units)).config) :
    (∃ d, (calls.foldl callStandardParser (DurationParser.withTimeUnits units)).parse s = .ok d ∧ d.WF) ∨
      (∃ e, (calls.foldl callStandardParser (DurationParser.withTimeUnits units)).parse s = fail e) := by
  have ht := (C35_standard_setters (DurationParser.withTimeUnits units) calls).2
  generalize calls.foldl callStandardParser (DurationParser.withTimeUnits units) = p at hc ht
  refine C23_no_panic p.config p.timeUnits.like none none s hs hc ?_ (by intro k h; cases h) (by intro n h; cases h)
  rw [ht]
  exact standard_fits units

/-- C56: `parse_duration` does not panic: it returns the duration which the default parser returns, as a
`std::time::Duration` of the same length, or the same error. -/
theorem C56_parse_duration (s : Bytes) (hs : IsText s) :
    (∃ d x, DurationParser.new.parse s = .ok d ∧ parseDuration s = .ok x ∧ x.WF ∧ stdNanos x = nanos d) ∨
    (∃ e, DurationParser.new.parse s = fail e ∧ parseDuration s = fail e) := by
  have hnp : (∃ d, DurationParser.new.parse s = .ok d ∧ d.WF) ∨ (∃ e, DurationParser.new.parse s = fail e) :=
    C56_no_panic [.nanoSecond, .microSecond, .milliSecond, .second, .minute, .hour, .day, .week] [] s hs
      defaultConfig_text
  rcases hnp with ⟨d, hd, hw⟩ | ⟨e, he⟩
  · left
    have hnn := (C22_nonnegative DurationParser.new.config _ none none s d rfl hd).2
    obtain ⟨x, hx, hxw, hxn⟩ := (C07_to_std d hw).1 hnn
    refine ⟨d, x, hd, ?_, hxw, hxn⟩
    unfold parseDuration
    rw [hd, ok_bind, hx]
    rfl
  · right
    refine ⟨e, he, ?_⟩
    unfold parseDuration
    rw [he]
    rfl

example : IsText (b! "1.5µ") ∧ parseDuration (b! "1.5ms") = .ok ⟨0, 1500000⟩ ∧
    parseDuration (b! "-1ns") = fail .negativeNumber ∧
    parseDuration (b! "1.5µ") = fail (.timeUnit 3 (.invalidTimeUnit (b! "µ"))) := by
  refine ⟨⟨"1.5µ".toList, by decide +kernel⟩, ?_⟩
  decide +kernel

/-! ## C57 -/

/-- the unit is the result of `CustomTimeUnit::new` or `CustomTimeUnit::with_default` (with a multiplier in the
range of its type) -/
def Constructed (r : CustomTimeUnit) : Prop :=
  (∃ u ids m, (∀ q, m = some q → IsI64 q.coefficient ∧ IsI16 q.exponent) ∧ CustomTimeUnit.new u ids m = .ok r) ∨
  (∃ u ids, r = CustomTimeUnit.withDefault u ids)

theorem constructed_fits {r : CustomTimeUnit} (h : Constructed r) :
    IsI64 r.multiplier.coefficient ∧ IsI16 r.multiplier.exponent ∧ Fits r.baseUnit.multiplier r.multiplier := by
  have hone : ∀ u : TimeUnit, IsI64 (1 : Int) ∧ IsI16 (0 : Int) ∧ Fits u.multiplier ⟨1, 0⟩ := by
    intro u; cases u <;> decide
  rcases h with ⟨u, ids, m, hm, h⟩ | ⟨u, ids, rfl⟩
  · unfold CustomTimeUnit.new at h
    cases m with
    | none => cases h; exact hone u
    | some q =>
      obtain ⟨h1, h2⟩ := hm q rfl
      simp only at h
      by_cases hs : (u.multiplier.checkedMul q).isSome = true
      · rw [if_pos hs] at h
        cases h
        obtain ⟨p, hp⟩ := Option.isSome_iff_exists.1 hs
        exact ⟨h1, h2, (checkedMul_iff.1 hp).1⟩
      · rw [if_neg hs] at h; cases h
  · exact hone u

theorem custom_fits {regs : List CustomTimeUnit} (h : ∀ r ∈ regs, Constructed r) :
    TableFits (CustomTimeUnits.withTimeUnits regs).like := by
  intro id u m hg
  obtain ⟨r, hr, rfl, rfl, _⟩ := C36_sound regs id u m hg
  exact constructed_fits (h r hr)

/-- C57: a `CustomDurationParser` made by any sequence of calls, whose time units and keywords were made by their
constructors, returns a duration or an error for every text and does not panic, if each product of a numeral and
a time unit (or its negation) is representable - in particular if it has no numerals. -/
theorem C57_no_panic (calls : List CustomCall) (s : Bytes) (hs : IsText s)
    (hc : CfgText (calls.foldl callCustomSetter CustomDurationParser.new).config)
    (hu : ∀ r ∈ calls.flatMap CustomCall.units, Constructed r)
    (hk : ∀ k ∈ calls.flatMap CustomCall.keywordUnits, Constructed k.timeUnit)
    (hn : ∀ n ∈ calls.flatMap CustomCall.numeralList, ∀ r ∈ calls.flatMap CustomCall.units,
      Fits n.multiplier r.baseUnit.multiplier ∧
      Fits (product n.multiplier r.baseUnit.multiplier) r.multiplier ∧
      Fits (product n.multiplier r.baseUnit.multiplier) ⟨-r.multiplier.coefficient, r.multiplier.exponent⟩) :
    (∃ d, (calls.foldl callCustomSetter CustomDurationParser.new).parse s = .ok d ∧ d.WF) ∨
      (∃ e, (calls.foldl callCustomSetter CustomDurationParser.new).parse s = fail e) := by
  obtain ⟨h1, h2, h3⟩ := C35_custom_tables calls
  generalize calls.foldl callCustomSetter CustomDurationParser.new = p at *
  refine C23_no_panic p.config _ _ _ s hs hc ?_ ?_ ?_
  · rw [h1]; exact custom_fits hu
  · intro k hk'
    by_cases he : (!p.keywords.isEmpty) = true
    · rw [if_pos he] at hk'
      cases hk'
      rw [h2, C36_keywords]
      refine custom_fits ?_
      intro r hr
      obtain ⟨k, hk'', rfl⟩ := List.mem_map.1 hr
      exact hk k hk''
    · rw [if_neg he] at hk'; cases hk'
  · intro n hn'
    by_cases he : (!p.numerals.isEmpty) = true
    · rw [if_pos he] at hn'
      cases hn'
      rw [h1, h3]
      intro id q hq id' u m hg
      obtain ⟨r, hr, rfl, rfl, _⟩ := C36_sound _ id' u m hg
      have : ∃ nn ∈ calls.flatMap CustomCall.numeralList, nn.multiplier = q := by
        unfold numeralsGet at hq
        obtain ⟨nn, h4, h5⟩ := List.exists_of_findSome?_eq_some hq
        obtain ⟨_, _, h6⟩ := List.exists_of_findSome?_eq_some h5
        refine ⟨nn, h4, ?_⟩
        split at h6
        · exact Option.some.inj h6
        · cases h6
      obtain ⟨nn, h4, rfl⟩ := this
      obtain ⟨g1, g2, g3⟩ := hn nn h4 r hr
      refine ⟨g1, ?_⟩
      rintro c (rfl | rfl)
      · exact g2
      · exact g3
    · rw [if_neg he] at hn'; cases hn'

/-- the calls of the example: two units, a keyword, a numeral -/
def exampleCalls : List CustomCall :=
  [.timeUnit ⟨.year, ⟨100, 0⟩, [b! "century"]⟩, .timeUnit (.withDefault .second [b! "s"]),
    .keyword ⟨⟨.day, ⟨-1, 0⟩, [b! "yesterday"]⟩⟩, .numeral ⟨[b! "two"], ⟨2, 0⟩⟩, .option .allowAgo]

example : (exampleCalls.foldl callCustomSetter CustomDurationParser.new).parse (b! "two century") =
    .ok ⟨false, ⟨6311520000, 0⟩⟩ ∧
    (∀ r ∈ exampleCalls.flatMap CustomCall.units, Constructed r) ∧
    (∀ k ∈ exampleCalls.flatMap CustomCall.keywordUnits, Constructed k.timeUnit) ∧
    (∀ n ∈ exampleCalls.flatMap CustomCall.numeralList, ∀ r ∈ exampleCalls.flatMap CustomCall.units,
      Fits n.multiplier r.baseUnit.multiplier ∧
      Fits (product n.multiplier r.baseUnit.multiplier) r.multiplier ∧
      Fits (product n.multiplier r.baseUnit.multiplier) ⟨-r.multiplier.coefficient, r.multiplier.exponent⟩) := by
  refine ⟨by decide +kernel, ?_, ?_, ?_⟩
  · intro r hr
    have : r = ⟨.year, ⟨100, 0⟩, [b! "century"]⟩ ∨ r = .withDefault .second [b! "s"] := by
      simpa [exampleCalls, CustomCall.units] using hr
    rcases this with rfl | rfl
    · exact Or.inl ⟨.year, [b! "century"], some ⟨100, 0⟩, by intro q h; cases h; decide, by decide +kernel⟩
    · exact Or.inr ⟨_, _, rfl⟩
  · intro k hk
    have : k = ⟨⟨.day, ⟨-1, 0⟩, [b! "yesterday"]⟩⟩ := by
      simpa [exampleCalls, CustomCall.keywordUnits] using hk
    subst this
    exact Or.inl ⟨.day, [b! "yesterday"], some ⟨-1, 0⟩, by intro q h; cases h; decide, by decide +kernel⟩
  · decide +kernel

end Fundu.Props
