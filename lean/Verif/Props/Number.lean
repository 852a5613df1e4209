import Verif.Proofs.Rational
/-!
# Properties C12, C14-C19: number literals
-/
namespace Fundu.Props
open Fundu Fundu.Spec

/-! ## C12 -/

/-- C12: the three wrapping multiplications convert any 8 ASCII digits to their decimal value. -/
theorem C12_parse_8_digits (ds : Bytes) (h : ds.length = 8) (hd : AllDigits ds) :
    parse8Digits ds = .ok (decimal ds) := parse8Digits_eq ds h hd

example : AllDigits (b! "90817263") ∧ decimal (b! "90817263") = 90817263 := by decide

/-! ## C14 -/

/-- C14: digits, optionally followed by more digits and by zeros, convert to exactly the number they
denote if this is below `2^64`, and to `None` otherwise. There is no panic. -/
theorem C14_whole (ds : Bytes) (append : Option Bytes) (zeros : Option Nat)
    (hd : AllDigits ds) (ha : ∀ a, append = some a → AllDigits a) :
    Whole.parse ds append zeros = .ok
      (if decimal (ds ++ append.getD []) * 10 ^ zeros.getD 0 < 2 ^ 64 then
        some (decimal (ds ++ append.getD []) * 10 ^ zeros.getD 0) else none) := by
  have ha' : AllDigits (append.getD []) := by
    cases append with
    | none => intro b hb; cases hb
    | some a => exact ha a rfl
  rw [Whole.parse_eq ds append zeros hd ha']
  generalize decimal (ds ++ append.getD []) * 10 ^ zeros.getD 0 = x
  unfold checkedU64 U64_MAX
  by_cases h : x < 2 ^ 64
  · rw [if_pos h, if_pos (by omega)]
  · rw [if_neg h, if_neg (by omega)]

example : Whole.parse (b! "1844674407370955161") (some (b! "5")) none = .ok (some 18446744073709551615) ∧
    Whole.parse (b! "18446744073709551616") none none = .ok none ∧
    Whole.parse (b! "1") none (some 19) = .ok (some 10000000000000000000) := by decide +kernel

/-! ## C15 -/

/-- C15: fraction digits, with `zeros` zeros and optional digits in front, convert to
`⌊0.<zeros><prepend><digits> * 10^18⌋`. There is no overflow or panic. -/
theorem C15_fract (ds : Bytes) (prepend : Option Bytes) (zeros : Option Nat)
    (hd : AllDigits ds) (hp : ∀ a, prepend = some a → AllDigits a) :
    ∃ a, Fract.parse ds prepend zeros = .ok a ∧ a < 10 ^ 18 ∧
      (a : ℤ) = ⌊((decimal (prepend.getD [] ++ ds) : ℚ) /
        10 ^ (zeros.getD 0 + (prepend.getD [] ++ ds).length)) * 10 ^ 18⌋ := by
  have hp' : AllDigits (prepend.getD []) := by
    cases prepend with
    | none => intro b hb; cases hb
    | some a => exact hp a rfl
  refine ⟨_, Fract.parse_eq ds prepend zeros hd hp', ?_, ?_⟩
  · apply frac_lt
    exact Nat.lt_of_lt_of_le (decimal_lt _ (hp'.append hd)) (Nat.pow_le_pow_right (by omega) (by omega))
  · generalize decimal (prepend.getD [] ++ ds) = N
    generalize zeros.getD 0 + (prepend.getD [] ++ ds).length = q
    have : ((N : ℚ) / 10 ^ q) * 10 ^ 18 = ((N * 10 ^ 18 : ℕ) : ℤ) / ((10 ^ q : ℕ) : ℚ) := by
      push_cast; ring
    rw [this, Rat.floor_intCast_div_natCast]
    norm_cast

example : Fract.parse (b! "99999999999999999999") (some (b! "12")) (some 1) = .ok 12999999999999999 := by
  decide +kernel

/-! ## C16 -/

/-- The parsed representation `r` is a number with whole digits `W` and fraction digits `F`; the product
of its unit's multiplier and its own multiplier is `m` (and does not overflow). -/
structure IsLiteral (r : DurationRepr) (W F : Bytes) (m : Multiplier) : Prop where
  finite : r.isInfinite = false
  present : r.whole.isSome ∨ r.fract.isSome
  whole : ∀ w, r.whole = some w →
    w.start ≤ w.stop ∧ w.stop ≤ r.input.length ∧ W = (r.input.take w.stop).drop w.start
  noWhole : r.whole = none → W = []
  fract : ∀ w, r.fract = some w →
    w.start ≤ w.stop ∧ w.stop ≤ r.input.length ∧ F = (r.input.take w.stop).drop w.start
  noFract : r.fract = none → F = []
  wholeDigits : AllDigits W
  fractDigits : AllDigits F
  multiplier : (r.unit.getD r.defaultUnit).multiplier.checkedMul r.multiplier = some m

theorem IsLiteral.parse {r : DurationRepr} {W F : Bytes} {m : Multiplier} (h : IsLiteral r W F m) :
    r.parse = .ok (literalDuration (r.isNegative.getD false) (decimal (W ++ F))
      (m.exponent + r.exponent - F.length) m.coefficient) := by
  refine DurationRepr.parse_number r W F m h.finite ?_ ?_ ?_ h.wholeDigits h.fractDigits h.multiplier
  · rcases h.present with h | h
    · cases hw : r.whole <;> simp_all
    · cases hw : r.fract <;> simp_all
  · cases hw : r.whole with
    | none => rw [h.noWhole hw]; rfl
    | some w =>
      obtain ⟨h1, h2, h3⟩ := h.whole w hw
      rw [h3]; exact slice_ok h1 h2
  · cases hw : r.fract with
    | none => rw [h.noFract hw]; rfl
    | some w =>
      obtain ⟨h1, h2, h3⟩ := h.fract w hw
      rw [h3]; exact slice_ok h1 h2

/-- C16: the duration of a literal `W.F * 10^e` of a unit with multiplier `(c, u)` is, with the correct
sign, `W.F * 10^(e+u)` cut off after the 18th decimal place, times `|c|` seconds, cut off to whole
nanoseconds, saturating at the maximum. There is no panic. -/
theorem C16_literal (r : DurationRepr) (W F : Bytes) (m : Multiplier) (h : IsLiteral r W F m) :
    ∃ d, r.parse = .ok d ∧ d.WF ∧
      nanos d = literalSign (r.isNegative.getD false) m.coefficient *
        min maxNanos (truncatedNanos (literalValue W F (r.exponent + m.exponent)) m.coefficient) := by
  obtain ⟨h1, h2, _⟩ := literalDuration_nanos (r.isNegative.getD false) _ _ m.coefficient _
    (attoFloor_literal W F r.exponent m.exponent)
  exact ⟨_, h.parse, h1, h2⟩

/-- `1.5e1` minutes, negative -/
def exampleRepr : DurationRepr :=
  { unit := some .minute, isNegative := some true, whole := some ⟨1, 2⟩, fract := some ⟨3, 4⟩,
    input := b! "-1.5e1m", exponent := 1 }

theorem exampleRepr_isLiteral : IsLiteral exampleRepr (b! "1") (b! "5") ⟨60, 0⟩ where
  finite := rfl
  present := by decide
  whole := by intro w hw; cases hw; decide
  noWhole := by intro h; cases h
  fract := by intro w hw; cases hw; decide
  noFract := by intro h; cases h
  wholeDigits := by decide
  fractDigits := by decide
  multiplier := by decide

example : exampleRepr.parse = .ok ⟨true, 900, 0⟩ := by decide +kernel

/-! ## C17 -/

theorem literalValue_nonneg (W F : Bytes) (e : ℤ) : 0 ≤ literalValue W F e := by
  rw [literalValue_eq]
  exact mul_nonneg (Nat.cast_nonneg _) (zpow_nonneg (by norm_num) _)

/-- C17: the truncated product is never above the exact value, and it is the floor of the exact number of
nanoseconds if the value has no digits beyond the 18th decimal place, or the coefficient is 1 or -1. -/
theorem C17_exact (v : ℚ) (c : ℤ) (h : (∃ z : ℤ, v * 10 ^ 18 = z) ∨ c = 1 ∨ c = -1) :
    truncatedNanos v c = ⌊v * |c| * 10 ^ 9⌋ := by
  unfold truncatedNanos attos
  rcases h with ⟨z, hz⟩ | hc
  · rw [hz, Int.floor_intCast, ← hz]
    congr 1
    ring
  · have habs : ((|c| : ℤ) : ℚ) = 1 := by rcases hc with h | h <;> simp [h]
    rw [habs, mul_one, mul_one]
    have : v * 10 ^ 18 = (v * 10 ^ 9) * ((1000000000 : ℕ) : ℚ) := by push_cast; ring
    have h2 : (⌊v * 10 ^ 18⌋ : ℚ) / 10 ^ 9 = ((⌊v * 10 ^ 18⌋ : ℤ) : ℚ) / ((1000000000 : ℕ) : ℚ) := by
      norm_num
    rw [h2, Rat.floor_intCast_div_natCast]
    have h3 : v * 10 ^ 9 = (v * 10 ^ 18) / ((1000000000 : ℕ) : ℚ) := by push_cast; ring
    rw [h3, Int.floor_div_natCast]

/-- C17: for every value the loss is below `|c| / 10^9 + 1` nanoseconds, and the result is never above the
exact value. -/
theorem C17_error_bound (v : ℚ) (c : ℤ) :
    (truncatedNanos v c : ℚ) ≤ v * |c| * 10 ^ 9 ∧
    v * |c| * 10 ^ 9 < truncatedNanos v c + (|c| : ℤ) / 10 ^ 9 + 1 := by
  unfold truncatedNanos attos
  set a : ℤ := ⌊v * 10 ^ 18⌋ with ha
  have h1 : (a : ℚ) ≤ v * 10 ^ 18 := Int.floor_le _
  have h2 : v * 10 ^ 18 < a + 1 := Int.lt_floor_add_one _
  have hc : (0 : ℚ) ≤ ((|c| : ℤ) : ℚ) := by exact_mod_cast abs_nonneg c
  set k : ℚ := ((|c| : ℤ) : ℚ) with hk
  have h3 := Int.floor_le ((a : ℚ) * k / 10 ^ 9)
  have h4 := Int.lt_floor_add_one ((a : ℚ) * k / 10 ^ 9)
  have e1 : v * k * 10 ^ 9 = (v * 10 ^ 18) * k / 10 ^ 9 := by ring
  constructor
  · calc (⌊(a : ℚ) * k / 10 ^ 9⌋ : ℚ) ≤ (a : ℚ) * k / 10 ^ 9 := h3
      _ ≤ (v * 10 ^ 18) * k / 10 ^ 9 := by
        apply div_le_div_of_nonneg_right _ (by norm_num)
        exact mul_le_mul_of_nonneg_right h1 hc
      _ = v * k * 10 ^ 9 := e1.symm
  · have h5 : (v * 10 ^ 18) * k ≤ (a + 1) * k := mul_le_mul_of_nonneg_right h2.le hc
    have h6 : (v * 10 ^ 18) * k / 10 ^ 9 ≤ (a + 1) * k / 10 ^ 9 :=
      div_le_div_of_nonneg_right h5 (by norm_num)
    have h7 : ((a : ℚ) + 1) * k / 10 ^ 9 = a * k / 10 ^ 9 + k / 10 ^ 9 := by ring
    rw [e1]
    linarith

/-- C17 at the level of a literal: the duration is the exact value cut off to nanoseconds whenever no
digit lies beyond the 18th decimal place after shifting, or the unit's coefficient is 1 or -1. -/
theorem C17_literal (r : DurationRepr) (W F : Bytes) (m : Multiplier) (h : IsLiteral r W F m)
    (hx : (F.length : ℤ) ≤ 18 + r.exponent + m.exponent ∨ m.coefficient = 1 ∨ m.coefficient = -1) :
    ∃ d, r.parse = .ok d ∧
      nanos d = literalSign (r.isNegative.getD false) m.coefficient * min maxNanos
        ⌊literalValue W F (r.exponent + m.exponent) * |m.coefficient| * 10 ^ 9⌋ := by
  obtain ⟨d, h1, _, h3⟩ := C16_literal r W F m h
  refine ⟨d, h1, ?_⟩
  rw [h3, C17_exact]
  rcases hx with hx | hx
  · left
    obtain ⟨n, hn⟩ := Int.eq_ofNat_of_zero_le (show 0 ≤ 18 + r.exponent + m.exponent - F.length by omega)
    refine ⟨decimal (W ++ F) * 10 ^ n, ?_⟩
    rw [literalValue_eq, mul_assoc, show ((10 : ℚ) ^ 18) = 10 ^ (18 : ℤ) by norm_num,
      ← zpow_add₀ (by norm_num), show r.exponent + m.exponent - (F.length : ℤ) + 18 = (n : ℤ) by omega]
    push_cast
    rw [zpow_natCast]
  · exact Or.inr hx

example : ((b! "5").length : ℤ) ≤ 18 + exampleRepr.exponent + 0 := by decide

/-! ## C18 -/

/-- C18: literals of the same value, sign and unit coefficient are the same duration, wherever the decimal
point, zeros and exponents are. -/
theorem C18_equal_values (r r' : DurationRepr) (W F W' F' : Bytes) (m m' : Multiplier)
    (h : IsLiteral r W F m) (h' : IsLiteral r' W' F' m')
    (hv : literalValue W F (r.exponent + m.exponent) = literalValue W' F' (r'.exponent + m'.exponent))
    (hs : r.isNegative.getD false = r'.isNegative.getD false)
    (hc : m.coefficient = m'.coefficient) : r.parse = r'.parse := by
  rw [h.parse, h'.parse]
  have h1 := attoFloor_literal W F r.exponent m.exponent
  have h2 := attoFloor_literal W' F' r'.exponent m'.exponent
  rw [hv, ← h2] at h1
  unfold literalDuration
  rw [Int.natCast_inj.1 h1, hs, hc]

/-- C18: a larger value never gives a smaller duration. -/
theorem C18_monotone (r r' : DurationRepr) (W F W' F' : Bytes) (m m' : Multiplier)
    (h : IsLiteral r W F m) (h' : IsLiteral r' W' F' m')
    (hv : literalValue W F (r.exponent + m.exponent) ≤ literalValue W' F' (r'.exponent + m'.exponent))
    (hs : literalSign (r.isNegative.getD false) m.coefficient = 1)
    (hs' : literalSign (r'.isNegative.getD false) m'.coefficient = 1)
    (hc : |m.coefficient| ≤ |m'.coefficient|) :
    ∃ d d', r.parse = .ok d ∧ r'.parse = .ok d' ∧ 0 ≤ nanos d ∧ nanos d ≤ nanos d' := by
  obtain ⟨d, h1, _, h3⟩ := C16_literal r W F m h
  obtain ⟨d', h1', _, h3'⟩ := C16_literal r' W' F' m' h'
  refine ⟨d, d', h1, h1', ?_⟩
  rw [h3, h3', hs, hs', one_mul, one_mul]
  have hv0 := literalValue_nonneg W F (r.exponent + m.exponent)
  have ha0 : 0 ≤ attos (literalValue W F (r.exponent + m.exponent)) := by
    unfold attos; apply Int.floor_nonneg.2; positivity
  have ha : attos (literalValue W F (r.exponent + m.exponent))
      ≤ attos (literalValue W' F' (r'.exponent + m'.exponent)) := by
    unfold attos; apply Int.floor_le_floor; gcongr
  have hT : truncatedNanos (literalValue W F (r.exponent + m.exponent)) m.coefficient
      ≤ truncatedNanos (literalValue W' F' (r'.exponent + m'.exponent)) m'.coefficient := by
    unfold truncatedNanos
    apply Int.floor_le_floor
    apply div_le_div_of_nonneg_right _ (by norm_num)
    have := Int.mul_le_mul ha hc (abs_nonneg _) (le_trans ha0 ha)
    exact_mod_cast this
  have hT0 : 0 ≤ truncatedNanos (literalValue W F (r.exponent + m.exponent)) m.coefficient := by
    unfold truncatedNanos
    apply Int.floor_nonneg.2
    have : (0 : ℚ) ≤ ((attos (literalValue W F (r.exponent + m.exponent)) * |m.coefficient| : ℤ) : ℚ) := by
      exact_mod_cast Int.mul_nonneg ha0 (abs_nonneg _)
    push_cast at this
    positivity
  have hmax : 0 ≤ maxNanos := by decide
  constructor
  · exact le_min hmax hT0
  · exact min_le_min le_rfl hT

/-- `015.00e-1` seconds and `1.5` seconds are literals of the same value -/
example : literalValue (b! "015") (b! "00") (-1) = literalValue (b! "1") (b! "5") 0 := by
  have h1 : decimal (b! "015") = 15 := by decide
  have h2 : decimal (b! "00") = 0 := by decide
  have h3 : decimal (b! "1") = 1 := by decide
  have h4 : decimal (b! "5") = 5 := by decide
  norm_num [literalValue, h1, h2, h3, h4]

/-! ## C19 -/

/-- C19: a literal whose shifted absolute value is below `10^-18`, or which has a zero coefficient, is the
positive zero duration. -/
theorem C19_tiny_is_zero (r : DurationRepr) (W F : Bytes) (m : Multiplier) (h : IsLiteral r W F m)
    (hv : literalValue W F (r.exponent + m.exponent) < 10 ^ (-18 : ℤ) ∨ m.coefficient = 0) :
    r.parse = .ok Duration.ZERO := by
  rw [h.parse]
  have h1 := attoFloor_literal W F r.exponent m.exponent
  have hz : attoFloor (decimal (W ++ F)) (m.exponent + r.exponent - F.length) = 0 ∨ m.coefficient = 0 := by
    rcases hv with hv | hv
    · left
      have hA : attos (literalValue W F (r.exponent + m.exponent)) = 0 := by
        unfold attos
        rw [Int.floor_eq_zero_iff]
        have hv0 := literalValue_nonneg W F (r.exponent + m.exponent)
        constructor
        · positivity
        · have : (10 : ℚ) ^ (-18 : ℤ) * 10 ^ 18 = 1 := by norm_num
          calc _ < (10 : ℚ) ^ (-18 : ℤ) * 10 ^ 18 := by gcongr
            _ = 1 := this
      rw [hA] at h1
      exact_mod_cast h1
    · exact Or.inr hv
  unfold literalDuration
  rw [if_pos hz]

/-- C19: and these are the only negative literals without the sign: a literal with a negative sign (in the
number or the coefficient) gives a duration with negative sign iff its shifted value is at least
`10^-18`. So `-1e-10` s, which is zero in nanoseconds, has a negative sign (see DESIGN.md, finding F3). -/
theorem C19_negative_iff (r : DurationRepr) (W F : Bytes) (m : Multiplier) (h : IsLiteral r W F m) :
    ∃ d, r.parse = .ok d ∧ (d.isNegative = true ↔
      (10 ^ (-18 : ℤ) ≤ literalValue W F (r.exponent + m.exponent) ∧ m.coefficient ≠ 0 ∧
        literalSign (r.isNegative.getD false) m.coefficient = -1)) := by
  obtain ⟨_, _, h3⟩ := literalDuration_nanos (r.isNegative.getD false) _ _ m.coefficient _
    (attoFloor_literal W F r.exponent m.exponent)
  refine ⟨_, h.parse, h3.trans ?_⟩
  have hv0 := literalValue_nonneg W F (r.exponent + m.exponent)
  have : attos (literalValue W F (r.exponent + m.exponent)) ≠ 0 ↔
      10 ^ (-18 : ℤ) ≤ literalValue W F (r.exponent + m.exponent) := by
    unfold attos
    rw [Ne, Int.floor_eq_zero_iff, Set.mem_Ico, not_and_or, not_le, not_lt]
    have e : (10 : ℚ) ^ (-18 : ℤ) = 1 / 10 ^ 18 := by norm_num
    rw [e, div_le_iff₀ (by norm_num)]
    constructor
    · rintro (h | h)
      · exact absurd h (not_lt.2 (by positivity))
      · exact h
    · exact Or.inr
  rw [this]

/-- `-1e-19` s is the positive zero, `-1e-10` s a zero with a negative sign -/
example :
    let r : DurationRepr := { isNegative := some true, whole := some ⟨1, 2⟩, input := b! "-1" }
    { r with exponent := -19 }.parse = .ok Duration.ZERO ∧
    { r with exponent := -10 }.parse = .ok ⟨true, 0, 0⟩ := by decide +kernel

end Fundu.Props
