import Verif.Spec.Literal
import Verif.Props.Gate
import Verif.Props.Sum
import Verif.Props.Standard
/-!
# Properties C16-C19, C22 for texts: the value of a text which is one number

`Props/Number.lean` has these properties for the parts of a number. Here they are stated for the parser: `IsNumber`
(`Spec/Literal.lean`) says which number and unit a text consists of.
-/
namespace Fundu.Props
open Fundu Fundu.Spec

theorem literalValue_attos (W F : Bytes) (p : ℤ) (h : (F.length : ℤ) ≤ 18 + p) : ∃ z : ℤ, literalValue W F p * 10 ^ 18 = z := by
  obtain ⟨n, hn⟩ := Int.eq_ofNat_of_zero_le (show 0 ≤ 18 + p - F.length by omega)
  refine ⟨decimal (W ++ F) * 10 ^ n, ?_⟩
  rw [literalValue_eq, mul_assoc, show ((10 : ℚ) ^ 18) = 10 ^ (18 : ℤ) by norm_num,
    ← zpow_add₀ (by norm_num), show p - (F.length : ℤ) + 18 = (n : ℤ) by omega]
  push_cast
  rw [zpow_natCast]

theorem attos_nonneg {v : ℚ} (h : 0 ≤ v) : 0 ≤ attos v := by
  unfold attos
  exact Int.floor_nonneg.2 (mul_nonneg h (by norm_num))

theorem truncatedNanos_nonneg {v : ℚ} (h : 0 ≤ v) (c : ℤ) : 0 ≤ truncatedNanos v c := by
  unfold truncatedNanos
  apply Int.floor_nonneg.2
  have : (0 : ℚ) ≤ ((attos v * |c| : ℤ) : ℚ) := by
    exact_mod_cast Int.mul_nonneg (attos_nonneg h) (abs_nonneg _)
  push_cast at this
  exact div_nonneg (by exact_mod_cast this) (by norm_num)

theorem truncatedNanos_mono {v v' : ℚ} (hv : v ≤ v') (c : ℤ) : truncatedNanos v c ≤ truncatedNanos v' c := by
  unfold truncatedNanos
  apply Int.floor_le_floor
  apply div_le_div_of_nonneg_right _ (by norm_num)
  have ha : attos v ≤ attos v' := by unfold attos; apply Int.floor_le_floor; gcongr
  have := Int.mul_le_mul_of_nonneg_right ha (abs_nonneg c)
  exact_mod_cast this

variable (cfg : Config) (units : TimeUnitsLike) (keywords : Option TimeUnitsLike) (numerals : Option NumbersLike)

theorem singleText_gate {b b' : Bool} {s : Bytes} {item : Item}
    (h : SingleText (withNegative cfg b) units keywords numerals s item) :
    SingleText (withNegative cfg b') units keywords numerals s item :=
  ((single_iff (env := gate ⟨cfg, units, keywords, numerals, fun d c => c.advanceTo d⟩ b') item []).1
    ((single_iff (env := gate ⟨cfg, units, keywords, numerals, fun d c => c.advanceTo d⟩ b) item []).2 ⟨rfl, h⟩)).2

theorem number_denotes {u : Option (TimeUnit × Multiplier)} {m : Multiplier} (hu : UnitMultiplier cfg u m) {neg : Bool}
    {W F : Bytes} {e : Int} {d : Duration} (h : Value neg W F e m d) : Denotes cfg neg (.number W F e u) d := by
  rcases u with _ | ⟨u, f⟩
  · cases hu; exact .number h
  · obtain ⟨h1, rfl⟩ := hu; exact .numberUnit h1 h

theorem withNegative_self (b : Bool) (h : cfg.allowNegative = b) : withNegative cfg b = cfg := by
  subst h; rfl

theorem saturatingSum_one (d : Duration) (h : d.WF) : saturatingSum [nanos d] = nanos d := by
  have h1 : -maxNanos ≤ nanos d ∧ nanos d ≤ maxNanos := nanos_representable d h
  unfold saturatingSum clamp
  simp only [List.foldl_cons, List.foldl_nil]
  omega

variable {cfg units keywords numerals}

theorem number_result {s : Bytes} {neg : Bool} {W F : Bytes} {e : Int} {m : Multiplier}
    (hs : IsText s) (hc : CfgText cfg) (hd : DelimitersOk cfg keywords numerals)
    (h : IsNumber cfg units keywords numerals s neg W F e m) :
    ∃ d, Value neg W F e m d ∧
      (cfg.allowNegative = true ∨ d.isNegative = false → Gives (parse cfg units keywords numerals s) (nanos d)) ∧
      (cfg.allowNegative = false → d.isNegative = true → parse cfg units keywords numerals s = fail .negativeNumber) := by
  obtain ⟨d, hv⟩ := value_exists neg W F e m
  obtain ⟨u, hu, h⟩ := h
  refine ⟨d, hv, fun ha => ?_, fun h1 h2 => ?_⟩
  · cases hm : cfg.allowMultiple with
    | false =>
      rw [hm] at h
      obtain ⟨r, g1, g2⟩ := h
      exact ⟨d, (C27_single cfg units keywords numerals s d hs hc hm).2 ⟨neg, r, _, g1, g2, number_denotes cfg hu hv, ha⟩, hv.1, rfl⟩
    | true =>
      rw [hm] at h
      have hd' := hd.resolve_left (by rw [hm]; decide)
      refine (C27_multiple cfg units keywords numerals s (nanos d) hs hc hm hd').2 ⟨[d], ⟨_, h, .cons ⟨number_denotes cfg hu hv, ha⟩ .nil⟩, ?_⟩
      exact (saturatingSum_one d hv.1).symm
  · have e0 := withNegative_self cfg false h1
    have hc' : CfgText (withNegative cfg true) := ⟨hc.inner, hc.outer, hc.conjunctions⟩
    cases hm : cfg.allowMultiple with
    | false =>
      rw [hm] at h
      obtain ⟨r, g1, g2⟩ := h
      rw [← e0] at g1 g2
      have := (C27_single (withNegative cfg true) units keywords numerals s d hs hc' hm).2
        ⟨neg, r, _, sign_gate g1 true, singleText_gate cfg units keywords numerals g2, denotes_gate (by rw [e0]; exact number_denotes cfg hu hv : Denotes (withNegative cfg false) neg _ d) true, Or.inl rfl⟩
      have k := C64_single cfg units keywords numerals s hm
      change parse (withNegative cfg false) units keywords numerals s = match parse (withNegative cfg true) units keywords numerals s with
        | .ok d => if d.isNegative then fail .negativeNumber else .ok d
        | e => e at k
      rw [this, e0] at k
      rw [k]
      simp only [h2, if_true]
    | true =>
      rw [hm] at h
      have hd' := hd.resolve_left (by rw [hm]; decide)
      have h' : Durations cfg units keywords numerals s [(neg, .number W F e u)] := h
      rw [← e0] at h'
      have k := C64_multiple cfg units keywords numerals s hs hc hm hd' [d] ⟨_, durations_gate h' true,
        .cons ⟨denotes_gate (by rw [e0]; exact number_denotes cfg hu hv : Denotes (withNegative cfg false) neg _ d) true, Or.inl rfl⟩ .nil⟩
      rw [if_pos (by simp [h2])] at k
      rw [← e0]
      exact k

/-- C16: the result of a text which is one number, with a multiplier `c * 10^u` seconds of its unit: `W.F * 10^(e+u)`, cut
off after the 18th decimal place, times `|c|` seconds, cut off to whole nanoseconds and limited by the maximum, with the
correct sign. If negative durations are not allowed and the number counts as negative, the error is `NegativeNumber`. -/
theorem C16_text (s : Bytes) (neg : Bool) (W F : Bytes) (e : Int) (m : Multiplier)
    (hs : IsText s) (hc : CfgText cfg) (hd : DelimitersOk cfg keywords numerals)
    (h : IsNumber cfg units keywords numerals s neg W F e m) :
    (cfg.allowNegative = true ∨ ¬ CountsNegative neg W F e m →
      Gives (parse cfg units keywords numerals s) (literalSign neg m.coefficient *
        min maxNanos (truncatedNanos (literalValue W F (e + m.exponent)) m.coefficient))) ∧
    (cfg.allowNegative = false ∧ CountsNegative neg W F e m → parse cfg units keywords numerals s = fail .negativeNumber) := by
  obtain ⟨d, hv, h1, h2⟩ := number_result hs hc hd h
  refine ⟨fun ha => ?_, fun ha => h2 ha.1 (hv.2.2.2 ha.2)⟩
  rw [← hv.2.1]
  refine h1 (ha.imp_right fun hn => ?_)
  by_contra hx
  exact hn (hv.2.2.1 (by revert hx; cases d.isNegative <;> simp))

/-- C17: the result is the exact value cut off to nanoseconds if no digit lies beyond the 18th decimal place after shifting, or
the coefficient of the unit is 1 or -1. -/
theorem C17_text (s : Bytes) (neg : Bool) (W F : Bytes) (e : Int) (m : Multiplier)
    (hs : IsText s) (hc : CfgText cfg) (hd : DelimitersOk cfg keywords numerals)
    (h : IsNumber cfg units keywords numerals s neg W F e m)
    (hn : cfg.allowNegative = true ∨ ¬ CountsNegative neg W F e m)
    (hx : (F.length : ℤ) ≤ 18 + e + m.exponent ∨ m.coefficient = 1 ∨ m.coefficient = -1) :
    Gives (parse cfg units keywords numerals s) (literalSign neg m.coefficient *
      min maxNanos ⌊literalValue W F (e + m.exponent) * |m.coefficient| * 10 ^ 9⌋) := by
  have := (C16_text s neg W F e m hs hc hd h).1 hn
  rwa [C17_exact _ _ (hx.imp_left fun hx => literalValue_attos W F _ (by omega))] at this

/-- C17: otherwise at most `|c| / 10^9 + 1` nanoseconds are lost (`x` is the length without sign): the result is never above
the exact value. -/
theorem C17_text_bound (s : Bytes) (neg : Bool) (W F : Bytes) (e : Int) (m : Multiplier)
    (hs : IsText s) (hc : CfgText cfg) (hd : DelimitersOk cfg keywords numerals)
    (h : IsNumber cfg units keywords numerals s neg W F e m)
    (hn : cfg.allowNegative = true ∨ ¬ CountsNegative neg W F e m) :
    ∃ x : ℤ, Gives (parse cfg units keywords numerals s) (literalSign neg m.coefficient * x) ∧
      (x : ℚ) ≤ literalValue W F (e + m.exponent) * |m.coefficient| * 10 ^ 9 ∧
      (x = maxNanos ∨ literalValue W F (e + m.exponent) * |m.coefficient| * 10 ^ 9 < x + (|m.coefficient| : ℤ) / 10 ^ 9 + 1) := by
  refine ⟨_, (C16_text s neg W F e m hs hc hd h).1 hn, ?_, ?_⟩
  · refine le_trans ?_ (C17_error_bound (literalValue W F (e + m.exponent)) m.coefficient).1
    exact_mod_cast min_le_right _ _
  · rcases le_total maxNanos (truncatedNanos (literalValue W F (e + m.exponent)) m.coefficient) with g | g
    · exact Or.inl (min_eq_left g)
    · rw [min_eq_right g]
      exact Or.inr (C17_error_bound (literalValue W F (e + m.exponent)) m.coefficient).2

/-- C18: texts with the same value, sign and unit coefficient have the same result, wherever the decimal point, zeros and
exponents are. -/
theorem C18_text (s s' : Bytes) (neg : Bool) (W F W' F' : Bytes) (e e' : Int) (m m' : Multiplier)
    (hs : IsText s) (hs' : IsText s') (hc : CfgText cfg) (hd : DelimitersOk cfg keywords numerals)
    (h : IsNumber cfg units keywords numerals s neg W F e m) (h' : IsNumber cfg units keywords numerals s' neg W' F' e' m')
    (hv : literalValue W F (e + m.exponent) = literalValue W' F' (e' + m'.exponent)) (hm : m.coefficient = m'.coefficient) :
    (∃ x, Gives (parse cfg units keywords numerals s) x ∧ Gives (parse cfg units keywords numerals s') x) ∨
    (parse cfg units keywords numerals s = fail .negativeNumber ∧ parse cfg units keywords numerals s' = fail .negativeNumber) := by
  have g := C16_text s neg W F e m hs hc hd h
  have g' := C16_text s' neg W' F' e' m' hs' hc hd h'
  have k : CountsNegative neg W F e m ↔ CountsNegative neg W' F' e' m' := by
    unfold CountsNegative
    rw [hv, hm]
  by_cases hx : cfg.allowNegative = true ∨ ¬ CountsNegative neg W F e m
  · refine Or.inl ⟨_, g.1 hx, ?_⟩
    rw [hv, hm]
    exact g'.1 (hx.imp_right (mt k.2))
  · push Not at hx
    have ha : cfg.allowNegative = false := by revert hx; cases cfg.allowNegative <;> simp
    exact Or.inr ⟨g.2 ⟨ha, hx.2⟩, g'.2 ⟨ha, k.1 hx.2⟩⟩

/-- C18: a number which is not negative is never longer than a greater one with the same unit. -/
theorem C18_text_monotone (s s' : Bytes) (neg neg' : Bool) (W F W' F' : Bytes) (e e' : Int) (m : Multiplier)
    (hs : IsText s) (hs' : IsText s') (hc : CfgText cfg) (hd : DelimitersOk cfg keywords numerals)
    (h : IsNumber cfg units keywords numerals s neg W F e m) (h' : IsNumber cfg units keywords numerals s' neg' W' F' e' m)
    (hg : literalSign neg m.coefficient = 1) (hg' : literalSign neg' m.coefficient = 1)
    (hv : literalValue W F e ≤ literalValue W' F' e') :
    ∃ x x', Gives (parse cfg units keywords numerals s) x ∧ Gives (parse cfg units keywords numerals s') x' ∧ 0 ≤ x ∧ x ≤ x' := by
  have g := (C16_text s neg W F e m hs hc hd h).1 (Or.inr (by rintro ⟨-, -, k⟩; omega))
  have g' := (C16_text s' neg' W' F' e' m hs' hc hd h').1 (Or.inr (by rintro ⟨-, -, k⟩; omega))
  have hv' : literalValue W F (e + m.exponent) ≤ literalValue W' F' (e' + m.exponent) := by
    unfold literalValue at hv ⊢
    rw [zpow_add₀ (by norm_num), zpow_add₀ (by norm_num), ← mul_assoc, ← mul_assoc]
    exact mul_le_mul_of_nonneg_right hv (zpow_nonneg (by norm_num) _)
  have h0 := truncatedNanos_nonneg (literalValue_nonneg W F (e + m.exponent)) m.coefficient
  have h1 := truncatedNanos_mono hv' m.coefficient
  refine ⟨_, _, g, g', ?_, ?_⟩
  · rw [hg, one_mul]; exact le_min (by decide) h0
  · rw [hg, hg', one_mul, one_mul]; exact min_le_min_left _ h1

/-- C19: a number closer to zero than `10^-18` is zero; it is accepted even with a minus sign if negative durations are not
allowed. -/
theorem C19_text (s : Bytes) (neg : Bool) (W F : Bytes) (e : Int) (m : Multiplier)
    (hs : IsText s) (hc : CfgText cfg) (hd : DelimitersOk cfg keywords numerals)
    (h : IsNumber cfg units keywords numerals s neg W F e m)
    (hv : literalValue W F (e + m.exponent) < 10 ^ (-18 : ℤ)) : Gives (parse cfg units keywords numerals s) 0 := by
  have g := (C16_text s neg W F e m hs hc hd h).1 (Or.inr (by rintro ⟨k, -⟩; exact absurd hv (not_lt.2 k)))
  have : attos (literalValue W F (e + m.exponent)) = 0 := by
    have h0 := literalValue_nonneg W F (e + m.exponent)
    unfold attos
    rw [Int.floor_eq_zero_iff, Set.mem_Ico]
    constructor
    · positivity
    · have := mul_lt_mul_of_pos_right hv (show (0 : ℚ) < 10 ^ 18 by norm_num)
      norm_num at this ⊢
      exact this
  unfold truncatedNanos at g
  rw [this] at g
  simpa [maxNanos] using g

/-- C22: if negative durations are not allowed, every single one of several durations is not negative. -/
theorem C22_each (s : Bytes) (d : Duration) (hs : IsText s) (hc : CfgText cfg) (hm : cfg.allowMultiple = true)
    (hd : DelimitersOk cfg keywords numerals) (hn : cfg.allowNegative = false)
    (h : parse cfg units keywords numerals s = .ok d) :
    ∃ ds, DenotesMultiple cfg units keywords numerals s ds ∧ (∀ x ∈ ds, x.isNegative = false ∧ 0 ≤ nanos x) ∧
      nanos d = min maxNanos (ds.map nanos).sum := by
  have hd' := hd.resolve_left (by rw [hm]; decide)
  obtain ⟨ds, h1, h2⟩ := (C27_multiple cfg units keywords numerals s (nanos d) hs hc hm hd').1
    ⟨d, h, parse_wf hs hc h, rfl⟩
  obtain ⟨d', h3, -, h4⟩ := C29_nonnegative cfg units keywords numerals s hs hc hm hd' ds h1 hn
  rw [h] at h3
  cases h3
  refine ⟨ds, h1, ?_, h4⟩
  obtain ⟨items, -, h6⟩ := h1
  intro x hx
  clear h2 h4 h
  induction h6 with
  | nil => cases hx
  | cons a _ ih =>
    rcases List.mem_cons.1 hx with rfl | hx
    · have := a.2.resolve_left (by rw [hn]; decide)
      refine ⟨this, ?_⟩
      unfold nanos
      rw [this]
      simp only [Bool.false_eq_true, if_false]
      omega
    · exact ih hx

/-! ## A concrete case -/

/-- `-1.50e1m` is the number -1.50 * 10^1 with the unit of 60 seconds -/
theorem example_isNumber (b : Bool) : IsNumber { allowNegative := b } DurationParser.new.timeUnits.like none none (b! "-1.50e1m") true
    (b! "1") (b! "50") 1 ⟨60, 0⟩ := by
  have h1 : Split IsDigit (b! "1.50e1m") (b! "1") (b! ".50e1m") := ⟨rfl, by decide, by rintro ⟨_, _, h, h'⟩; cases h; revert h'; decide⟩
  have h2 : Split IsDigit (b! "50e1m") (b! "50") (b! "e1m") := ⟨rfl, by decide, by rintro ⟨_, _, h, h'⟩; cases h; revert h'; decide⟩
  have h3 : Split IsDigit (b! "1m") (b! "1") (b! "m") := ⟨rfl, by decide, by rintro ⟨_, _, h, h'⟩; cases h; revert h'; decide⟩
  have h4 : ExponentSign (b! "1m") false (b! "1m") := .absent (by rintro ⟨_, _, h, h'⟩; cases h; revert h'; decide)
  refine ⟨some (.minute, ⟨1, 0⟩), ⟨by decide, rfl⟩, b! "1.50e1m", .minus rfl (by simp), .number (r := b! "m") ⟨_, _, h1, .present rfl h2 (Or.inl (by simp)), ?_⟩ ?_⟩
  · exact .present (neg := false) (E := b! "1") (Or.inl rfl) rfl h4 h3 (by simp) (by decide)
  · exact .present (r := b! "m") rfl (by simp) (by decide) (.whole rfl (by decide))

/-- it is -900 s, or an error if negative durations are not allowed -/
example : Gives (parse { allowNegative := true } DurationParser.new.timeUnits.like none none (b! "-1.50e1m")) (-900 * 10 ^ 9) ∧
    parse { allowNegative := false } DurationParser.new.timeUnits.like none none (b! "-1.50e1m") = fail .negativeNumber :=
  ⟨⟨⟨true, ⟨900, 0⟩⟩, by decide +kernel, by decide, by decide⟩, by decide +kernel⟩

end Fundu.Props
