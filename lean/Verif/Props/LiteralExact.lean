import Verif.Props.Literal
import Verif.Props.SumSign
import Verif.Props.Laws
/-!
# Properties C16, C19: the returned value of a text which is one number, with its mark

`Props/Literal.lean` states the length of the result; here the returned `Duration` is determined completely, including whether
`is_negative` holds.
-/
namespace Fundu.Props
open Fundu Fundu.Spec

variable {cfg : Config} {units : TimeUnitsLike} {keywords : Option TimeUnitsLike} {numerals : Option NumbersLike}

/-- C16: the returned duration is determined: its length is the one of `C16_text`, and it reports `is_negative()` iff the number counts as
negative, for a parser of single durations; a parser of multiple durations reports it iff the result is less than zero. Without
permission a number which counts as negative is not accepted. -/
theorem C16_exact (s : Bytes) (neg : Bool) (W F : Bytes) (e : Int) (m : Multiplier) (d : Duration)
    (hs : IsText s) (hc : CfgText cfg) (hd : DelimitersOk cfg keywords numerals)
    (h : IsNumber cfg units keywords numerals s neg W F e m) :
    parse cfg units keywords numerals s = .ok d ↔
      (cfg.allowNegative = true ∨ ¬ CountsNegative neg W F e m) ∧ d.WF ∧
      nanos d = literalSign neg m.coefficient * min maxNanos (truncatedNanos (literalValue W F (e + m.exponent)) m.coefficient) ∧
      (d.isNegative = true ↔ if cfg.allowMultiple then nanos d < 0 else CountsNegative neg W F e m) := by
  have sign : ∀ d', parse cfg units keywords numerals s = .ok d' →
      (d'.isNegative = true ↔ if cfg.allowMultiple then nanos d' < 0 else CountsNegative neg W F e m) := by
    intro d' hp
    rcases hm : cfg.allowMultiple with _ | _
    · rw [if_neg (by decide)]
      obtain ⟨u, hu, h'⟩ := h
      rw [hm, if_neg (by decide)] at h'
      obtain ⟨r, g1, g2⟩ := h'
      obtain ⟨d₀, hv⟩ := value_exists neg W F e m
      rcases Bool.eq_false_or_eq_true cfg.allowNegative with ha | ha
      · have := (C27_single cfg units keywords numerals s d₀ hs hc hm).2 ⟨neg, r, _, g1, g2, number_denotes cfg hu hv, Or.inl ha⟩
        rw [hp] at this
        injection this with this
        rw [this]
        exact hv.2.2
      · rcases Bool.eq_false_or_eq_true d₀.isNegative with hz | hz
        · obtain ⟨d₁, hv', -, no⟩ := number_result hs hc hd ⟨u, hu, by rw [hm, if_neg (by decide)]; exact ⟨r, g1, g2⟩⟩
          have hz' : d₁.isNegative = true := hv'.2.2.2 (hv.2.2.1 hz)
          rw [no ha hz'] at hp
          cases hp
        · have := (C27_single cfg units keywords numerals s d₀ hs hc hm).2 ⟨neg, r, _, g1, g2, number_denotes cfg hu hv, Or.inr hz⟩
          rw [hp] at this
          injection this with this
          rw [this]
          exact hv.2.2
    · rw [if_pos rfl]
      exact C99_sign cfg units keywords numerals s d' hs hc hm (hd.resolve_left (by rw [hm]; decide)) hp
  constructor
  · intro hp
    have hn : cfg.allowNegative = true ∨ ¬ CountsNegative neg W F e m := by
      by_contra hx
      push Not at hx
      have := (C16_text s neg W F e m hs hc hd h).2 ⟨by simpa using hx.1, hx.2⟩
      rw [hp] at this
      cases this
    obtain ⟨d', e', w, v⟩ := (C16_text s neg W F e m hs hc hd h).1 hn
    have ee : d = d' := Except.ok.inj (hp.symm.trans e')
    rw [ee]
    exact ⟨hn, w, v, sign d' e'⟩
  · rintro ⟨hn, w, v, hz⟩
    obtain ⟨d', e', w', v'⟩ := (C16_text s neg W F e m hs hc hd h).1 hn
    have vv : nanos d = nanos d' := v.trans v'.symm
    have ss : d.isNegative = d'.isNegative := by
      rw [Bool.eq_iff_iff, hz, sign d' e', vv]
    rw [e', duration_same w w' vv ss]

/-- C19: a number closer to zero than `10^-18` seconds gives `Duration::ZERO` itself, which is not marked as negative. -/
theorem C19_zero (s : Bytes) (neg : Bool) (W F : Bytes) (e : Int) (m : Multiplier)
    (hs : IsText s) (hc : CfgText cfg) (hd : DelimitersOk cfg keywords numerals)
    (h : IsNumber cfg units keywords numerals s neg W F e m)
    (hv : literalValue W F (e + m.exponent) < 10 ^ (-18 : ℤ)) : parse cfg units keywords numerals s = .ok Duration.ZERO := by
  obtain ⟨d, ed, w, v⟩ := C19_text s neg W F e m hs hc hd h hv
  have hz := ((C16_exact s neg W F e m d hs hc hd h).1 ed).2.2.2
  have hn : d.isNegative = false := by
    rcases Bool.eq_false_or_eq_true d.isNegative with hx | hx
    · have hy := hz.1 hx
      split at hy
      · rw [v] at hy
        exact absurd hy (by decide)
      · exact absurd hv (not_lt.2 hy.1)
    · exact hx
  rw [ed, duration_same w (by decide) (v.trans (by decide : (0 : Int) = nanos Duration.ZERO)) hn]

/-- below and above the border of `C19_zero`: `-1e-19` is zero; `-1e-18` is a zero marked as negative, if allowed -/
example : parse {} DurationParser.new.timeUnits.like none none (b! "-1e-19") = .ok Duration.ZERO ∧
    parse { allowNegative := true } DurationParser.new.timeUnits.like none none (b! "-1e-18") = .ok ⟨true, ⟨0, 0⟩⟩ ∧
    parse {} DurationParser.new.timeUnits.like none none (b! "-1e-18") = fail .negativeNumber := by decide +kernel

end Fundu.Props
