import Verif.Proofs.Shift
import Verif.Spec.Time
/-! # The duration of a number literal -/
namespace Fundu
open Fundu.Spec

/-- the duration of `T` nanoseconds, saturating -/
def ofNanos (neg : Bool) (T : Nat) : Duration :=
  if T / 1000000000 ≤ U64_MAX then ⟨neg, ⟨T / 1000000000, T % 1000000000⟩⟩
  else DurationRepr.saturated neg

theorem ofNanos_of (neg : Bool) {T s n : Nat} (hT : T = s * 1000000000 + n) (hn : n < 1000000000)
    (hs : s ≤ U64_MAX) : ofNanos neg T = ⟨neg, ⟨s, n⟩⟩ := by
  have h1 : T / 1000000000 = s := by omega
  have h2 : T % 1000000000 = n := by omega
  unfold ofNanos
  rw [h1, h2, if_pos hs]

theorem ofNanos_sat (neg : Bool) {T : Nat} (h : U64_MAX < T / 1000000000) :
    ofNanos neg T = DurationRepr.saturated neg := by
  unfold ofNanos
  rw [if_neg (by omega)]

theorem StdDuration.new_ok {s n : Nat} (h : n < 1000000000) : StdDuration.new s n = .ok ⟨s, n⟩ := by
  unfold StdDuration.new
  rw [if_pos h]

theorem natAbs_le_of_isI64 {c : Int} (h : IsI64 c) : c.natAbs ≤ 9223372036854775808 := by
  rw [isI64_iff] at h; omega

namespace DurationRepr

theorem mul_div_split (s a k : Nat) :
    (s * 1000000000000000000 + a) * k / 1000000000 = (s * k) * 1000000000 + a * k / 1000000000 := by
  rw [show (s * 1000000000000000000 + a) * k = 1000000000 * (s * k * 1000000000) + a * k by ring,
    Nat.mul_add_div (by omega)]

theorem calculateDuration_eq (neg : Bool) (s a : Nat) (c : Int) (hc : IsI64 c)
    (ha : a < 1000000000000000000) (hU : s ≤ U64_MAX) :
    calculateDuration neg s a c = .ok
      (if s * 1000000000000000000 + a = 0 ∨ c = 0 then Duration.ZERO
       else ofNanos neg ((s * 1000000000000000000 + a) * c.natAbs / 1000000000)) := by
  have hk := natAbs_le_of_isI64 hc
  rw [mul_div_split]
  by_cases hz : s * 1000000000000000000 + a = 0 ∨ c = 0
  · rw [if_pos hz]
    unfold calculateDuration
    rw [if_pos (by omega)]
  · rw [if_neg hz]
    unfold calculateDuration
    rw [if_neg (by omega)]
    generalize hkk : c.natAbs = k at *
    by_cases ha0 : a = 0
    · rw [if_pos ha0, ha0]
      simp only [Nat.zero_mul, Nat.zero_div, Nat.add_zero]
      by_cases hov : s * k ≤ U64_MAX
      · rw [checkedU64_some hov]
        simp only [StdDuration.new_ok (show 0 < 1000000000 by omega), ok_bind, ok_pure]
        rw [ofNanos_of neg (s := s * k) (n := 0) (by omega) (by omega) hov]
        rfl
      · rw [checkedU64_none (by omega), ofNanos_sat]
        omega
    · rw [if_neg ha0]
      by_cases h1 : c = 1 ∨ c = -1
      · rw [if_pos h1]
        have hk1 : k = 1 := by omega
        have hn : a / 1000000000 < 1000000000 := by omega
        have hU : a / 1000000000 ≤ U32_MAX := by unfold U32_MAX; omega
        simp only [if_pos hU, unwrap, ok_bind, StdDuration.new_ok hn, ok_pure]
        have hs : s ≤ U64_MAX ∨ U64_MAX < s := by omega
        subst hk1
        rw [ofNanos_of neg (s := s) (n := a / 1000000000) (by omega) hn]
        · rfl
        · assumption
      · rw [if_neg h1]
        have hdd : a * k / 1000000000 / 1000000000 = a * k / 1000000000000000000 := by
          rw [Nat.div_div_eq_div_mul]
        have hmod : a * k / 1000000000 % 1000000000 < 1000000000 := Nat.mod_lt _ (by omega)
        have hfit : ∀ h : s * k + a * k / 1000000000000000000 ≤ U64_MAX,
            ofNanos neg (s * k * 1000000000 + a * k / 1000000000) =
            ⟨neg, ⟨s * k + a * k / 1000000000000000000, a * k / 1000000000 % 1000000000⟩⟩ := by
          intro h
          refine ofNanos_of neg ?_ hmod h
          rw [← hdd]
          generalize a * k / 1000000000 = x
          generalize s * k = y
          omega
        have hsat : ∀ h : U64_MAX < s * k + a * k / 1000000000000000000,
            ofNanos neg (s * k * 1000000000 + a * k / 1000000000) = saturated neg := by
          intro h
          refine ofNanos_sat neg ?_
          rw [← hdd] at h
          generalize a * k / 1000000000 = x at *
          generalize s * k = y at *
          omega
        by_cases h2 : k * a ≤ U64_MAX
        · rw [checkedU64_some h2]
          rw [Nat.mul_comm k a] at *
          simp only
          by_cases h3 : s * k ≤ U64_MAX
          · rw [checkedU64_some h3, Option.bind_some]
            by_cases h4 : s * k + a * k / 1000000000000000000 ≤ U64_MAX
            · rw [checkedU64_some h4, hfit h4]
              simp only [StdDuration.new_ok hmod, ok_bind, ok_pure]
              rfl
            · rw [checkedU64_none (by omega), hsat (by omega)]
          · rw [checkedU64_none (by omega), Option.bind_none, hsat (by omega)]
        · rw [checkedU64_none (by omega)]
          simp only
          by_cases h3 : s * k ≤ U64_MAX
          · rw [checkedU64_some h3]
            have hcarry : a * k / 1000000000000000000 ≤ U64_MAX := by
              have h5 : a * k ≤ 1000000000000000000 * 9223372036854775808 :=
                Nat.mul_le_mul (by omega) hk
              have h6 := Nat.div_le_div_right (c := 1000000000000000000) h5
              rw [Nat.mul_div_cancel_left _ (by omega)] at h6
              unfold U64_MAX
              omega
            simp only
            rw [checkedU64_some hcarry]
            simp only [unwrap, ok_bind]
            by_cases h4 : s * k + a * k / 1000000000000000000 ≤ U64_MAX
            · rw [checkedU64_some h4, hfit h4]
              simp only [StdDuration.new_ok hmod, ok_bind, ok_pure]
              rfl
            · rw [checkedU64_none (by omega), hsat (by omega)]
          · rw [checkedU64_none (by omega), hsat (by omega)]

end DurationRepr
end Fundu

namespace Fundu
open Fundu.Spec

/-- The duration of a number `N * 10^p` of units with coefficient `c`, with sign. -/
def literalDuration (neg : Bool) (N : Nat) (p : Int) (c : Int) : Duration :=
  if attoFloor N p = 0 ∨ c = 0 then Duration.ZERO
  else ofNanos (Bool.xor neg (decide (c < 0))) (attoFloor N p * c.natAbs / 1000000000)

theorem checkedMul_isI64 {a b m : Multiplier} (h : a.checkedMul b = some m) :
    IsI64 m.coefficient ∧ IsI16 m.exponent := by
  unfold Multiplier.checkedMul checkedI64 checkedI16 at h
  by_cases h1 : IsI64 (a.coefficient * b.coefficient)
  · by_cases h2 : IsI16 (a.exponent + b.exponent)
    · simp only [if_pos h1, if_pos h2, Option.some.injEq] at h
      subst h; exact ⟨h1, h2⟩
    · simp [if_pos h1, if_neg h2] at h
  · simp [if_neg h1] at h

theorem splitAttos_some {A s a : Nat} (h : splitAttos A = some (s, a)) :
    A = s * 1000000000000000000 + a ∧ a < 1000000000000000000 ∧ s ≤ U64_MAX := by
  unfold splitAttos at h
  by_cases hU : A / 1000000000000000000 ≤ U64_MAX
  · rw [if_pos hU] at h
    have h1 : A / 1000000000000000000 = s := congrArg Prod.fst (Option.some.inj h)
    have h2 : A % 1000000000000000000 = a := congrArg Prod.snd (Option.some.inj h)
    omega
  · rw [if_neg hU] at h; cases h

theorem splitAttos_none {A : Nat} (h : splitAttos A = none) : U64_MAX < A / 1000000000000000000 := by
  unfold splitAttos at h
  by_cases hU : A / 1000000000000000000 ≤ U64_MAX
  · rw [if_pos hU] at h; cases h
  · omega

namespace DurationRepr

theorem parse_number (r : DurationRepr) (W F : Bytes) (m : Multiplier)
    (hinf : r.isInfinite = false) (hsome : (r.whole.isNone && r.fract.isNone) = false)
    (hw : optSlice r.input r.whole = .ok W) (hf : optSlice r.input r.fract = .ok F)
    (hW : AllDigits W) (hF : AllDigits F)
    (hm : (r.unit.getD r.defaultUnit).multiplier.checkedMul r.multiplier = some m) :
    r.parse = .ok (literalDuration (r.isNegative.getD false) (decimal (W ++ F))
      (m.exponent + r.exponent - F.length) m.coefficient) := by
  obtain ⟨hc, _⟩ := checkedMul_isI64 hm
  unfold parse literalDuration
  have hmul : (r.unit.getD r.defaultUnit).multiplier.mul r.multiplier = .ok m := by
    unfold Multiplier.mul; rw [hm]; rfl
  rw [hinf, hsome]
  simp only [Bool.false_eq_true, if_false, hmul, ok_bind]
  by_cases hc0 : m.coefficient = 0
  · rw [if_pos hc0, if_pos (Or.inr hc0)]; rfl
  · rw [if_neg hc0, secondsAndAttos_eq _ W F _ _ _ hw hf hW hF]
    simp only [ok_bind]
    generalize attoFloor (decimal (W ++ F)) (m.exponent + r.exponent - ↑(List.length F)) = A
    cases hs : splitAttos A with
    | some p =>
      obtain ⟨s, a⟩ := p
      obtain ⟨h1, h2, h3⟩ := splitAttos_some hs
      simp only
      rw [calculateDuration_eq _ _ _ _ hc h2 h3, h1]
    | none =>
      have hlt := splitAttos_none hs
      simp only [ok_pure]
      rw [if_neg (by omega), ofNanos_sat]
      have : A * 1 ≤ A * m.coefficient.natAbs := Nat.mul_le_mul_left _ (by omega)
      have h2 := Nat.div_le_div_right (c := 1000000000) this
      generalize A * m.coefficient.natAbs / 1000000000 = T at *
      omega

theorem attoFloor_one (e : Int) :
    attoFloor 1 e = if e < -18 then 0 else 10 ^ (18 + e).toNat := by
  unfold attoFloor
  by_cases h : 0 ≤ e
  · rw [if_neg (by omega), show (-e).toNat = 0 by omega, Nat.pow_zero, Nat.div_one, Nat.one_mul,
      ← Nat.pow_add]
    congr 1; omega
  · rw [show e.toNat = 0 by omega, Nat.pow_zero, Nat.one_mul]
    by_cases h2 : e < -18
    · rw [if_pos h2]
      exact Nat.div_eq_of_lt (Nat.pow_lt_pow_right (by omega) (by omega))
    · rw [if_neg h2, Nat.pow_div (by omega) (by omega)]
      congr 1; omega

/-- A fixed number (bare unit, keyword, numeral) is the literal `1` with its multiplier, except for the
sign in the branch `exponent > 19`. -/
theorem fixedNumber_eq (r : DurationRepr) (c e : Int) (hc : IsI64 c)
    (h : e ≤ 19 ∨ r.isNegative.getD false = false ∨ c = 0) :
    r.parseDurationWithFixedNumber c e = .ok (literalDuration (r.isNegative.getD false) 1 e c) := by
  unfold parseDurationWithFixedNumber literalDuration
  rw [attoFloor_one]
  by_cases hc0 : c = 0
  · rw [if_pos hc0, if_pos (Or.inr hc0)]
  · rw [if_neg hc0]
    have hxor : Bool.xor (decide (c < 0)) (r.isNegative.getD false)
        = Bool.xor (r.isNegative.getD false) (decide (c < 0)) := Bool.xor_comm _ _
    simp only [hxor]
    by_cases h1 : e < 0
    · rw [if_pos h1]
      by_cases h2 : e < -18
      · rw [if_pos h2, if_pos h2, if_pos (Or.inl rfl)]
      · rw [if_neg h2, if_neg h2, Fract.pow10Index_eq (by omega)]
        simp only [ok_bind]
        have hlt : 10 ^ (18 + e).toNat < 1000000000000000000 :=
          Nat.lt_of_lt_of_eq (Nat.pow_lt_pow_right (m := (18 + e).toNat) (n := 18) (by omega) (by omega))
            (by norm_num)
        rw [calculateDuration_eq _ _ _ _ hc hlt (Nat.zero_le _)]
        simp only [Nat.zero_mul, Nat.zero_add]
    · rw [if_neg h1]
      have hnn : ¬ e < -18 := by omega
      rw [if_neg hnn]
      have hA : ¬ (10 ^ (18 + e).toNat = 0 ∨ c = 0) := by
        have : 0 < 10 ^ (18 + e).toNat := Nat.pow_pos (by omega)
        omega
      rw [if_neg hA]
      by_cases h3 : e = 0
      · rw [if_pos h3]
        simp only [StdDuration.new_ok (show 0 < 1000000000 by omega), ok_bind, ok_pure]
        rw [ofNanos_of _ (s := c.natAbs) (n := 0) ?_ (by omega)
          (Nat.le_trans (natAbs_le_of_isI64 hc) (by decide))]
        · rfl
        · subst h3
          rw [show (18 + (0:Int)).toNat = 18 by rfl]
          omega
      · rw [if_neg h3]
        by_cases h4 : 19 < e
        · rw [if_pos h4]
          have hneg : r.isNegative.getD false = false := by
            rcases h with h | h | h
            · omega
            · exact h
            · exact absurd h hc0
          rw [hneg, ofNanos_sat]
          · by_cases hcn : c < 0
            · simp [hcn, saturated]
            · simp [hcn, saturated]
          · have h5 : 10 ^ 38 ≤ 10 ^ (18 + e).toNat := Nat.pow_le_pow_right (by omega) (by omega)
            have h6 : 10 ^ 38 * 1 ≤ 10 ^ (18 + e).toNat * c.natAbs := Nat.mul_le_mul h5 (by omega)
            have h7 := Nat.div_le_div_right (c := 1000000000) h6
            have h8 := Nat.div_le_div_right (c := 1000000000) h7
            refine Nat.lt_of_lt_of_le ?_ h8
            decide +kernel
        · rw [if_neg h4, Fract.pow10Index_eq (by omega)]
          simp only [ok_bind]
          have hle : 10 ^ e.toNat ≤ U64_MAX :=
            Nat.le_trans (Nat.pow_le_pow_right (i := e.toNat) (j := 19) (by omega) (by omega)) (by decide)
          rw [calculateDuration_eq _ _ _ _ hc (by omega) hle, if_neg (by
              rintro (h | h)
              · have : 0 < 10 ^ e.toNat := Nat.pow_pos (by omega)
                omega
              · exact hc0 h),
            show (18 + e).toNat = e.toNat + 18 by omega, Nat.pow_add, Nat.add_zero]

end DurationRepr
end Fundu
