import Verif.Proofs.Literal
import Mathlib.Tactic.FieldSimp
import Mathlib.Algebra.Order.Floor.Semiring
import Mathlib.Algebra.Order.Archimedean.Basic
/-! # Literals as rational numbers -/
namespace Fundu
open Fundu.Spec

theorem zpow_toNat (p : ℤ) : (10 : ℚ) ^ p = 10 ^ p.toNat / 10 ^ (-p).toNat := by
  rcases le_total 0 p with h | h
  · obtain ⟨n, rfl⟩ := Int.eq_ofNat_of_zero_le h
    simp
  · obtain ⟨n, hn⟩ := Int.eq_ofNat_of_zero_le (Int.neg_nonneg_of_nonpos h)
    have : p = -(n : ℤ) := by omega
    subst this
    simp

theorem attoFloor_eq (N : Nat) (p : ℤ) : (attoFloor N p : ℤ) = ⌊(N : ℚ) * 10 ^ p * 10 ^ 18⌋ := by
  have : (N : ℚ) * 10 ^ p * 10 ^ 18 = ((N * 10 ^ p.toNat * 10 ^ 18 : ℕ) : ℤ) / ((10 ^ (-p).toNat : ℕ) : ℚ) := by
    rw [zpow_toNat]; push_cast; ring
  rw [this, Rat.floor_intCast_div_natCast]
  unfold attoFloor
  norm_cast

theorem literalValue_eq (W F : Bytes) (e : ℤ) :
    literalValue W F e = (decimal (W ++ F) : ℚ) * 10 ^ (e - F.length) := by
  unfold literalValue
  rw [decimal_append, zpow_sub₀ (by norm_num), zpow_natCast]
  push_cast
  field_simp

theorem attoFloor_literal (W F : Bytes) (e u : ℤ) :
    (attoFloor (decimal (W ++ F)) (u + e - F.length) : ℤ) = attos (literalValue W F (e + u)) := by
  rw [attoFloor_eq, attos, literalValue_eq, Int.add_comm u e]

theorem truncatedNanos_nat (v : ℚ) (c : ℤ) (A : Nat) (h : (A : ℤ) = attos v) :
    truncatedNanos v c = ((A * c.natAbs / 1000000000 : ℕ) : ℤ) := by
  unfold truncatedNanos
  rw [← h]
  have : (((A : ℤ) : ℚ) * ((|c| : ℤ) : ℚ)) / 10 ^ 9 = ((A * c.natAbs : ℕ) : ℤ) / ((1000000000 : ℕ) : ℚ) := by
    push_cast
    norm_num
  rw [this, Rat.floor_intCast_div_natCast]
  norm_cast

theorem ofNanos_nanos (neg : Bool) (T : Nat) :
    nanos (ofNanos neg T) = (if neg then -1 else 1) * min maxNanos (T : ℤ) ∧ (ofNanos neg T).WF ∧
      (ofNanos neg T).isNegative = neg := by
  unfold ofNanos
  by_cases h : T / 1000000000 ≤ U64_MAX
  · rw [if_pos h]
    refine ⟨?_, ⟨h, Nat.mod_lt _ (by omega)⟩, rfl⟩
    have hle : (T : ℤ) ≤ maxNanos := by unfold maxNanos; unfold U64_MAX at h; omega
    rw [min_eq_right hle]
    have hs : ((T / 1000000000 : ℕ) : ℤ) * 1000000000 + ((T % 1000000000 : ℕ) : ℤ) = T := by omega
    cases neg
    · simp only [nanos, Bool.false_eq_true, if_false]; omega
    · simp only [nanos, if_true]; omega
  · rw [if_neg h]
    have hle : maxNanos ≤ (T : ℤ) := by unfold maxNanos; unfold U64_MAX at h; omega
    rw [min_eq_left hle]
    have hmax : Duration.MAX.WF := by decide
    have hmin : Duration.MIN.WF := by decide
    cases neg
    · exact ⟨by simp [DurationRepr.saturated, nanos, Duration.MAX, StdDuration.MAX, maxNanos], hmax, rfl⟩
    · exact ⟨by simp [DurationRepr.saturated, nanos, Duration.MIN, StdDuration.MAX, maxNanos], hmin, rfl⟩

theorem literalDuration_nanos (neg : Bool) (N : Nat) (p c : ℤ) (v : ℚ)
    (hv : (attoFloor N p : ℤ) = attos v) :
    (literalDuration neg N p c).WF ∧
    nanos (literalDuration neg N p c) = literalSign neg c * min maxNanos (truncatedNanos v c) ∧
    ((literalDuration neg N p c).isNegative = true ↔
      attos v ≠ 0 ∧ c ≠ 0 ∧ literalSign neg c = -1) := by
  unfold literalDuration
  rw [truncatedNanos_nat v c _ hv, ← hv]
  by_cases hz : attoFloor N p = 0 ∨ c = 0
  · rw [if_pos hz]
    refine ⟨by decide, ?_, ?_⟩
    · have h0 : attoFloor N p * c.natAbs / 1000000000 = 0 := by
        rcases hz with h | h <;> simp [h]
      rw [h0]
      simp [nanos, Duration.ZERO, StdDuration.ZERO, maxNanos]
    · simp only [Duration.ZERO, Bool.false_eq_true, false_iff]
      rintro ⟨h1, h2, _⟩
      rcases hz with h | h
      · exact h1 (by rw [h]; rfl)
      · exact h2 h
  · rw [if_neg hz]
    obtain ⟨h1, h2, h3⟩ := ofNanos_nanos (Bool.xor neg (decide (c < 0)))
      (attoFloor N p * c.natAbs / 1000000000)
    refine ⟨h2, ?_, ?_⟩
    · rw [h1]
      congr 1
      unfold literalSign
      by_cases hc : c < 0 <;> cases neg <;> simp [hc]
    · rw [h3]
      unfold literalSign
      have hA : attoFloor N p ≠ 0 := by omega
      have hc0 : c ≠ 0 := by omega
      by_cases hc : c < 0 <;> cases neg <;> simp [hc, hc0, hA]

end Fundu
