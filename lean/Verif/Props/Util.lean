import Verif.Proofs.Util
import Mathlib.Algebra.Order.Floor.Ring
import Mathlib.Algebra.Order.Field.Rat
import Mathlib.Data.Rat.Floor
/-!
# Properties C51, C52: floor division, integer logarithms
-/
namespace Fundu.Props
open Fundu

/-! ## C51 -/

/-- C51: `floor_div(a, b)` is the floor of the rational number `a / b`, for all `i64` with `b ≠ 0` except
for the pair whose quotient is not an `i64`. -/
theorem C51_floor_div (a b : Int) (ha : IsI64 a) (hb : IsI64 b) (h0 : b ≠ 0)
    (h1 : ¬ (a = -2 ^ 63 ∧ b = -1)) : floorDiv a b = .ok ⌊(a : ℚ) / b⌋ := by
  rw [floorDiv_ok a b ha hb h0 h1]
  congr 1
  rcases Int.lt_or_gt_of_ne h0 with h | h
  · obtain ⟨n, hn⟩ := Int.eq_ofNat_of_zero_le (show 0 ≤ -b by omega)
    have e : (a : ℚ) / b = ((-a : Int) : ℚ) / (n : ℕ) := by
      have : (b : ℚ) = -(n : ℕ) := by
        have : b = -(n : Int) := by omega
        rw [this]; push_cast; rfl
      rw [this]; push_cast; rw [div_neg, neg_div]
    rw [e, Rat.floor_intCast_div_natCast, ← Int.neg_fdiv_neg, hn,
      Int.fdiv_eq_ediv_of_nonneg _ (by omega)]
  · obtain ⟨n, hn⟩ := Int.eq_ofNat_of_zero_le (show 0 ≤ b by omega)
    subst hn
    rw [Int.cast_natCast, Rat.floor_intCast_div_natCast, Int.fdiv_eq_ediv_of_nonneg _ (by omega)]

/-- C51: division by zero and the overflowing pair panic. -/
theorem C51_panics (a : Int) :
    floorDiv a 0 = .error .overflow ∧ floorDiv (-2 ^ 63) (-1) = .error .overflow :=
  ⟨rfl, by decide⟩

example : IsI64 (-7) ∧ IsI64 2 ∧ floorDiv (-7) 2 = .ok (-4) ∧ floorDiv 7 (-2) = .ok (-4) ∧
    floorDiv (-2 ^ 63) 1 = .ok (-2 ^ 63) := by decide

/-! ## C52 -/

/-- C52: `floor_log2(n)` is the `k` with `2^k ≤ n < 2^(k+1)`, for every non-zero `u64`. -/
theorem C52_floor_log2 (n : Nat) (h0 : 0 < n) (h : n < 2 ^ 64) :
    ∃ k, floorLog2 n = .ok k ∧ k < 64 ∧ 2 ^ k ≤ n ∧ n < 2 ^ (k + 1) := by
  obtain ⟨h1, h2, h3⟩ := leadingZeros_spec 64 n (by omega) h
  refine ⟨63 - leadingZeros 64 n, ?_, by omega, h2, ?_⟩
  · unfold floorLog2
    rw [if_pos (by omega)]; rfl
  · have : 63 - leadingZeros 64 n + 1 = 64 - leadingZeros 64 n := by omega
    rw [this]; exact h3

/-- the table is such that the logarithm is the entry or one more -/
theorem guess_ok : ∀ k, k < 64 → ∃ g, guess k = .ok g ∧ g + 1 < 20 ∧ 10 ^ g ≤ 2 ^ k ∧ 2 ^ (k + 1) ≤ 10 ^ (g + 2) := by
  intro k hk
  have key : ∀ k : Fin 64, ∃ g : Fin 19, guess k.1 = .ok g.1 ∧ 10 ^ g.1 ≤ 2 ^ k.1 ∧
      2 ^ (k.1 + 1) ≤ 10 ^ (g.1 + 2) := by decide +kernel
  obtain ⟨g, h1, h2, h3⟩ := key ⟨k, hk⟩
  exact ⟨g.1, h1, by omega, h2, h3⟩

theorem pow10Index_eq (i : Nat) (h : i < 20) : pow10Index i = .ok (10 ^ i) := by
  have key : ∀ i : Fin 20, pow10Index i.1 = .ok (10 ^ i.1) := by decide +kernel
  exact key ⟨i, h⟩

/-- C52: `floor_log10(n)` is the `k` with `10^k ≤ n < 10^(k+1)`, for every non-zero `u64`. -/
theorem C52_floor_log10 (n : Nat) (h0 : 0 < n) (h : n < 2 ^ 64) :
    ∃ k, floorLog10 n = .ok k ∧ 10 ^ k ≤ n ∧ n < 10 ^ (k + 1) := by
  obtain ⟨k, hk, hlt, h1, h2⟩ := C52_floor_log2 n h0 h
  obtain ⟨g, hg, hg20, h3, h4⟩ := guess_ok k hlt
  unfold floorLog10
  rw [hk, ok_bind, hg, ok_bind, pow10Index_eq _ hg20, ok_bind]
  by_cases hc : 10 ^ (g + 1) ≤ n
  · rw [if_pos hc]
    exact ⟨g + 1, rfl, hc, Nat.lt_of_lt_of_le h2 h4⟩
  · rw [if_neg hc]
    exact ⟨g, rfl, by omega, by omega⟩

/-- C52: the logarithm of zero panics. -/
theorem C52_zero : floorLog2 0 = .error .unwrap ∧ floorLog10 0 = .error .unwrap := by decide

example : floorLog2 1023 = .ok 9 ∧ floorLog10 999 = .ok 2 ∧ floorLog10 1000 = .ok 3 ∧
    floorLog10 18446744073709551615 = .ok 19 := by decide +kernel

end Fundu.Props
