import Verif.Model.Number
import Verif.Spec.Number
import Verif.Proofs.Prim
import Mathlib.Tactic.Ring
/-! # The 8-bytes-at-once digit test and conversion -/
namespace Fundu
open Fundu.Spec

theorem and_lane (a b c d : Nat) (ha : a < 256) (hc : c < 256) :
    (a + 256 * b) &&& (c + 256 * d) = (a &&& c) + 256 * (b &&& d) := by
  have h1 : ((a + 256 * b) &&& (c + 256 * d)) % 2 ^ 8 = a &&& c := by
    rw [Nat.and_mod_two_pow]
    have e1 : (a + 256 * b) % 2 ^ 8 = a := by omega
    have e2 : (c + 256 * d) % 2 ^ 8 = c := by omega
    rw [e1, e2]
  have h2 : ((a + 256 * b) &&& (c + 256 * d)) / 2 ^ 8 = b &&& d := by
    rw [Nat.and_div_two_pow]
    have e1 : (a + 256 * b) / 2 ^ 8 = b := by omega
    have e2 : (c + 256 * d) / 2 ^ 8 = d := by omega
    rw [e1, e2]
  omega

/-- the number with `n` lanes of value `k` -/
def lanes (k : Nat) : Nat → Nat
  | 0 => 0
  | n + 1 => k + 256 * lanes k n

theorem leValue_lt (l : Bytes) : leValue l < 256 ^ l.length := by
  induction l with
  | nil => simp [leValue]
  | cons a l ih =>
    have := a.toNat_lt
    simp only [leValue, List.length_cons, Nat.pow_succ]
    omega

/-- one lane of the test, for every byte and both values of an incoming carry being absent -/
theorem lane_test : ∀ a : Nat, a < 256 →
    ((a &&& ((a + 6) % 256)) &&& 240 = 48 ↔ 48 ≤ a ∧ a ≤ 57) := by decide +kernel

theorem lanes_lt (k n : Nat) (hk : k < 256) : lanes k n < 256 ^ n := by
  induction n with
  | zero => simp [lanes]
  | succ n ih => simp only [lanes, Nat.pow_succ]; omega

theorem swar_test_aux (l : Bytes) :
    (leValue l &&& ((leValue l + lanes 6 l.length) % 256 ^ l.length)) &&& lanes 240 l.length
      = lanes 48 l.length ↔ AllDigits l := by
  induction l with
  | nil => simp [leValue, lanes, AllDigits]
  | cons a l ih =>
    have ha := a.toNat_lt
    have hl := leValue_lt l
    have h6 := lanes_lt 6 l.length (by omega)
    have hall : AllDigits (a :: l) ↔ IsDigit a ∧ AllDigits l := by simp [AllDigits]
    have key := lane_test a.toNat ha
    simp only [List.length_cons, lanes]
    by_cases hc : a.toNat + 6 < 256
    · have e : (leValue (a :: l) + (6 + 256 * lanes 6 l.length)) % 256 ^ (l.length + 1)
          = (a.toNat + 6) % 256 + 256 * ((leValue l + lanes 6 l.length) % 256 ^ l.length) := by
        simp only [leValue]
        rw [Nat.mod_eq_of_lt hc, Nat.pow_succ, Nat.mul_comm (256 ^ l.length) 256]
        have : a.toNat + 256 * leValue l + (6 + 256 * lanes 6 l.length)
            = a.toNat + 6 + 256 * (leValue l + lanes 6 l.length) := by ring
        rw [this, Nat.mod_mul]
        have f1 : (a.toNat + 6 + 256 * (leValue l + lanes 6 l.length)) % 256 = a.toNat + 6 := by omega
        have f2 : (a.toNat + 6 + 256 * (leValue l + lanes 6 l.length)) / 256
            = leValue l + lanes 6 l.length := by omega
        rw [f1, f2]
      rw [e]
      simp only [leValue]
      rw [and_lane _ _ _ _ ha (Nat.mod_lt _ (by omega)), and_lane _ _ _ _ ?_ (by omega)]
      · rw [hall, ← ih, IsDigit, ← key]
        have hb1 : a.toNat &&& (a.toNat + 6) % 256 &&& 240 < 256 :=
          Nat.lt_of_le_of_lt Nat.and_le_right (by omega)
        constructor
        · intro h; constructor <;> omega
        · rintro ⟨h1, h2⟩; rw [h1, h2]
      · exact Nat.lt_of_le_of_lt Nat.and_le_left ha
    · -- a carry leaves this lane; then the low lane already fails
      have hnd : ¬ IsDigit a := by unfold IsDigit; omega
      rw [hall]
      constructor
      · intro h
        exfalso
        have h' := congrArg (· % 2 ^ 8) h
        simp only [Nat.and_mod_two_pow] at h'
        have e1 : leValue (a :: l) % 2 ^ 8 = a.toNat := by simp only [leValue]; omega
        have e2 : (leValue (a :: l) + (6 + 256 * lanes 6 l.length)) % 256 ^ (l.length + 1) % 2 ^ 8
            = (a.toNat + 6) % 256 := by
          rw [Nat.mod_mod_of_dvd _ (by exact ⟨256 ^ l.length, by rw [Nat.pow_succ]; ring⟩)]
          simp only [leValue]; omega
        rw [e1, e2] at h'
        have e3 : (240 + 256 * lanes 240 l.length) % 2 ^ 8 = 240 := by omega
        have e4 : (48 + 256 * lanes 48 l.length) % 2 ^ 8 = 48 := by omega
        rw [e3, e4] at h'
        exact hnd (key.1 h')
      · rintro ⟨h, _⟩; exact absurd h hnd

/-- C11: the SWAR test accepts 8 bytes iff each is an ASCII digit. -/
theorem swar_test (l : Bytes) (h : l.length = 8) :
    (leValue l &&& ((leValue l + 0x0606060606060606) % 18446744073709551616)) &&& 0xf0f0f0f0f0f0f0f0
      = 0x3030303030303030 ↔ AllDigits l := by
  have := swar_test_aux l
  rw [h] at this
  exact this

/-- the lanes of the conversion -/
theorem mask_low_nibble (d : Nat) (hd : d < 10) : (48 + d) &&& 15 = d := by
  have : ∀ d < 10, (48 + d) &&& 15 = d := by decide
  exact this d hd

theorem and_lane255 (a b d : Nat) (ha : a < 256) :
    (a + 256 * b) &&& (255 + 256 * d) = a + 256 * (b &&& d) := by
  rw [and_lane _ _ _ _ ha (by omega)]
  have : a &&& 255 = a := by rw [show 255 = 2 ^ 8 - 1 by rfl, Nat.and_two_pow_sub_one_eq_mod]; omega
  rw [this]

theorem and_lane0 (a b d : Nat) (ha : a < 256) :
    (a + 256 * b) &&& (256 * d) = 256 * (b &&& d) := by
  have := and_lane a b 0 d ha (by omega)
  simpa using this

theorem swar_step1 (d0 d1 d2 d3 d4 d5 d6 d7 : Nat) (h0 : d0 < 10) (h1 : d1 < 10) (h2 : d2 < 10)
    (h3 : d3 < 10) (h4 : d4 < 10) (h5 : d5 < 10) (h6 : d6 < 10) (h7 : d7 < 10) :
    ((48 + d0) + 256 * ((48 + d1) + 256 * ((48 + d2) + 256 * ((48 + d3) + 256 * ((48 + d4) +
      256 * ((48 + d5) + 256 * ((48 + d6) + 256 * ((48 + d7) + 256 * 0)))))))) &&&
      0x0F0F0F0F0F0F0F0F
    = d0 + 256 * (d1 + 256 * (d2 + 256 * (d3 + 256 * (d4 + 256 * (d5 + 256 * (d6 + 256 * d7)))))) := by
  have e : 0x0F0F0F0F0F0F0F0F = 15 + 256 * (15 + 256 * (15 + 256 * (15 + 256 * (15 + 256 * (15 + 256 *
    (15 + 256 * (15 + 256 * 0))))))) := by norm_num
  rw [e]
  iterate 8 rw [and_lane _ _ _ _ (by omega) (by omega)]
  rw [mask_low_nibble d0 h0, mask_low_nibble d1 h1, mask_low_nibble d2 h2, mask_low_nibble d3 h3,
    mask_low_nibble d4 h4, mask_low_nibble d5 h5, mask_low_nibble d6 h6, mask_low_nibble d7 h7]
  simp

theorem wrap_div {x lo hi t k m n : Nat} (hx : x = lo + k * hi + n * t) (hlo : lo < k) (hhi : hi < m)
    (hn : n = k * m) : (x % n) / k = hi := by
  have hlt : lo + k * hi < n := by
    rw [hn]
    calc lo + k * hi < k + k * hi := by omega
      _ = k * (hi + 1) := by ring
      _ ≤ k * m := Nat.mul_le_mul_left _ hhi
  rw [hx, Nat.add_mul_mod_self_left, Nat.mod_eq_of_lt hlt, Nat.add_mul_div_left _ _ (by omega),
    Nat.div_eq_of_lt hlo, Nat.zero_add]

theorem swar_mul1 (d0 d1 d2 d3 d4 d5 d6 d7 : Nat) (h0 : d0 < 10) (h1 : d1 < 10) (h2 : d2 < 10)
    (h3 : d3 < 10) (h4 : d4 < 10) (h5 : d5 < 10) (h6 : d6 < 10) (h7 : d7 < 10) :
    ((d0 + 256 * (d1 + 256 * (d2 + 256 * (d3 + 256 * (d4 + 256 * (d5 + 256 * (d6 + 256 * d7)))))))
      * 2561 % 18446744073709551616) / 256
    = (10 * d0 + d1) + 256 * ((10 * d1 + d2) + 256 * ((10 * d2 + d3) + 256 * ((10 * d3 + d4) + 256 *
      ((10 * d4 + d5) + 256 * ((10 * d5 + d6) + 256 * (10 * d6 + d7)))))) := by
  refine wrap_div (m := 72057594037927936) (k := 256) (t := 10 * d7) (lo := d0) ?_ (by omega) ?_ rfl
  · ring
  · omega

theorem swar_step2 (e0 f1 e2 f3 e4 f5 e6 : Nat) (h0 : e0 < 100) (h1 : f1 < 100) (h2 : e2 < 100)
    (h3 : f3 < 100) (h4 : e4 < 100) (h5 : f5 < 100) (h6 : e6 < 100) :
    (e0 + 256 * (f1 + 256 * (e2 + 256 * (f3 + 256 * (e4 + 256 * (f5 + 256 * e6)))))) &&&
      0x00FF00FF00FF00FF
    = e0 + 256 * (256 * (e2 + 256 * (256 * (e4 + 256 * (256 * e6))))) := by
  have e : 0x00FF00FF00FF00FF = 255 + 256 * (256 * (255 + 256 * (256 * (255 + 256 * (256 *
    (255 + 256 * 0)))))) := by norm_num
  have e' : e6 = e6 + 256 * 0 := by omega
  rw [e, and_lane255 _ _ _ (by omega), and_lane0 _ _ _ (by omega), and_lane255 _ _ _ (by omega),
    and_lane0 _ _ _ (by omega), and_lane255 _ _ _ (by omega), and_lane0 _ _ _ (by omega)]
  conv_lhs => rw [e']
  rw [and_lane255 _ _ _ (by omega)]
  simp

theorem swar_mul2 (e0 e2 e4 e6 : Nat) (h0 : e0 < 100) (h2 : e2 < 100) (h4 : e4 < 100)
    (h6 : e6 < 100) :
    ((e0 + 256 * (256 * (e2 + 256 * (256 * (e4 + 256 * (256 * e6)))))) * 6553601
      % 18446744073709551616) / 65536
    = (100 * e0 + e2) + 65536 * ((100 * e2 + e4) + 65536 * (100 * e4 + e6)) := by
  refine wrap_div (m := 281474976710656) (k := 65536) (t := 100 * e6) (lo := e0) ?_ (by omega) ?_ rfl
  · ring
  · omega

theorem and_mask3 (g0 g1 g2 : Nat) (h0 : g0 < 10000) (h1 : g1 < 10000) (h2 : g2 < 10000) :
    (g0 + 65536 * (g1 + 65536 * g2)) &&& 0x0000FFFF0000FFFF = g0 + 65536 * (65536 * g2) := by
  have split : ∀ g, g < 10000 → g = g % 256 + 256 * (g / 256) := by intro g _; omega
  have e : 0x0000FFFF0000FFFF = 255 + 256 * (255 + 256 * (256 * (256 * (255 + 256 * (255 + 256 * 0))))) := by
    norm_num
  have el : g0 + 65536 * (g1 + 65536 * g2) = g0 % 256 + 256 * (g0 / 256 + 256 * (g1 % 256 + 256 * (g1 / 256
      + 256 * (g2 % 256 + 256 * (g2 / 256 + 256 * 0))))) := by omega
  rw [e, el, and_lane255 _ _ _ (by omega), and_lane255 _ _ _ (by omega), and_lane0 _ _ _ (by omega),
    and_lane0 _ _ _ (by omega), and_lane255 _ _ _ (by omega), and_lane255 _ _ _ (by omega)]
  simp
  omega

theorem swar_mul3 (g0 g2 : Nat) (h0 : g0 < 10000) (h2 : g2 < 10000) :
    ((g0 + 65536 * (65536 * g2)) * 42949672960001 % 18446744073709551616) / 4294967296
    = 10000 * g0 + g2 := by
  refine wrap_div (m := 4294967296) (k := 4294967296) (t := 10000 * g2) (lo := g0) ?_ (by omega) ?_ rfl
  · ring
  · omega

theorem uint8_digit (b : UInt8) (h : IsDigit b) : b.toNat = 48 + (b.toNat - 48) ∧ b.toNat - 48 < 10 := by
  unfold IsDigit at h; omega

/-- C12: the three wrapping multiplications convert 8 ASCII digits to their value. -/
theorem parse8Digits_eq (l : Bytes) (h : l.length = 8) (hd : AllDigits l) :
    parse8Digits l = .ok (decimal l) := by
  match l, h with
  | [b0, b1, b2, b3, b4, b5, b6, b7], _ =>
    simp only [AllDigits, List.mem_cons, List.not_mem_nil, or_false, forall_eq_or_imp, forall_eq] at hd
    obtain ⟨h0, h1, h2, h3, h4, h5, h6, h7⟩ := hd
    obtain ⟨q0, r0⟩ := uint8_digit b0 h0
    obtain ⟨q1, r1⟩ := uint8_digit b1 h1
    obtain ⟨q2, r2⟩ := uint8_digit b2 h2
    obtain ⟨q3, r3⟩ := uint8_digit b3 h3
    obtain ⟨q4, r4⟩ := uint8_digit b4 h4
    obtain ⟨q5, r5⟩ := uint8_digit b5 h5
    obtain ⟨q6, r6⟩ := uint8_digit b6 h6
    obtain ⟨q7, r7⟩ := uint8_digit b7 h7
    have hle : leValue [b0, b1, b2, b3, b4, b5, b6, b7] = _ :=
      show b0.toNat + 256 * (b1.toNat + 256 * (b2.toNat + 256 * (b3.toNat + 256 * (b4.toNat + 256 *
        (b5.toNat + 256 * (b6.toNat + 256 * (b7.toNat + 256 * 0))))))) = _ from rfl
    rw [q0, q1, q2, q3, q4, q5, q6, q7] at hle
    have hread : readU64 [b0, b1, b2, b3, b4, b5, b6, b7]
        = .ok (leValue [b0, b1, b2, b3, b4, b5, b6, b7]) := by
      simp [readU64]
    have hassert : assert (decide (8 ≤ [b0, b1, b2, b3, b4, b5, b6, b7].length)) = .ok () := by
      simp [assert]
    have hdec : decimal [b0, b1, b2, b3, b4, b5, b6, b7] =
        10000 * (100 * (10 * (b0.toNat - 48) + (b1.toNat - 48)) +
          (10 * (b2.toNat - 48) + (b3.toNat - 48))) +
        (100 * (10 * (b4.toNat - 48) + (b5.toNat - 48)) +
          (10 * (b6.toNat - 48) + (b7.toNat - 48))) := by
      simp only [decimal, List.length_cons, List.length_nil]
      generalize b0.toNat - 48 = d0
      generalize b1.toNat - 48 = d1
      generalize b2.toNat - 48 = d2
      generalize b3.toNat - 48 = d3
      generalize b4.toNat - 48 = d4
      generalize b5.toNat - 48 = d5
      generalize b6.toNat - 48 = d6
      generalize b7.toNat - 48 = d7
      norm_num
      ring
    rw [hdec]
    generalize b0.toNat - 48 = d0 at *
    generalize b1.toNat - 48 = d1 at *
    generalize b2.toNat - 48 = d2 at *
    generalize b3.toNat - 48 = d3 at *
    generalize b4.toNat - 48 = d4 at *
    generalize b5.toNat - 48 = d5 at *
    generalize b6.toNat - 48 = d6 at *
    generalize b7.toNat - 48 = d7 at *
    unfold parse8Digits
    simp only [hassert, hread, ok_bind, ok_pure]
    rw [hle, swar_step1 _ _ _ _ _ _ _ _ r0 r1 r2 r3 r4 r5 r6 r7, Nat.shiftRight_eq_div_pow,
      Nat.shiftRight_eq_div_pow, Nat.shiftRight_eq_div_pow,
      show 2 ^ 8 = 256 by rfl, show 2 ^ 16 = 65536 by rfl, show 2 ^ 32 = 4294967296 by rfl,
      swar_mul1 _ _ _ _ _ _ _ _ r0 r1 r2 r3 r4 r5 r6 r7,
      swar_step2 _ _ _ _ _ _ _ (by omega) (by omega) (by omega) (by omega) (by omega) (by omega)
        (by omega),
      swar_mul2 _ _ _ _ (by omega) (by omega) (by omega) (by omega),
      and_mask3 _ _ _ (by omega) (by omega) (by omega),
      swar_mul3 _ _ (by omega) (by omega)]

end Fundu
