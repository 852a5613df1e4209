import Verif.Model.Bytes
import Verif.Proofs.Swar
import Verif.Proofs.Shift
/-! # What the scanners of the parser do, in terms of the bytes which are left -/
namespace Fundu
open Spec

theorem isDigit_iff (b : UInt8) : isDigit b = true ↔ IsDigit b := by
  simp [isDigit, IsDigit]

theorem isDigit_false_iff (b : UInt8) : isDigit b = false ↔ ¬ IsDigit b := by
  rw [← isDigit_iff]; simp

theorem allDigits_takeWhile (l : Bytes) : AllDigits (l.takeWhile isDigit) := by
  intro b hb
  rw [← isDigit_iff]
  induction l with
  | nil => simp at hb
  | cons a l ih =>
    rw [List.takeWhile_cons] at hb
    by_cases h : isDigit a = true
    · rw [if_pos h] at hb
      rcases List.mem_cons.mp hb with rfl | hb
      · exact h
      · exact ih hb
    · rw [if_neg h] at hb; cases hb

/-- the longest prefix of a string, if the first part satisfies the predicate -/
theorem takeWhile_split {p : UInt8 → Bool} (l : Bytes) (k : Nat) (h : ∀ b ∈ l.take k, p b = true) :
    l.takeWhile p = l.take k ++ (l.drop k).takeWhile p := by
  conv_lhs => rw [← List.take_append_drop k l]
  rw [List.takeWhile_append_of_pos h]

theorem liftP_ok {α} (a : α) : liftP (.ok a : Except Panic α) = .ok a := rfl

namespace Cursor

/-- the bytes from the current position on -/
def rest (c : Cursor) : Bytes := c.input.drop c.pos

theorem rest_new (s : Bytes) : (new s).rest = s := rfl

theorem cur_eq (c : Cursor) : c.cur = c.rest.head? := by
  simp [cur, rest]

theorem rest_length (c : Cursor) : c.rest.length = c.input.length - c.pos := by simp [rest]

theorem advance_eq (c : Cursor) : c.advance = c.advanceBy 1 := rfl

theorem advanceBy_zero (c : Cursor) : c.advanceBy 0 = c := rfl

theorem advanceBy_advanceBy (c : Cursor) (m n : Nat) : (c.advanceBy m).advanceBy n = c.advanceBy (m + n) := by
  simp [advanceBy, Nat.add_assoc]

theorem rest_advanceBy (c : Cursor) (n : Nat) : (c.advanceBy n).rest = c.rest.drop n := by
  simp [rest, advanceBy]

theorem rest_advance (c : Cursor) : c.advance.rest = c.rest.drop 1 := rest_advanceBy c 1

theorem input_advanceBy (c : Cursor) (n : Nat) : (c.advanceBy n).input = c.input := rfl
theorem pos_advanceBy (c : Cursor) (n : Nat) : (c.advanceBy n).pos = c.pos + n := rfl
theorem buffer_advanceBy (c : Cursor) (n : Nat) : (c.advanceBy n).buffer = c.buffer := rfl

theorem rest_finish (c : Cursor) : c.finish.rest = [] := by simp [rest, finish]

theorem reset_pos (c : Cursor) (n : Nat) : (c.advanceBy n).reset c.pos = c := rfl

/-! ## Words -/

theorem skipTo_eq (d : Delimiter) (n : Nat) (c : Cursor) (h : c.rest.length ≤ n) :
    skipTo d n c = .ok (c.advanceBy (c.rest.takeWhile (fun b => !d b)).length) := by
  induction n generalizing c with
  | zero =>
    have : c.rest = [] := List.eq_nil_of_length_eq_zero (by omega)
    simp only [skipTo, cur_eq, this]
    simp [advanceBy_zero]
  | succ n ih =>
    cases hr : c.rest with
    | nil =>
      simp only [skipTo, cur_eq, hr]
      simp [advanceBy_zero]
    | cons b r =>
      simp only [skipTo, cur_eq, hr, List.head?_cons]
      by_cases hd : d b = true
      · simp [hd, advanceBy_zero]
      · have hadv : c.advance.rest = r := by rw [rest_advance, hr]; rfl
        rw [if_neg hd, ih _ (by rw [hadv]; rw [hr] at h; simp at h; omega), hadv, advance_eq,
          advanceBy_advanceBy]
        simp [hd, Nat.add_comm]

theorem skipTo_input (d : Delimiter) (c : Cursor) :
    skipTo d c.input.length c = .ok (c.advanceBy (c.rest.takeWhile (fun b => !d b)).length) :=
  skipTo_eq d _ c (by rw [rest_length]; omega)

theorem take_drop_rest (c : Cursor) (k : Nat) :
    (c.input.take (c.pos + k)).drop c.pos = c.rest.take k := by
  rw [rest, List.drop_take]; congr 1; omega

/-- a slice from the current position -/
theorem sliceR_rest (c : Cursor) (k : Nat) (hp : c.pos ≤ c.input.length) (h : k ≤ c.rest.length) :
    sliceR c.input c.pos (c.pos + k) = .ok (c.rest.take k) := by
  rw [rest_length] at h
  rw [sliceR, slice_ok (by omega) (by omega), take_drop_rest]; rfl

theorem takeWhile_take (p : UInt8 → Bool) (l : Bytes) : l.take (l.takeWhile p).length = l.takeWhile p :=
  (List.prefix_iff_eq_take.mp (List.takeWhile_prefix p)).symm

theorem takeWhile_length_le (p : UInt8 → Bool) (l : Bytes) : (l.takeWhile p).length ≤ l.length :=
  (List.takeWhile_prefix p).length_le

theorem takeWhile_drop (p : UInt8 → Bool) (l : Bytes) : l.drop (l.takeWhile p).length = l.dropWhile p := by
  have := List.takeWhile_append_dropWhile (p := p) (l := l)
  calc l.drop (l.takeWhile p).length = (l.takeWhile p ++ l.dropWhile p).drop (l.takeWhile p).length := by
        rw [this]
    _ = _ := List.drop_left

/-- the word in front: everything up to the first delimiter -/
def word (d : Delimiter) (c : Cursor) : Bytes := c.rest.takeWhile (fun b => !d b)

theorem word_length (d : Delimiter) (c : Cursor) : (c.word d).length ≤ c.rest.length := takeWhile_length_le _ _

theorem word_take (d : Delimiter) (c : Cursor) : c.rest.take (c.word d).length = c.word d := takeWhile_take _ _

theorem advanceTo_eq (d : Delimiter) (c : Cursor) (hp : c.pos ≤ c.input.length) :
    c.advanceTo d = .ok (c.word d, c.advanceBy (c.word d).length) := by
  unfold advanceTo
  rw [skipTo_input, ok_bind, input_advanceBy, pos_advanceBy,
    sliceR_rest c _ hp (takeWhile_length_le _ _), ok_bind, takeWhile_take]
  rfl

/-- the buffer contains what an unbuffered scan with the same delimiter finds -/
def BufferOk (c : Cursor) : Prop :=
  ∀ p w n, c.buffer = some (p, w, n) →
    p + w.length ≤ c.input.length ∧ w = (c.input.drop p).take w.length ∧ n = c.input[p + w.length]?

theorem bufferedAdvanceTo_none (d : Delimiter) (c : Cursor) (hp : c.pos ≤ c.input.length)
    (h : c.buffered d = none) :
    c.bufferedAdvanceTo d = .ok (c.word d, { c.advanceBy (c.word d).length with
      buffer := some (c.pos, c.word d, (c.advanceBy (c.word d).length).cur) }) := by
  unfold bufferedAdvanceTo
  rw [h]
  simp only
  rw [skipTo_input, ok_bind, input_advanceBy, pos_advanceBy,
    sliceR_rest c _ hp (takeWhile_length_le _ _), ok_bind, takeWhile_take]
  rfl

/-! ## Digits -/

theorem peek_eq (c : Cursor) (n : Nat) (hp : c.pos ≤ c.input.length) :
    c.peek n = if n ≤ c.rest.length then some (c.rest.take n) else none := by
  unfold peek
  rw [rest_length]
  by_cases h : c.pos + n ≤ c.input.length
  · rw [if_pos h, if_pos (by omega)]; rfl
  · rw [if_neg h, if_neg (by omega)]

theorem parse8_eq (c : Cursor) (hp : c.pos ≤ c.input.length) :
    c.parse8 = .ok (if 8 ≤ c.rest.length ∧ AllDigits (c.rest.take 8) then
      some (leValue (c.rest.take 8), c.advanceBy 8) else none) := by
  unfold parse8
  rw [peek_eq c 8 hp]
  by_cases h : 8 ≤ c.rest.length
  · rw [if_pos h]
    have hl : (c.rest.take 8).length = 8 := by simp; omega
    have ht : (c.rest.take 8).take 8 = c.rest.take 8 := by rw [List.take_take]; rfl
    simp only [readU64, hl, Nat.le_refl, if_pos, ht, liftP_ok, ok_bind]
    by_cases hd : AllDigits (c.rest.take 8)
    · rw [if_pos ((swar_test _ hl).mpr hd), if_pos ⟨h, hd⟩]; rfl
    · rw [if_neg (fun hh => hd ((swar_test _ hl).mp hh)), if_neg (fun hh => hd hh.2)]; rfl
  · rw [if_neg h, if_neg (fun hh => h hh.1)]

theorem skipBlocks_eq (fuel : Nat) (c : Cursor) (hp : c.pos ≤ c.input.length) (hf : c.rest.length ≤ fuel) :
    ∃ k, skipBlocks fuel c = .ok (c.advanceBy k) ∧ k ≤ c.rest.length ∧ AllDigits (c.rest.take k) := by
  induction fuel generalizing c with
  | zero =>
    refine ⟨0, ?_, by omega, by intro b hb; simp at hb⟩
    unfold skipBlocks
    rw [parse8_eq c hp, if_neg (by omega)]; rfl
  | succ fuel ih =>
    unfold skipBlocks
    rw [parse8_eq c hp]
    by_cases h : 8 ≤ c.rest.length ∧ AllDigits (c.rest.take 8)
    · rw [if_pos h, ok_bind]
      have hr : (c.advanceBy 8).rest = c.rest.drop 8 := rest_advanceBy c 8
      have hl := rest_length c
      obtain ⟨k, hk, hk2, hk3⟩ := ih (c.advanceBy 8)
        (by rw [pos_advanceBy, input_advanceBy]; omega) (by rw [hr]; simp; omega)
      refine ⟨8 + k, ?_, ?_, ?_⟩
      · simp only [hk, advanceBy_advanceBy]
      · rw [hr] at hk2; simp at hk2; omega
      · rw [hr] at hk3
        rw [List.take_add]
        exact h.2.append hk3
    · rw [if_neg h, ok_bind]
      exact ⟨0, rfl, by omega, by intro b hb; simp at hb⟩

theorem skipDigits_eq (fuel : Nat) (c : Cursor) (hf : c.rest.length ≤ fuel) :
    skipDigits fuel c = .ok (c.advanceBy (c.rest.takeWhile isDigit).length) := by
  induction fuel generalizing c with
  | zero =>
    have : c.rest = [] := List.eq_nil_of_length_eq_zero (by omega)
    unfold skipDigits parseDigit
    simp [cur_eq, this, advanceBy_zero]
  | succ fuel ih =>
    unfold skipDigits parseDigit
    cases hr : c.rest with
    | nil => simp [cur_eq, hr, advanceBy_zero]
    | cons b r =>
      simp only [cur_eq, hr, List.head?_cons]
      by_cases hd : isDigit b = true
      · have hadv : c.advance.rest = r := by rw [rest_advance, hr]; rfl
        simp only [if_pos hd]
        rw [ih _ (by rw [hadv]; rw [hr] at hf; simp at hf; omega), hadv, advance_eq, advanceBy_advanceBy]
        simp [hd, Nat.add_comm]
      · simp [hd, advanceBy_zero]

/-- the digits in front -/
def digits (c : Cursor) : Bytes := c.rest.takeWhile isDigit

theorem digits_length (c : Cursor) : c.digits.length ≤ c.rest.length := takeWhile_length_le _ _
theorem digits_take (c : Cursor) : c.rest.take c.digits.length = c.digits := takeWhile_take _ _
theorem digits_all (c : Cursor) : AllDigits c.digits := allDigits_takeWhile _

theorem digits_split (c : Cursor) (k : Nat) (h : AllDigits (c.rest.take k)) :
    c.digits = c.rest.take k ++ (c.advanceBy k).digits := by
  rw [digits, takeWhile_split _ k (fun b hb => (isDigit_iff b).mpr (h b hb)), digits, rest_advanceBy]

theorem assertDigit_eq (c : Cursor) (b : UInt8) (h : c.cur = some b) (hb : isDigit b = true) :
    c.assertDigit = .ok () := by
  unfold assertDigit; rw [h]; simp [hb]

theorem parseDigits_eq (c : Cursor) (hp : c.pos ≤ c.input.length) (b : UInt8) (h : c.cur = some b)
    (hb : isDigit b = true) :
    c.parseDigits = .ok (⟨c.pos, c.pos + c.digits.length⟩, c.advanceBy c.digits.length) := by
  unfold parseDigits
  rw [assertDigit_eq c b h hb, ok_bind]
  obtain ⟨k, hk, hk2, hk3⟩ := skipBlocks_eq c.input.length c hp (by rw [rest_length]; omega)
  rw [hk, ok_bind, skipDigits_eq _ _ (by rw [rest_length, input_advanceBy]; omega), ok_bind]
  have := digits_split c k hk3
  have hl : c.digits.length = k + (c.advanceBy k).digits.length := by
    rw [this]; simp; omega
  rw [advanceBy_advanceBy]
  show Except.ok _ = _
  have e : k + (List.takeWhile isDigit (c.advanceBy k).rest).length = c.digits.length := hl.symm
  rw [e]; rfl

/-! ## Leading zeros -/

theorem trailingZeros_dvd (k n : Nat) : 2 ^ trailingZeros k n ∣ n := by
  induction k generalizing n with
  | zero => simp [trailingZeros]
  | succ k ih =>
    unfold trailingZeros
    by_cases h : n % 2 = 1
    · simp [h]
    · rw [if_neg h, Nat.add_comm, Nat.pow_succ]
      have := ih (n / 2)
      obtain ⟨q, hq⟩ := this
      exact ⟨q, by rw [Nat.mul_right_comm, ← hq]; omega⟩

theorem trailingZeros_double (k n : Nat) : trailingZeros (k + 1) (2 * n) = 1 + trailingZeros k n := by
  conv_lhs => unfold trailingZeros
  rw [if_neg (by omega), show 2 * n / 2 = n by omega]

theorem trailingZeros_256 (k n : Nat) : trailingZeros (k + 8) (256 * n) = 8 + trailingZeros k n := by
  rw [show 256 * n = 2 * (2 * (2 * (2 * (2 * (2 * (2 * (2 * n))))))) by ring]
  simp only [trailingZeros_double, show k + 8 = k + 7 + 1 by rfl, show k + 7 = k + 6 + 1 by rfl,
    show k + 6 = k + 5 + 1 by rfl, show k + 5 = k + 4 + 1 by rfl, show k + 4 = k + 3 + 1 by rfl,
    show k + 3 = k + 2 + 1 by rfl, show k + 2 = k + 1 + 1 by rfl]
  omega

/-- the value of the digits as little endian number in base 256 -/
def digitsLe : Bytes → Nat
  | [] => 0
  | b :: bs => (b.toNat - 48) + 256 * digitsLe bs

theorem leValue_sub (l : Bytes) (h : l.length = 8) (hd : AllDigits l) :
    leValue l = 0x3030303030303030 + digitsLe l := by
  match l, h with
  | [b0, b1, b2, b3, b4, b5, b6, b7], _ =>
    simp only [AllDigits, IsDigit, List.mem_cons, List.not_mem_nil, or_false, forall_eq_or_imp, forall_eq] at hd
    simp only [leValue, digitsLe]
    omega

theorem digitsLe_zeros (l : Bytes) (hd : AllDigits l) : digitsLe l = 0 ↔ ∀ b ∈ l, b = 48 := by
  induction l with
  | nil => simp [digitsLe]
  | cons b l ih =>
    have hb : IsDigit b := hd b (by simp)
    have hl : AllDigits l := fun x hx => hd x (by simp [hx])
    have e : b = 48 ↔ b.toNat = 48 := by rw [← UInt8.toNat_inj]; rfl
    simp only [digitsLe, List.mem_cons, forall_eq_or_imp, e, ← ih hl]
    unfold IsDigit at hb
    omega

theorem trailingZeros_digits (l : Bytes) (hd : AllDigits l) (hn : digitsLe l ≠ 0) (k : Nat)
    (hk : 8 * l.length ≤ k) :
    trailingZeros k (digitsLe l) / 8 = (l.takeWhile (fun b => b = 48)).length := by
  induction l generalizing k with
  | nil => simp [digitsLe] at hn
  | cons b l ih =>
    have hb : IsDigit b := hd b (by simp)
    have hl : AllDigits l := fun x hx => hd x (by simp [hx])
    by_cases h0 : b = 48
    · subst h0
      have e : digitsLe (48 :: l) = 256 * digitsLe l := by simp [digitsLe]
      rw [e] at hn ⊢
      simp at hk
      obtain ⟨k, rfl⟩ := Nat.exists_eq_add_of_le' (show 8 ≤ k by omega)
      rw [trailingZeros_256, List.takeWhile_cons]
      have := ih hl (by omega) k (by omega)
      simp only [decide_true, if_true, List.length_cons, ← this]
      omega
    · rw [List.takeWhile_cons]
      simp only [h0, decide_false, Bool.false_eq_true, if_false, List.length_nil]
      have h1 := trailingZeros_dvd k (digitsLe (b :: l))
      generalize trailingZeros k (digitsLe (b :: l)) = t at h1
      by_contra hc
      have h8 : 8 ≤ t := by omega
      have h2 : 256 ∣ digitsLe (b :: l) := Nat.dvd_trans (Nat.pow_dvd_pow 2 h8) h1
      have e : b ≠ 48 → b.toNat ≠ 48 := by
        intro h h'; exact h (UInt8.toNat_inj.mp h')
      have := e h0
      simp only [digitsLe] at h2
      unfold IsDigit at hb
      omega

/-- the number of leading zeros -/
def zeros (l : Bytes) : Nat := (l.takeWhile (fun b => b = 48)).length

theorem zeros_le (l : Bytes) : zeros l ≤ l.length := takeWhile_length_le _ _

theorem zeros_append_all {a b : Bytes} (h : ∀ x ∈ a, x = 48) : zeros (a ++ b) = a.length + zeros b := by
  unfold zeros
  rw [List.takeWhile_append_of_pos (by intro x hx; simp [h x hx])]
  simp

theorem zeros_append_not {a b : Bytes} (h : ¬ ∀ x ∈ a, x = 48) : zeros (a ++ b) = zeros a := by
  unfold zeros
  induction a with
  | nil => simp at h
  | cons x a ih =>
    by_cases hx : x = 48
    · subst hx
      have : ¬ ∀ x ∈ a, x = 48 := by intro hh; apply h; simp; exact hh
      simp [ih this]
    · simp [hx]

theorem stripBlocks_eq (fuel start : Nat) (strip : Bool) (c : Cursor) (hp : c.pos ≤ c.input.length)
    (hf : c.rest.length ≤ fuel) :
    ∃ k, k ≤ c.rest.length ∧ AllDigits (c.rest.take k) ∧
      stripBlocks fuel start strip c = .ok (if strip then start + zeros (c.rest.take k) else start,
        strip && decide (∀ x ∈ c.rest.take k, x = 48), c.advanceBy k) := by
  induction fuel generalizing c start strip with
  | zero =>
    refine ⟨0, by omega, by intro b hb; simp at hb, ?_⟩
    unfold stripBlocks
    rw [parse8_eq c hp, if_neg (by omega)]
    simp [ok_bind, ok_pure, zeros, advanceBy_zero]
  | succ fuel ih =>
    by_cases h : 8 ≤ c.rest.length ∧ AllDigits (c.rest.take 8)
    · have hr : (c.advanceBy 8).rest = c.rest.drop 8 := rest_advanceBy c 8
      have hl := rest_length c
      have h8 : (c.rest.take 8).length = 8 := by simp; omega
      have hp' : (c.advanceBy 8).pos ≤ (c.advanceBy 8).input.length := by
        rw [pos_advanceBy, input_advanceBy]; omega
      have hf' : (c.advanceBy 8).rest.length ≤ fuel := by rw [hr]; simp; omega
      have hle := leValue_sub _ h8 h.2
      have hz := digitsLe_zeros _ h.2
      have step : ∀ start' strip',
          stripBlocks (fuel + 1) start strip c = stripBlocks fuel start' strip' (c.advanceBy 8) →
          (if strip then start + zeros (c.rest.take 8) else start) = start' →
          (strip && decide (∀ x ∈ c.rest.take 8, x = 48)) = strip' →
          ∃ k, k ≤ c.rest.length ∧ AllDigits (c.rest.take k) ∧
            stripBlocks (fuel + 1) start strip c = .ok (if strip then start + zeros (c.rest.take k) else start,
              strip && decide (∀ x ∈ c.rest.take k, x = 48), c.advanceBy k) := by
        intro start' strip' he hs hb
        obtain ⟨k, hk1, hk2, hk3⟩ := ih start' strip' (c.advanceBy 8) hp' hf'
        rw [hr] at hk1 hk2 hk3
        refine ⟨8 + k, by simp at hk1; omega, by rw [List.take_add]; exact h.2.append hk2, ?_⟩
        rw [he, hk3, advanceBy_advanceBy, ← hs, ← hb, List.take_add]
        cases strip with
        | false => simp
        | true =>
          simp only [if_true, Bool.true_and]
          by_cases ha : ∀ x ∈ c.rest.take 8, x = 48
          · rw [zeros_append_all ha, h8]
            have : zeros (c.rest.take 8) = 8 := by
              have := zeros_append_all (b := []) ha
              simpa [h8, zeros] using this
            simp only [decide_eq_true ha, if_true, this, Nat.add_assoc, Bool.true_and]
            congr 3
            rw [decide_eq_decide]
            simp only [List.mem_append]
            constructor
            · intro hh x hx
              rcases hx with hx | hx
              · exact ha x hx
              · exact hh x hx
            · intro hh x hx; exact hh x (Or.inr hx)
          · rw [zeros_append_not ha]
            have hn : ¬ ∀ x ∈ c.rest.take 8 ++ (c.rest.drop 8).take k, x = 48 := by
              intro hh; apply ha; intro x hx; exact hh x (List.mem_append.mpr (Or.inl hx))
            simp [decide_eq_false ha, decide_eq_false hn]
      have hu : ∀ s, stripBlocks (fuel + 1) start s c =
          if s = true then
            if leValue (c.rest.take 8) = 0x3030303030303030 then stripBlocks fuel (start + 8) true (c.advanceBy 8)
            else do
              let d ← liftP (subUsize (leValue (c.rest.take 8)) 0x3030303030303030)
              stripBlocks fuel (start + trailingZeros 64 d / 8) false (c.advanceBy 8)
          else stripBlocks fuel start false (c.advanceBy 8) := by
        intro s
        conv_lhs => unfold stripBlocks
        rw [parse8_eq c hp, if_pos h, ok_bind]
      cases strip with
      | false =>
        refine step start false ?_ (by simp) (by simp)
        rw [hu]; simp
      | true =>
        by_cases ha : ∀ x ∈ c.rest.take 8, x = 48
        · refine step (start + 8) true ?_ ?_ (by simpa using ha)
          · rw [hu, if_pos rfl, if_pos (by rw [hle, hz.mpr ha])]
          · have := zeros_append_all (b := []) ha
            have : zeros (c.rest.take 8) = 8 := by simpa [h8, zeros] using this
            simp [this]
        · have hne : digitsLe (c.rest.take 8) ≠ 0 := fun hh => ha (hz.mp hh)
          refine step (start + zeros (c.rest.take 8)) false ?_ (by simp) (by simpa using ha)
          rw [hu, if_pos rfl, if_neg (by rw [hle]; omega), hle, subUsize, if_pos (by omega), liftP_ok, ok_bind,
            Nat.add_sub_cancel_left, trailingZeros_digits _ h.2 hne 64 (by omega)]
          rfl
    · refine ⟨0, by omega, by intro b hb; simp at hb, ?_⟩
      unfold stripBlocks
      rw [parse8_eq c hp, if_neg h]
      simp [ok_bind, ok_pure, zeros, advanceBy_zero]

theorem stripEach_eq (fuel start : Nat) (strip : Bool) (c : Cursor) (hf : c.rest.length ≤ fuel) :
    stripEach fuel start strip c =
      .ok (if strip then start + zeros c.digits else start, c.advanceBy c.digits.length) := by
  induction fuel generalizing c start strip with
  | zero =>
    have : c.rest = [] := List.eq_nil_of_length_eq_zero (by omega)
    unfold stripEach digits
    simp [cur_eq, this, advanceBy_zero, zeros]
  | succ fuel ih =>
    unfold stripEach digits
    cases hr : c.rest with
    | nil => simp [cur_eq, hr, advanceBy_zero, zeros]
    | cons b r =>
      simp only [cur_eq, hr, List.head?_cons]
      by_cases hd : isDigit b = true
      · have hadv : c.advance.rest = r := by rw [rest_advance, hr]; rfl
        have hdg : c.advance.digits = r.takeWhile isDigit := by rw [digits, hadv]
        simp only [if_pos hd, List.takeWhile_cons]
        rw [ih _ _ _ (by rw [hadv]; rw [hr] at hf; simp at hf; omega),
          ih _ _ _ (by rw [hadv]; rw [hr] at hf; simp at hf; omega), hdg, advance_eq, advanceBy_advanceBy]
        rw [show 1 + (r.takeWhile isDigit).length = (b :: r.takeWhile isDigit).length by simp [Nat.add_comm]]
        cases strip with
        | false => simp
        | true =>
          by_cases h0 : b = 48
          · subst h0; simp [zeros]; omega
          · simp [h0, zeros]
      · simp [hd, advanceBy_zero, zeros]

/-- C11 and C13: the scanner consumes the maximal run of digits and returns this run without leading zeros. -/
theorem parseDigitsStripZeros_eq (c : Cursor) (hp : c.pos ≤ c.input.length) (b : UInt8) (h : c.cur = some b)
    (hb : isDigit b = true) :
    c.parseDigitsStripZeros =
      .ok (⟨c.pos + zeros c.digits, c.pos + c.digits.length⟩, c.advanceBy c.digits.length) := by
  unfold parseDigitsStripZeros
  rw [assertDigit_eq c b h hb, ok_bind]
  obtain ⟨k, hk2, hk3, hk⟩ := stripBlocks_eq c.input.length c.pos true c hp (by rw [rest_length]; omega)
  rw [hk, ok_bind]
  simp only
  rw [input_advanceBy] at *
  rw [stripEach_eq _ _ _ _ (by rw [rest_length, input_advanceBy]; omega), ok_bind]
  have hs := digits_split c k hk3
  have hl : c.digits.length = k + (c.advanceBy k).digits.length := by
    rw [hs]; simp; omega
  rw [advanceBy_advanceBy, ← hl]
  have hz : (if (true && decide (∀ x ∈ c.rest.take k, x = 48)) = true then
      (if true = true then c.pos + zeros (c.rest.take k) else c.pos) + zeros (c.advanceBy k).digits
      else (if true = true then c.pos + zeros (c.rest.take k) else c.pos)) = c.pos + zeros c.digits := by
    have hk' : (c.rest.take k).length = k := by simp; omega
    by_cases ha : ∀ x ∈ c.rest.take k, x = 48
    · have := zeros_append_all (b := []) ha
      have : zeros (c.rest.take k) = k := by simpa [hk', zeros] using this
      rw [hs, zeros_append_all ha]
      simp only [decide_eq_true ha, hk', this]
      simp; omega
    · rw [hs, zeros_append_not ha]
      simp [decide_eq_false ha]
  simp only [Bool.true_and, decide_eq_true_eq, if_true] at hz ⊢
  rw [hz]
  rfl

end Cursor
end Fundu
