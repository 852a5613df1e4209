import Verif.Proofs.Cursor
import Verif.Proofs.Utf8
import Verif.Model.Parse
/-! # Delimiters, words and exponents in terms of the bytes which are left -/
namespace Fundu
open Spec

theorem toLower_ascii {b x : UInt8} (h : toLower b = x) (hx : x.toNat < 128) : b.toNat < 128 := by
  unfold toLower at h
  by_cases hb : (decide (65 ≤ b.toNat) && decide (b.toNat ≤ 90)) = true
  · simp at hb; omega
  · rw [if_neg hb] at h; subst h; exact hx

theorem toLower_big {b x : UInt8} (h : toLower b = toLower x) (hx : 128 ≤ x.toNat) : b = x := by
  have h1 : toLower x = x := by unfold toLower; rw [if_neg]; simp; omega
  rw [h1] at h
  unfold toLower at h
  by_cases hb : (decide (65 ≤ b.toNat) && decide (b.toNat ≤ 90)) = true
  · rw [if_pos hb] at h
    simp at hb
    subst h
    rw [UInt8.toNat_add] at hx
    have : (32 : UInt8).toNat = 32 := rfl
    omega
  · rw [if_neg hb] at h; exact h

theorem toLower_ascii_eq {b x : UInt8} (h : toLower b = toLower x) (hx : x.toNat < 128) : b.toNat < 128 := by
  by_contra hb
  have := toLower_big h.symm (by omega)
  subst this; omega

theorem eqIgnoreCase_length {a b : Bytes} (h : eqIgnoreCase a b = true) : a.length = b.length := by
  simp only [eqIgnoreCase, decide_eq_true_eq] at h
  simpa using congrArg List.length h

theorem eqIgnoreCase_ascii {a b : Bytes} (h : eqIgnoreCase a b = true) (hb : ∀ x ∈ b, x.toNat < 128) :
    ∀ x ∈ a, x.toNat < 128 := by
  simp only [eqIgnoreCase, decide_eq_true_eq] at h
  induction a generalizing b with
  | nil => simp
  | cons x a ih =>
    cases b with
    | nil => simp at h
    | cons y b =>
      simp at h
      intro z hz
      rcases List.mem_cons.mp hz with rfl | hz
      · exact toLower_ascii_eq h.1 (hb y (by simp))
      · exact ih (fun w hw => hb w (by simp [hw])) h.2 z hz

/-- A string which agrees with a valid one up to the case of ASCII letters is valid. -/
theorem utf8Valid_ignoreCase {a b : Bytes} (h : eqIgnoreCase a b = true) (hb : utf8Valid b = true) :
    utf8Valid a = true := by
  simp only [eqIgnoreCase, decide_eq_true_eq] at h
  induction hn : b.length using Nat.strongRecOn generalizing a b with
  | ind n ih =>
    by_cases h0 : b = []
    · subst h0; simp at h; subst h; rfl
    · obtain ⟨ch, r, rfl, hc, hr⟩ := utf8Valid_uncons h0 hb
      rw [List.map_append, List.map_eq_append_iff] at h
      obtain ⟨a1, a2, rfl, h1, h2⟩ := h
      have hpos := List.length_pos_iff.mpr hc.ne_nil
      have hv := ih r.length (by simp at hn; omega) hr h2 rfl
      cases hc with
      | one x hx =>
        have : ∀ z ∈ a1, z.toNat < 128 :=
          eqIgnoreCase_ascii (b := [x]) (by simpa [eqIgnoreCase] using h1) (by simpa using hx)
        exact utf8Valid_append (utf8Valid_ascii this) hv
      | two x y hx =>
        have hl := utf8Two_lead hx
        have hy : 128 ≤ y.toNat := by have := hl.2.2; simp [isCont] at this; omega
        have : a1 = [x, y] := by
          rcases a1 with _ | ⟨u, _ | ⟨v, _ | ⟨w, a1⟩⟩⟩ <;> simp at h1
          rw [toLower_big h1.1 (by omega), toLower_big h1.2 hy]
        subst this
        rw [utf8Valid_char (.two x y hx)]; exact hv
      | three x y z hx =>
        have hl := utf8Three_lead hx
        have hy : 128 ≤ y.toNat := by have := hl.2.2.1; simp [isCont] at this; omega
        have hz : 128 ≤ z.toNat := by have := hl.2.2.2; simp [isCont] at this; omega
        have : a1 = [x, y, z] := by
          rcases a1 with _ | ⟨u, _ | ⟨v, _ | ⟨w, _ | ⟨t, a1⟩⟩⟩⟩ <;> simp at h1
          rw [toLower_big h1.1 (by omega), toLower_big h1.2.1 hy, toLower_big h1.2.2 hz]
        subst this
        rw [utf8Valid_char (.three x y z hx)]; exact hv
      | four x y z q hx =>
        have hl := utf8Four_lead hx
        have hy : 128 ≤ y.toNat := by have := hl.2.1; simp [isCont] at this; omega
        have hz : 128 ≤ z.toNat := by have := hl.2.2.1; simp [isCont] at this; omega
        have hq : 128 ≤ q.toNat := by have := hl.2.2.2; simp [isCont] at this; omega
        have : a1 = [x, y, z, q] := by
          rcases a1 with _ | ⟨u, _ | ⟨v, _ | ⟨w, _ | ⟨t, _ | ⟨s, a1⟩⟩⟩⟩⟩ <;> simp at h1
          rw [toLower_big h1.1 (by omega), toLower_big h1.2.1 hy, toLower_big h1.2.2.1 hz,
            toLower_big h1.2.2.2 hq]
        subst this
        rw [utf8Valid_char (.four x y z q hx)]; exact hv

/-- `delimiter` matches ASCII bytes only -/
def AsciiOnly (d : Delimiter) : Prop := ∀ b, d b = true → b.toNat < 128

/-- the string begins with `word`, up to the case of ASCII letters -/
def startsWith (l word : Bytes) : Bool := decide (word.length ≤ l.length) && eqIgnoreCase (l.take word.length) word

namespace Cursor

theorem nextIs_eq (c : Cursor) (word : Bytes) (hp : c.pos ≤ c.input.length) :
    c.nextIs word = startsWith c.rest word := by
  unfold nextIs startsWith
  rw [peek_eq c _ hp]
  by_cases h : word.length ≤ c.rest.length
  · rw [if_pos h]; simp [h]
  · rw [if_neg h]; simp [h]

theorem getRemainder_eq (c : Cursor) (hp : c.pos ≤ c.input.length) : c.getRemainder = .ok c.rest := by
  unfold getRemainder
  have := sliceR_rest c c.rest.length hp (Nat.le_refl _)
  rw [List.take_length] at this
  rw [← this, rest_length]
  congr 1; omega

theorem assertDelimiter_ok (d : Delimiter) (c : Cursor) (b : UInt8) (hb : c.cur = some b) (hd : d b = true) :
    assertDelimiter d c = .ok () := by
  unfold assertDelimiter; rw [hb]; simp [hd]

theorem rest_cons {c : Cursor} {b : UInt8} (h : c.cur = some b) : c.rest = b :: (c.advanceBy 1).rest := by
  rw [cur_eq] at h
  rw [rest_advanceBy]
  cases hr : c.rest with
  | nil => rw [hr] at h; cases h
  | cons x r => rw [hr] at h; cases h; rfl

theorem pos_lt_of_cur {c : Cursor} {b : UInt8} (h : c.cur = some b) : c.pos < c.input.length := by
  unfold cur at h
  exact (List.getElem?_eq_some_iff.mp h).1

theorem cur_none_iff (c : Cursor) : c.cur = none ↔ c.rest = [] := by
  rw [cur_eq]; simp

/-- the delimiters in front -/
def delims (d : Delimiter) (c : Cursor) : Bytes := c.rest.takeWhile d

theorem delims_length (d : Delimiter) (c : Cursor) : (c.delims d).length ≤ c.rest.length := takeWhile_length_le _ _
theorem delims_take (d : Delimiter) (c : Cursor) : c.rest.take (c.delims d).length = c.delims d := takeWhile_take _ _

theorem tryConsumeDelimiter_eq (d : Delimiter) (c : Cursor) (b : UInt8) (hb : c.cur = some b) (hd : d b = true)
    (hp : c.pos ≠ 0) :
    c.tryConsumeDelimiter d =
      if (c.advanceBy (c.delims d).length).rest = [] then fail (.syntax c.pos .delimiterAtEnd)
      else .ok (c.advanceBy (c.delims d).length) := by
  unfold tryConsumeDelimiter
  rw [assertDelimiter_ok d c b hb hd, ok_bind, if_neg hp, skipTo_eq]
  · rw [ok_bind]
    have hr := rest_cons hb
    have he : c.advance.advanceBy (List.takeWhile (fun b => !!d b) c.advance.rest).length
        = c.advanceBy (c.delims d).length := by
      rw [advance_eq, advanceBy_advanceBy]
      congr 1
      conv_rhs => rw [delims, hr, List.takeWhile_cons, if_pos hd]
      simp [Nat.add_comm]
    simp only [he]
    cases hc : (c.advanceBy (c.delims d).length).cur with
    | none => rw [if_pos ((cur_none_iff _).mp hc)]
    | some x => rw [if_neg (fun h => by rw [(cur_none_iff _).mpr h] at hc; cases hc)]; rfl
  · rw [rest_length]; simp [advance]

end Cursor

/-! ## Exponents -/

/-- one more digit: the value of the digits read so far fits `i16`, or it never will -/
theorem exponentStep_eq (neg : Bool) (N : Nat) (b : UInt8) (hb : IsDigit b)
    (hN : IsI16 (if neg then -(N : Int) else N)) :
    exponentStep neg (if neg then -(N : Int) else N) b =
      checkedI16 (if neg then -((10 * N + (b.toNat - 48) : Nat) : Int) else ((10 * N + (b.toNat - 48) : Nat) : Int)) := by
  unfold IsDigit at hb
  obtain ⟨hb1, hb2⟩ := hb
  unfold exponentStep checkedI16
  rw [isI16_iff] at hN
  cases neg with
  | true =>
    simp only [if_true] at *
    by_cases h : IsI16 (-(N : Int) * 10)
    · rw [if_pos h]
      simp only [Option.bind_some]
      have e : -(N : Int) * 10 - ((b.toNat : Int) - 48) = -((10 * N + (b.toNat - 48) : Nat) : Int) := by
        push_cast [hb1]; ring
      rw [e]
    · rw [if_neg h, if_neg]
      · rfl
      · rw [isI16_iff] at *; push_cast [hb1]; omega
  | false =>
    simp only [Bool.false_eq_true, if_false] at *
    by_cases h : IsI16 ((N : Int) * 10)
    · rw [if_pos h]
      simp only [Option.bind_some]
      have e : (N : Int) * 10 + ((b.toNat : Int) - 48) = ((10 * N + (b.toNat - 48) : Nat) : Int) := by
        push_cast [hb1]; ring
      rw [e]
    · rw [if_neg h, if_neg]
      · rfl
      · rw [isI16_iff] at *; push_cast [hb1]; omega

/-- the exponent a string of digits denotes -/
def signed (neg : Bool) (N : Nat) : Int := if neg then -(N : Int) else N

theorem signed_mono {neg : Bool} {M N : Nat} (h : M ≤ N) (hN : IsI16 (signed neg N)) : IsI16 (signed neg M) := by
  unfold signed at *
  rw [isI16_iff] at *
  cases neg <;> simp at * <;> omega

theorem exponentLoop_eq (neg : Bool) (fuel N : Nat) (c : Cursor) (hf : c.rest.length ≤ fuel)
    (hN : IsI16 (signed neg N)) :
    exponentLoop neg fuel (signed neg N) c =
      if IsI16 (signed neg (N * 10 ^ c.digits.length + decimal c.digits)) then
        .ok (signed neg (N * 10 ^ c.digits.length + decimal c.digits), c.advanceBy c.digits.length)
      else fail (if neg then .negativeExponentOverflow else .positiveExponentOverflow) := by
  induction fuel generalizing c N with
  | zero =>
    have : c.rest = [] := List.eq_nil_of_length_eq_zero (by omega)
    unfold exponentLoop Cursor.digits
    simp only [Cursor.cur_eq, this, List.head?_nil, List.takeWhile_nil, decimal, List.length_nil, pow_zero,
      mul_one, add_zero, if_pos hN]
    rfl
  | succ fuel ih =>
    cases hr : c.rest with
    | nil =>
      unfold exponentLoop Cursor.digits
      simp only [Cursor.cur_eq, hr, List.head?_nil, List.takeWhile_nil, decimal, List.length_nil, pow_zero,
        mul_one, add_zero, if_pos hN]
      rfl
    | cons b r =>
      have hcur : c.cur = some b := by rw [Cursor.cur_eq, hr]; rfl
      by_cases hd : isDigit b = true
      · have hadv : c.advance.rest = r := by rw [Cursor.rest_advance, hr]; rfl
        have hdg : c.digits = b :: c.advance.digits := by
          rw [Cursor.digits, hr, List.takeWhile_cons, if_pos hd, Cursor.digits, hadv]
        have hD := (isDigit_iff b).mp hd
        have hstep := exponentStep_eq neg N b hD hN
        conv_lhs => unfold exponentLoop
        rw [hcur]
        simp only [if_pos hd]
        change exponentStep neg (signed neg N) b = checkedI16 (signed neg (10 * N + (b.toNat - 48))) at hstep
        rw [hstep]
        have hval : N * 10 ^ c.digits.length + decimal c.digits
            = (10 * N + (b.toNat - 48)) * 10 ^ c.advance.digits.length + decimal c.advance.digits := by
          rw [hdg, List.length_cons, decimal]; ring
        unfold checkedI16
        by_cases h : IsI16 (signed neg (10 * N + (b.toNat - 48)))
        · rw [if_pos h]
          simp only
          rw [ih _ c.advance (by rw [hadv]; rw [hr] at hf; simp at hf; omega) h, hval,
            Cursor.advance_eq, Cursor.advanceBy_advanceBy]
          rw [← Cursor.advance_eq, hdg, List.length_cons, Nat.add_comm 1]
        · rw [if_neg h]
          rw [if_neg (c := IsI16 (signed neg (N * 10 ^ c.digits.length + decimal c.digits)))]
          intro hh
          apply h
          refine signed_mono ?_ hh
          rw [hval]
          calc 10 * N + (b.toNat - 48) ≤ (10 * N + (b.toNat - 48)) * 10 ^ c.advance.digits.length :=
                Nat.le_mul_of_pos_right _ (by positivity)
            _ ≤ _ := Nat.le_add_right _ _
      · have hdg : c.digits = [] := by rw [Cursor.digits, hr, List.takeWhile_cons, if_neg hd]
        unfold exponentLoop
        rw [hcur]
        simp only [if_neg hd, hdg, decimal, List.length_nil, pow_zero,
          mul_one, add_zero, if_pos hN]
        rfl

end Fundu
