import Verif.Proofs.Utf8
import Verif.Spec.Text
/-! # `utf8Valid` is the predicate "is the UTF-8 encoding of a sequence of characters" -/
namespace Fundu
open Spec

theorem byte_toNat {n : Nat} (h : n < 256) : (UInt8.ofNat n).toNat = n := by
  simp [Nat.mod_eq_of_lt h]

theorem byte_eq {a : UInt8} {n : Nat} (h : a.toNat = n) : a = UInt8.ofNat n := by
  subst h; simp

theorem char_range (c : Char) : c.val.toNat < 0xd800 ∨ (0xdfff < c.val.toNat ∧ c.val.toNat < 0x110000) := c.valid

theorem isUtf8Char_encode (c : Char) : IsUtf8Char (String.utf8EncodeChar c) := by
  have hr := char_range c
  unfold String.utf8EncodeChar
  simp only
  generalize c.val.toNat = v at hr
  by_cases h1 : v ≤ 0x7f
  · rw [if_pos h1]
    exact .one _ (by rw [byte_toNat (by omega)]; omega)
  · rw [if_neg h1]
    by_cases h2 : v ≤ 0x7ff
    · rw [if_pos h2]
      refine .two _ _ ?_
      simp only [utf8Two, isCont, Bool.and_eq_true, decide_eq_true_eq]
      rw [byte_toNat (by omega), byte_toNat (by omega)]
      omega
    · rw [if_neg h2]
      by_cases h3 : v ≤ 0xffff
      · rw [if_pos h3]
        refine .three _ _ _ ?_
        simp only [utf8Three, isCont, Bool.and_eq_true, Bool.or_eq_true, decide_eq_true_eq]
        rw [byte_toNat (by omega), byte_toNat (by omega), byte_toNat (by omega)]
        omega
      · rw [if_neg h3]
        refine .four _ _ _ _ ?_
        simp only [utf8Four, isCont, Bool.and_eq_true, Bool.or_eq_true, decide_eq_true_eq]
        rw [byte_toNat (by omega), byte_toNat (by omega), byte_toNat (by omega), byte_toNat (by omega)]
        omega

theorem char_ofNat {v : Nat} (h : v < 0xd800 ∨ (0xdfff < v ∧ v < 0x110000)) : (Char.ofNat v).val.toNat = v := by
  have hv : v.isValidChar := h
  rw [Char.ofNat, dif_pos hv]
  simp [Char.ofNatAux]

theorem encode_of_isUtf8Char {ch : Bytes} (h : IsUtf8Char ch) : ∃ c : Char, ch = String.utf8EncodeChar c := by
  cases h with
  | one a h =>
    refine ⟨Char.ofNat a.toNat, ?_⟩
    unfold String.utf8EncodeChar
    simp only
    rw [char_ofNat (by omega), if_pos (by omega)]
    simp
  | two a b h =>
    simp only [utf8Two, isCont, Bool.and_eq_true, decide_eq_true_eq] at h
    refine ⟨Char.ofNat ((a.toNat - 192) * 64 + (b.toNat - 128)), ?_⟩
    unfold String.utf8EncodeChar
    simp only
    rw [char_ofNat (by omega), if_neg (by omega), if_pos (by omega)]
    rw [← byte_eq (a := a) (by omega), ← byte_eq (a := b) (by omega)]
  | three a b c h =>
    simp only [utf8Three, isCont, Bool.and_eq_true, Bool.or_eq_true, decide_eq_true_eq] at h
    refine ⟨Char.ofNat ((a.toNat - 224) * 4096 + (b.toNat - 128) * 64 + (c.toNat - 128)), ?_⟩
    unfold String.utf8EncodeChar
    simp only
    rw [char_ofNat (by omega), if_neg (by omega), if_neg (by omega), if_pos (by omega)]
    rw [← byte_eq (a := a) (by omega), ← byte_eq (a := b) (by omega), ← byte_eq (a := c) (by omega)]
  | four a b c d h =>
    simp only [utf8Four, isCont, Bool.and_eq_true, Bool.or_eq_true, decide_eq_true_eq] at h
    refine ⟨Char.ofNat ((a.toNat - 240) * 262144 + (b.toNat - 128) * 4096 + (c.toNat - 128) * 64 +
      (d.toNat - 128)), ?_⟩
    unfold String.utf8EncodeChar
    simp only
    rw [char_ofNat (by omega), if_neg (by omega), if_neg (by omega), if_neg (by omega)]
    rw [← byte_eq (a := a) (by omega), ← byte_eq (a := b) (by omega), ← byte_eq (a := c) (by omega),
      ← byte_eq (a := d) (by omega)]

theorem isText_iff (s : Bytes) : IsText s ↔ utf8Valid s = true := by
  constructor
  · rintro ⟨cs, rfl⟩
    induction cs with
    | nil => rfl
    | cons c cs ih =>
      rw [List.flatMap_cons, utf8Valid_char (isUtf8Char_encode c)]
      exact ih
  · intro h
    induction hn : s.length using Nat.strongRecOn generalizing s with
    | ind n ih =>
      by_cases hs : s = []
      · exact ⟨[], hs⟩
      · obtain ⟨ch, r, rfl, h1, h2⟩ := utf8Valid_uncons hs h
        obtain ⟨c, rfl⟩ := encode_of_isUtf8Char h1
        obtain ⟨cs, hcs⟩ := ih r.length (by
          rw [← hn, List.length_append]
          have : 0 < (String.utf8EncodeChar c).length :=
            List.length_pos_iff.mpr String.utf8EncodeChar_ne_nil
          omega) r h2 rfl
        exact ⟨c :: cs, by rw [List.flatMap_cons, ← hcs]⟩

end Fundu
