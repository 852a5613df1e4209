import Verif.Model.Config
/-! # UTF-8: validity of parts of a valid byte string -/
namespace Fundu

/-- the bytes of one character -/
inductive IsUtf8Char : Bytes → Prop
  | one (a : UInt8) : a.toNat < 128 → IsUtf8Char [a]
  | two (a b : UInt8) : utf8Two a b = true → IsUtf8Char [a, b]
  | three (a b c : UInt8) : utf8Three a b c = true → IsUtf8Char [a, b, c]
  | four (a b c d : UInt8) : utf8Four a b c d = true → IsUtf8Char [a, b, c, d]

theorem utf8Two_lead {a b : UInt8} (h : utf8Two a b = true) : 194 ≤ a.toNat ∧ a.toNat < 224 ∧ isCont b := by
  simp only [utf8Two, Bool.and_eq_true, decide_eq_true_eq] at h
  exact ⟨h.1.1, h.1.2, h.2⟩

theorem utf8Three_lead {a b c : UInt8} (h : utf8Three a b c = true) :
    224 ≤ a.toNat ∧ a.toNat < 240 ∧ isCont b ∧ isCont c := by
  simp only [utf8Three, Bool.and_eq_true, decide_eq_true_eq] at h
  exact ⟨h.1.1.1.1.1, h.1.1.1.1.2, h.1.1.1.2, h.1.1.2⟩

theorem utf8Four_lead {a b c d : UInt8} (h : utf8Four a b c d = true) :
    240 ≤ a.toNat ∧ isCont b ∧ isCont c ∧ isCont d := by
  simp only [utf8Four, Bool.and_eq_true, decide_eq_true_eq] at h
  exact ⟨h.1.1.1.1.1.1, h.1.1.1.1.2, h.1.1.1.2, h.1.1.2⟩

theorem utf8Valid_char {ch : Bytes} (h : IsUtf8Char ch) (r : Bytes) :
    utf8Valid (ch ++ r) = utf8Valid r := by
  cases h with
  | one a h => simp only [List.cons_append, List.nil_append]; rw [utf8Valid.eq_def]; simp [h]
  | two a b h =>
    have := utf8Two_lead h
    have h1 : ¬ a.toNat < 128 := by omega
    simp only [List.cons_append, List.nil_append]; rw [utf8Valid.eq_def]; simp [h1, h]
  | three a b c h =>
    have := utf8Three_lead h
    have h1 : ¬ a.toNat < 128 := by omega
    have h2 : utf8Two a b = false := by
      simp only [utf8Two]; simp; omega
    simp only [List.cons_append, List.nil_append]; rw [utf8Valid.eq_def]; simp [h1, h2, h]
  | four a b c d h =>
    have := utf8Four_lead h
    have h1 : ¬ a.toNat < 128 := by omega
    have h2 : utf8Two a b = false := by
      simp only [utf8Two]; simp; omega
    have h3 : utf8Three a b c = false := by
      simp only [utf8Three]; simp; omega
    simp only [List.cons_append, List.nil_append]; rw [utf8Valid.eq_def]; simp [h1, h2, h3, h]

theorem utf8Valid_uncons {l : Bytes} (hl : l ≠ []) (h : utf8Valid l = true) :
    ∃ ch r, l = ch ++ r ∧ IsUtf8Char ch ∧ utf8Valid r = true := by
  cases l with
  | nil => exact absurd rfl hl
  | cons a l =>
    by_cases h1 : a.toNat < 128
    · exact ⟨[a], l, rfl, .one a h1, by rw [utf8Valid.eq_def] at h; simpa [h1] using h⟩
    · cases l with
      | nil => simp [utf8Valid, h1] at h
      | cons b l =>
        by_cases h2 : utf8Two a b = true
        · exact ⟨[a, b], l, rfl, .two a b h2, by rw [utf8Valid.eq_def] at h; simpa [h1, h2] using h⟩
        · cases l with
          | nil => simp [utf8Valid, h1, h2] at h
          | cons c l =>
            by_cases h3 : utf8Three a b c = true
            · exact ⟨[a, b, c], l, rfl, .three a b c h3, by rw [utf8Valid.eq_def] at h; simpa [h1, h2, h3] using h⟩
            · cases l with
              | nil => simp [utf8Valid, h1, h2, h3] at h
              | cons d l =>
                have h4 : utf8Four a b c d = true ∧ utf8Valid l = true := by
                  rw [utf8Valid.eq_def] at h; simpa [h1, h2, h3] using h
                exact ⟨[a, b, c, d], l, rfl, .four a b c d h4.1, h4.2⟩

theorem IsUtf8Char.ne_nil {ch : Bytes} (h : IsUtf8Char ch) : ch ≠ [] := by
  cases h <;> simp

/-- Every byte of a character but the first is a continuation byte. -/
theorem IsUtf8Char.tail {a b : Bytes} {x : UInt8} (h : IsUtf8Char (a ++ x :: b)) (ha : a ≠ []) :
    isCont x = true := by
  generalize hc : a ++ x :: b = ch at h
  cases h with
  | one u h =>
    have := congrArg List.length hc
    cases a with
    | nil => exact absurd rfl ha
    | cons y a => simp at this
  | two u v h =>
    have := utf8Two_lead h
    cases a with
    | nil => exact absurd rfl ha
    | cons y a =>
      rcases a with _ | ⟨y2, a⟩
      · simp at hc; simp_all
      · simp at hc
  | three u v w h =>
    have := utf8Three_lead h
    cases a with
    | nil => exact absurd rfl ha
    | cons y a =>
      rcases a with _ | ⟨y2, _ | ⟨y3, a⟩⟩ <;> simp at hc <;> simp_all
  | four u v w z h =>
    have := utf8Four_lead h
    cases a with
    | nil => exact absurd rfl ha
    | cons y a =>
      rcases a with _ | ⟨y2, _ | ⟨y3, _ | ⟨y4, a⟩⟩⟩ <;> simp at hc <;> simp_all

/-- What follows a valid part of a valid byte string is valid. -/
theorem utf8Valid_right {a b : Bytes} (h : utf8Valid (a ++ b) = true) (ha : utf8Valid a = true) :
    utf8Valid b = true := by
  induction hn : a.length using Nat.strongRecOn generalizing a with
  | ind n ih =>
    by_cases h0 : a = []
    · subst h0; exact h
    · obtain ⟨ch, r, rfl, hc, hr⟩ := utf8Valid_uncons h0 ha
      rw [List.append_assoc, utf8Valid_char hc] at h
      have := List.length_pos_iff.mpr hc.ne_nil
      exact ih r.length (by simp at hn; omega) h hr rfl

theorem utf8Valid_append {a b : Bytes} (ha : utf8Valid a = true) (hb : utf8Valid b = true) :
    utf8Valid (a ++ b) = true := by
  induction hn : a.length using Nat.strongRecOn generalizing a with
  | ind n ih =>
    by_cases h0 : a = []
    · subst h0; exact hb
    · obtain ⟨ch, r, rfl, hc, hr⟩ := utf8Valid_uncons h0 ha
      rw [List.append_assoc, utf8Valid_char hc]
      have := List.length_pos_iff.mpr hc.ne_nil
      exact ih r.length (by simp at hn; omega) hr rfl

/-- A prefix of a valid byte string which is not followed by a continuation byte is valid. -/
theorem utf8Valid_left {a b : Bytes} (h : utf8Valid (a ++ b) = true)
    (hb : ∀ x, b.head? = some x → isCont x = false) : utf8Valid a = true := by
  induction hn : a.length using Nat.strongRecOn generalizing a with
  | ind n ih =>
    by_cases h0 : a = []
    · subst h0; rfl
    · obtain ⟨ch, r, he, hc, hr⟩ := utf8Valid_uncons (by simp [h0]) h
      rcases List.append_eq_append_iff.mp he with ⟨t, rfl, ht⟩ | ⟨t, rfl, ht⟩
      · cases t with
        | nil =>
          simp at hc
          have := utf8Valid_char hc []
          simpa [utf8Valid] using this
        | cons x t =>
          have hx := hc.tail h0
          rw [ht] at hb
          simp at hb
          rw [hb] at hx
          simp at hx
      · subst ht
        rw [utf8Valid_char hc]
        have := List.length_pos_iff.mpr hc.ne_nil
        exact ih t.length (by simp at hn; omega) hr rfl

/-- A byte string of ASCII bytes is valid. -/
theorem utf8Valid_ascii {a : Bytes} (h : ∀ x ∈ a, x.toNat < 128) : utf8Valid a = true := by
  induction a with
  | nil => rfl
  | cons x a ih =>
    have : utf8Valid ([x] ++ a) = utf8Valid a := utf8Valid_char (.one x (h x (by simp))) a
    rw [List.singleton_append] at this
    rw [this]
    exact ih (fun y hy => h y (by simp [hy]))

theorem isCont_of_ascii {x : UInt8} (h : x.toNat < 128) : isCont x = false := by
  simp [isCont]; omega

end Fundu
