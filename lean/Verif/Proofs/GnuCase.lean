import Verif.Proofs.GnuLoop
/-! # The case of letters does not matter -/
namespace Fundu.Gnu
open Fundu Fundu.Spec Fundu.Props

/-- a property of bytes which does not depend on case -/
def CaseFree (p : UInt8 → Prop) : Prop := ∀ b c, lower b = lower c → (p b ↔ p c)

theorem caseFree_of {p : UInt8 → Prop} [DecidablePred p] (h : ∀ n < 256, (p (UInt8.ofNat n) ↔ p (lower (UInt8.ofNat n)))) :
    CaseFree p := by
  have key : ∀ b, p b ↔ p (lower b) := by
    intro b
    have := h b.toNat b.toNat_lt
    rwa [UInt8.ofNat_toNat] at this
  intro b c hbc
  rw [key b, key c, hbc]

theorem caseFree_not {p : UInt8 → Prop} (h : CaseFree p) : CaseFree (¬ p ·) := fun b c hbc => not_congr (h b c hbc)

theorem caseFree_space : CaseFree PosixSpace := caseFree_of (by decide +kernel)
theorem caseFree_digit : CaseFree IsDigit := caseFree_of (by decide +kernel)
theorem caseFree_end : CaseFree GnuEnd := caseFree_of (by decide +kernel)
theorem caseFree_sign : CaseFree (fun b => b = 43 ∨ b = 45) := caseFree_of (by decide +kernel)
theorem caseFree_number : CaseFree (fun b => b = 46 ∨ b = 101 ∨ b = 69) := caseFree_of (by decide +kernel)
theorem caseFree_exponent : CaseFree (fun b => b = 101 ∨ b = 69) := caseFree_of (by decide +kernel)

theorem same_symm {s t : Bytes} (h : SameText s t) : SameText t s := Eq.symm h
theorem same_trans {s t u : Bytes} (h : SameText s t) (h' : SameText t u) : SameText s u := Eq.trans h h'

theorem same_nil {s : Bytes} (h : SameText [] s) : s = [] := by
  unfold SameText at h
  simpa using h.symm

theorem same_ne {s t : Bytes} (h : SameText s t) (hs : s ≠ []) : t ≠ [] := by
  rintro rfl
  exact hs (same_nil (same_symm h))

theorem same_cons {b : UInt8} {s t : Bytes} (h : SameText (b :: s) t) : ∃ c t', t = c :: t' ∧ lower b = lower c ∧ SameText s t' := by
  cases t with
  | nil => exact absurd (same_nil (same_symm h)) (by simp)
  | cons c t =>
    unfold SameText at h
    simp only [List.map_cons, List.cons.injEq] at h
    exact ⟨c, t, rfl, h.1, h.2⟩

theorem same_append {s t u : Bytes} (h : SameText (s ++ t) u) : ∃ s' t', u = s' ++ t' ∧ SameText s s' ∧ SameText t t' := by
  induction s generalizing u with
  | nil => exact ⟨[], u, rfl, rfl, h⟩
  | cons b s ih =>
    obtain ⟨c, u', rfl, h1, h2⟩ := same_cons h
    obtain ⟨s', t', rfl, h3, h4⟩ := ih h2
    refine ⟨c :: s', t', rfl, ?_, h4⟩
    unfold SameText at *
    simp only [List.map_cons, h1, h3]

theorem same_mem {s t : Bytes} (h : SameText s t) {p : UInt8 → Prop} (hp : CaseFree p) (hs : ∀ b ∈ s, p b) : ∀ b ∈ t, p b := by
  induction s generalizing t with
  | nil => rw [same_nil h]; simp
  | cons b s ih =>
    obtain ⟨c, t', rfl, h1, h2⟩ := same_cons h
    intro x hx
    rcases List.mem_cons.1 hx with rfl | hx
    · exact (hp _ _ h1).1 (hs b (by simp))
    · exact ih h2 (fun y hy => hs y (by simp [hy])) x hx

theorem same_starts {s t : Bytes} (h : SameText s t) {p : UInt8 → Prop} (hp : CaseFree p) : StartsWith p s → StartsWith p t := by
  rintro ⟨b, l, rfl, hb⟩
  obtain ⟨c, t', rfl, h1, h2⟩ := same_cons h
  exact ⟨c, t', rfl, (hp _ _ h1).1 hb⟩

theorem same_split {s s' w r : Bytes} {p : UInt8 → Prop} (hp : CaseFree p) (h : Split p s w r) (hs : SameText s s') :
    ∃ w' r', Split p s' w' r' ∧ SameText w w' ∧ SameText r r' := by
  obtain ⟨rfl, h2, h3⟩ := h
  obtain ⟨w', r', rfl, g1, g2⟩ := same_append hs
  exact ⟨w', r', ⟨rfl, same_mem g1 hp h2, fun hh => h3 (same_starts (same_symm g2) hp hh)⟩, g1, g2⟩

theorem same_word {table : List (List Bytes × GnuLength)} {w w' : Bytes} {len : GnuLength} (h : GnuWord table w len)
    (hw : SameText w w') : GnuWord table w' len := by
  obtain ⟨names, h1, n, h2, h3⟩ := h
  exact ⟨names, h1, n, h2, same_trans (same_symm hw) h3⟩

theorem same_wordAt {table : List (List Bytes × GnuLength)} {s s' r : Bytes} {len : GnuLength} (h : GnuWordAt table s len r)
    (hs : SameText s s') : ∃ r', GnuWordAt table s' len r' ∧ SameText r r' := by
  obtain ⟨w, h1, h2⟩ := h
  obtain ⟨w', r', g1, g2, g3⟩ := same_split (caseFree_not caseFree_end) h1 hs
  exact ⟨r', ⟨w', g1, same_word h2 g2⟩, g3⟩

theorem same_spaces {s s' r : Bytes} (h : Spaces s r) (hs : SameText s s') : ∃ r', Spaces s' r' ∧ SameText r r' := by
  obtain ⟨sp, h⟩ := h
  obtain ⟨w', r', g1, g2, g3⟩ := same_split caseFree_space h hs
  exact ⟨r', ⟨w', g1⟩, g3⟩

theorem same_gap {s s' r : Bytes} (h : GnuGap s r) (hs : SameText s s') : ∃ r', GnuGap s' r' ∧ SameText r r' := by
  obtain ⟨r', g1, g2⟩ := same_spaces h.1 hs
  refine ⟨r', ⟨g1, ?_⟩, g2⟩
  rintro rfl
  have := h.2 (same_nil (same_symm g2))
  subst this
  exact same_nil hs

theorem same_ago {s s' r : Bytes} (h : AgoAt s r) (hs : SameText s s') : ∃ r', AgoAt s' r' ∧ SameText r r' := by
  obtain ⟨sp, t, h1, h2, ⟨x, rfl, h3⟩, h4⟩ := h
  obtain ⟨w', r', g1, g2, g3⟩ := same_split caseFree_space h1 hs
  obtain ⟨x', r'', rfl, k1, k2⟩ := same_append g3
  refine ⟨r'', ⟨w', _, g1, same_ne g2 h2, ⟨x', rfl, same_trans (same_symm k1) h3⟩, ?_⟩, k2⟩
  rcases h4 with rfl | h4
  · exact Or.inl (same_nil k2)
  · exact Or.inr (same_starts k2 caseFree_end h4)

theorem same_unitAt {s s' r : Bytes} {len : GnuLength} {ago : Bool} (h : GnuUnitAt s len ago r) (hs : SameText s s') :
    ∃ r', GnuUnitAt s' len ago r' ∧ SameText r r' := by
  obtain ⟨t, t', h1, h2, h3⟩ := h
  obtain ⟨a, g1, g2⟩ := same_wordAt h1 hs
  cases h2 with
  | absent hn =>
    obtain ⟨r', k1, k2⟩ := same_gap h3 g2
    refine ⟨r', ⟨a, a, g1, .absent ?_, k1⟩, k2⟩
    rintro ⟨x, hx⟩
    obtain ⟨y, hy, -⟩ := same_ago hx (same_symm g2)
    exact hn ⟨y, hy⟩
  | present hp =>
    obtain ⟨c, q1, q2⟩ := same_ago hp g2
    obtain ⟨r', k1, k2⟩ := same_gap h3 q2
    exact ⟨r', ⟨a, c, g1, .present q1, k1⟩, k2⟩

theorem digits_same {W W' : Bytes} (h : ∀ b ∈ W, IsDigit b) (hs : SameText W W') : W' = W := by
  have key : ∀ n < 256, ∀ m < 256, IsDigit (UInt8.ofNat n) → lower (UInt8.ofNat n) = lower (UInt8.ofNat m) → m = n := by decide +kernel
  induction W generalizing W' with
  | nil => exact same_nil hs
  | cons b W ih =>
    obtain ⟨c, t, rfl, h1, h2⟩ := same_cons hs
    rw [ih (fun x hx => h x (by simp [hx])) h2]
    have := key b.toNat b.toNat_lt c.toNat c.toNat_lt
    rw [UInt8.ofNat_toNat, UInt8.ofNat_toNat] at this
    have := this (h b (by simp)) h1
    rw [UInt8.toNat_inj.1 this]

theorem same_digits {s s' W r : Bytes} (h : GnuDigits s W r) (hs : SameText s s') : ∃ r', GnuDigits s' W r' ∧ SameText r r' := by
  obtain ⟨h1, h2, h3⟩ := h
  obtain ⟨w', r', g1, g2, g3⟩ := same_split caseFree_digit h1 hs
  obtain rfl := digits_same h1.2.1 g2
  exact ⟨r', ⟨g1, h2, fun hh => h3 (same_starts (same_symm g3) caseFree_number hh)⟩, g3⟩

theorem same_decimal {s s' W F r : Bytes} (h : GnuDecimal s W F r) (hs : SameText s s') :
    ∃ r', GnuDecimal s' W F r' ∧ SameText r r' := by
  obtain ⟨t, h1, h2, h3, h4, h5⟩ := h
  obtain ⟨w', t', g1, g2, g3⟩ := same_split caseFree_digit h1 hs
  obtain rfl := digits_same h1.2.1 g2
  obtain ⟨c, t'', rfl, k1, k2⟩ := same_cons g3
  have : c = 46 := by
    have key : ∀ n < 256, lower 46 = lower (UInt8.ofNat n) → n = 46 := by decide +kernel
    have := key c.toNat c.toNat_lt
    rw [UInt8.ofNat_toNat] at this
    exact UInt8.toNat_inj.1 (this k1)
  subst this
  obtain ⟨f', r', q1, q2, q3⟩ := same_split caseFree_digit h3 k2
  obtain rfl := digits_same h3.2.1 q2
  exact ⟨r', ⟨t'', g1, h2, q1, h4, fun hh => h5 (same_starts (same_symm q3) caseFree_exponent hh)⟩, q3⟩

theorem same_noUnit {s s' r : Bytes} (h : NoUnit s r) (hs : SameText s s') : ∃ r', NoUnit s' r' ∧ SameText r r' := by
  obtain ⟨_, h1, h2, h3, rfl⟩ := h
  obtain ⟨r', g1, g2⟩ := same_gap ⟨h1, h2⟩ hs
  refine ⟨r', ⟨r', g1.1, g1.2, ?_, rfl⟩, g2⟩
  rintro ⟨len, t, ht⟩
  obtain ⟨t', ht', -⟩ := same_wordAt ht (same_symm g2)
  exact h3 ⟨len, t', ht'⟩

theorem same_text {neg : Bool} {s s' r : Bytes} {part : GnuPart} (h : GnuText neg s part r) (hs : SameText s s') :
    ∃ r', GnuText neg s' part r' ∧ SameText r r' := by
  cases h with
  | numberUnit h1 h2 h3 =>
    obtain ⟨a, g1, g2⟩ := same_digits h1 hs
    obtain ⟨b, k1, k2⟩ := same_spaces h2 g2
    obtain ⟨c, q1, q2⟩ := same_unitAt h3 k2
    exact ⟨c, .numberUnit g1 k1 q1, q2⟩
  | number h1 h2 =>
    obtain ⟨a, g1, g2⟩ := same_digits h1 hs
    obtain ⟨b, k1, k2⟩ := same_noUnit h2 g2
    exact ⟨b, .number g1 k1, k2⟩
  | decimalUnit h1 h2 h3 =>
    obtain ⟨a, g1, g2⟩ := same_decimal h1 hs
    obtain ⟨b, k1, k2⟩ := same_spaces h2 g2
    obtain ⟨c, q1, q2⟩ := same_unitAt h3 k2
    exact ⟨c, .decimalUnit g1 k1 q1, q2⟩
  | decimal h1 h2 =>
    obtain ⟨a, g1, g2⟩ := same_decimal h1 hs
    obtain ⟨b, k1, k2⟩ := same_noUnit h2 g2
    exact ⟨b, .decimal g1 k1, k2⟩
  | keyword h1 h2 =>
    obtain ⟨a, g1, g2⟩ := same_wordAt h1 hs
    obtain ⟨b, k1, k2⟩ := same_gap h2 g2
    exact ⟨b, .keyword g1 k1, k2⟩
  | unit h1 =>
    obtain ⟨a, g1, g2⟩ := same_unitAt h1 hs
    exact ⟨a, .unit g1, g2⟩
  | numeral h1 h2 h3 h4 =>
    obtain ⟨w', a, g1, g2, g3⟩ := same_split (caseFree_not caseFree_space) h1 hs
    obtain ⟨b, k1, k2⟩ := same_spaces h3 g3
    obtain ⟨c, q1, q2⟩ := same_unitAt h4 k2
    obtain ⟨name, m1, m2⟩ := h2
    exact ⟨c, .numeral g1 ⟨name, m1, same_trans (same_symm g2) m2⟩ k1 q1, q2⟩

theorem same_sign {s s' r : Bytes} {neg : Bool} (h : GnuSign s neg r) (hs : SameText s s') :
    ∃ r', GnuSign s' neg r' ∧ SameText r r' := by
  have key : ∀ {c b : UInt8}, (c = 43 ∨ c = 45) → lower c = lower b → b = c := by
    have key : ∀ m < 256, (∀ c ∈ [(43 : UInt8), 45], lower c = lower (UInt8.ofNat m) → UInt8.ofNat m = c) := by decide +kernel
    intro c b hc hb
    have := key b.toNat b.toNat_lt c (by simpa using hc)
    rw [UInt8.ofNat_toNat] at this
    exact this hb
  cases h with
  | absent h => exact ⟨s', .absent fun hh => h (same_starts (same_symm hs) caseFree_sign hh), hs⟩
  | plus h =>
    obtain ⟨c, t, rfl, g1, g2⟩ := same_cons hs
    obtain rfl := key (Or.inl rfl) g1
    obtain ⟨r', k1, k2⟩ := same_spaces h g2
    exact ⟨r', .plus k1, k2⟩
  | minus h =>
    obtain ⟨c, t, rfl, g1, g2⟩ := same_cons hs
    obtain rfl := key (Or.inr rfl) g1
    obtain ⟨r', k1, k2⟩ := same_spaces h g2
    exact ⟨r', .minus k1, k2⟩

theorem same_relative {s s' : Bytes} {l : List GnuPart} (h : RelativeTime s l) (hs : SameText s s') : RelativeTime s' l := by
  induction h generalizing s' with
  | last h1 h2 =>
    obtain ⟨a, g1, g2⟩ := same_sign h1 hs
    obtain ⟨b, k1, k2⟩ := same_text h2 g2
    obtain rfl := same_nil k2
    exact .last g1 k1
  | more h1 h2 h3 ih =>
    obtain ⟨a, g1, g2⟩ := same_sign h1 hs
    obtain ⟨b, k1, k2⟩ := same_text h2 g2
    exact .more g1 k1 (ih k2)

theorem same_trimmed {s s' t : Bytes} (h : Trimmed s t) (hs : SameText s s') : ∃ t', Trimmed s' t' ∧ SameText t t' := by
  obtain ⟨pre, post, rfl, h1, h2, h3, h4⟩ := h
  obtain ⟨pre', x, rfl, g1, g2⟩ := same_append hs
  obtain ⟨t', post', rfl, k1, k2⟩ := same_append g2
  refine ⟨t', ⟨pre', post', rfl, same_mem g1 caseFree_space h1, same_mem k2 caseFree_space h2, ?_, ?_⟩, k1⟩
  · intro c hc
    have e : (t.map lower).head? = (t'.map lower).head? := by rw [show t.map lower = t'.map lower from k1]
    rw [List.head?_map, List.head?_map, hc] at e
    cases hb : t.head? with
    | none => rw [hb] at e; cases e
    | some b =>
      rw [hb] at e
      simp only [Option.map_some, Option.some.injEq] at e
      exact fun hh => h3 b hb ((caseFree_space _ _ e).2 hh)
  · intro c hc
    have e : (t.map lower).getLast? = (t'.map lower).getLast? := by rw [show t.map lower = t'.map lower from k1]
    rw [List.getLast?_map, List.getLast?_map, hc] at e
    cases hb : t.getLast? with
    | none => rw [hb] at e; cases e
    | some b =>
      rw [hb] at e
      simp only [Option.map_some, Option.some.injEq] at e
      exact fun hh => h4 b hb ((caseFree_space _ _ e).2 hh)

end Fundu.Gnu
