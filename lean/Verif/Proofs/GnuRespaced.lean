import Verif.Proofs.Respaced
import Verif.Proofs.GnuCase
/-! # gnu: texts which differ only in their gaps -/
namespace Fundu.Respaced
open Fundu Fundu.Spec Fundu.Props Fundu.Gnu

abbrev Same (s t : Bytes) : Prop := Respaced PosixSpace s t

theorem space_of {p : UInt8 → Prop} [DecidablePred p] (h : ∀ n < 256, PosixSpace (UInt8.ofNat n) → ¬ p (UInt8.ofNat n)) :
    ∀ b, PosixSpace b → ¬ p b := by
  intro b
  have := h b.toNat b.toNat_lt
  rwa [UInt8.ofNat_toNat] at this

theorem space_digit : ∀ b, PosixSpace b → ¬ IsDigit b := space_of (by decide +kernel)
theorem space_letter : ∀ b, PosixSpace b → ¬ IsLetter b := space_of (by decide +kernel)
theorem space_sign : ∀ b, PosixSpace b → ¬ (b = 43 ∨ b = 45) := space_of (by decide +kernel)
theorem space_number : ∀ b, PosixSpace b → ¬ (b = 46 ∨ b = 101 ∨ b = 69) := space_of (by decide +kernel)
theorem space_exponent : ∀ b, PosixSpace b → ¬ (b = 101 ∨ b = 69) := space_of (by decide +kernel)
theorem space_end : ∀ b, PosixSpace b → GnuEnd b := fun _ h => Or.inl h

theorem gnu_wordAt {table : List (List Bytes × GnuLength)} {s s' r : Bytes} {len : GnuLength} (h : GnuWordAt table s len r)
    (hs : Same s s') : ∃ r', GnuWordAt table s' len r' ∧ Same r r' := by
  obtain ⟨w, h1, h2⟩ := h
  obtain ⟨r', g1, g2⟩ := split_other (fun b hb g => g (space_end b hb)) h1 hs
  exact ⟨r', ⟨w, g1, h2⟩, g2⟩

theorem gnu_spaces {s s' r : Bytes} (h : Spaces s r) (hs : Same s s') : ∃ r', Spaces s' r' ∧ Same r r' := by
  obtain ⟨sp, h⟩ := h
  obtain ⟨sp', r', g1, g2, -⟩ := split_space h hs
  exact ⟨r', ⟨sp', g1⟩, g2⟩

theorem gnu_gap {s s' r : Bytes} (h : GnuGap s r) (hs : Same s s') : ∃ r', GnuGap s' r' ∧ Same r r' := by
  obtain ⟨r', g1, g2⟩ := gnu_spaces h.1 hs
  refine ⟨r', ⟨g1, ?_⟩, g2⟩
  rintro rfl
  have := h.2 (nil' g2)
  subst this
  exact nil hs

theorem gnu_ago {s s' r : Bytes} (h : AgoAt s r) (hs : Same s s') : ∃ r', AgoAt s' r' ∧ Same r r' := by
  obtain ⟨sp, t, h1, h2, ⟨x, rfl, h3⟩, h4⟩ := h
  obtain ⟨sp', t', g1, g2, g3⟩ := split_space h1 hs
  obtain ⟨r', rfl, k⟩ := append g2 fun b hb hd => space_letter b hd (sameText_letters h3 ago_letters b hb)
  refine ⟨r', ⟨sp', _, g1, fun g => h2 (g3.2 g), ⟨x, rfl, h3⟩, ?_⟩, k⟩
  rcases h4 with rfl | h4
  · exact Or.inl (nil k)
  · exact Or.inr (starts_more space_end k h4)

theorem gnu_unitAt {s s' r : Bytes} {len : GnuLength} {ago : Bool} (h : GnuUnitAt s len ago r) (hs : Same s s') :
    ∃ r', GnuUnitAt s' len ago r' ∧ Same r r' := by
  obtain ⟨t, t', h1, h2, h3⟩ := h
  obtain ⟨a, g1, g2⟩ := gnu_wordAt h1 hs
  cases h2 with
  | absent hn =>
    obtain ⟨r', k1, k2⟩ := gnu_gap h3 g2
    refine ⟨r', ⟨a, a, g1, .absent ?_, k1⟩, k2⟩
    rintro ⟨x, hx⟩
    obtain ⟨y, hy, -⟩ := gnu_ago hx (symm g2)
    exact hn ⟨y, hy⟩
  | present hp =>
    obtain ⟨c, q1, q2⟩ := gnu_ago hp g2
    obtain ⟨r', k1, k2⟩ := gnu_gap h3 q2
    exact ⟨r', ⟨a, c, g1, .present q1, k1⟩, k2⟩

theorem gnu_digits {s s' W r : Bytes} (h : GnuDigits s W r) (hs : Same s s') : ∃ r', GnuDigits s' W r' ∧ Same r r' := by
  obtain ⟨h1, h2, h3⟩ := h
  obtain ⟨r', g1, g2⟩ := split_other space_digit h1 hs
  exact ⟨r', ⟨g1, h2, fun hh => h3 (starts_other space_number (symm g2) hh)⟩, g2⟩

theorem gnu_decimal {s s' W F r : Bytes} (h : GnuDecimal s W F r) (hs : Same s s') : ∃ r', GnuDecimal s' W F r' ∧ Same r r' := by
  obtain ⟨t, h1, h2, h3, h4, h5⟩ := h
  obtain ⟨t', g1, g2⟩ := split_other space_digit h1 hs
  obtain ⟨t'', rfl, k2⟩ := cons g2 (by decide)
  obtain ⟨r', q1, q2⟩ := split_other space_digit h3 k2
  exact ⟨r', ⟨t'', g1, h2, q1, h4, fun hh => h5 (starts_other space_exponent (symm q2) hh)⟩, q2⟩

theorem gnu_noUnit {s s' r : Bytes} (h : NoUnit s r) (hs : Same s s') : ∃ r', NoUnit s' r' ∧ Same r r' := by
  obtain ⟨_, h1, h2, h3, rfl⟩ := h
  obtain ⟨r', g1, g2⟩ := gnu_gap ⟨h1, h2⟩ hs
  refine ⟨r', ⟨r', g1.1, g1.2, ?_, rfl⟩, g2⟩
  rintro ⟨len, t, ht⟩
  obtain ⟨t', ht', -⟩ := gnu_wordAt ht (symm g2)
  exact h3 ⟨len, t', ht'⟩

theorem gnu_text {neg : Bool} {s s' r : Bytes} {part : GnuPart} (h : GnuText neg s part r) (hs : Same s s') :
    ∃ r', GnuText neg s' part r' ∧ Same r r' := by
  cases h with
  | numberUnit h1 h2 h3 =>
    obtain ⟨a, g1, g2⟩ := gnu_digits h1 hs
    obtain ⟨b, k1, k2⟩ := gnu_spaces h2 g2
    obtain ⟨c, q1, q2⟩ := gnu_unitAt h3 k2
    exact ⟨c, .numberUnit g1 k1 q1, q2⟩
  | number h1 h2 =>
    obtain ⟨a, g1, g2⟩ := gnu_digits h1 hs
    obtain ⟨b, k1, k2⟩ := gnu_noUnit h2 g2
    exact ⟨b, .number g1 k1, k2⟩
  | decimalUnit h1 h2 h3 =>
    obtain ⟨a, g1, g2⟩ := gnu_decimal h1 hs
    obtain ⟨b, k1, k2⟩ := gnu_spaces h2 g2
    obtain ⟨c, q1, q2⟩ := gnu_unitAt h3 k2
    exact ⟨c, .decimalUnit g1 k1 q1, q2⟩
  | decimal h1 h2 =>
    obtain ⟨a, g1, g2⟩ := gnu_decimal h1 hs
    obtain ⟨b, k1, k2⟩ := gnu_noUnit h2 g2
    exact ⟨b, .decimal g1 k1, k2⟩
  | keyword h1 h2 =>
    obtain ⟨a, g1, g2⟩ := gnu_wordAt h1 hs
    obtain ⟨b, k1, k2⟩ := gnu_gap h2 g2
    exact ⟨b, .keyword g1 k1, k2⟩
  | unit h1 =>
    obtain ⟨a, g1, g2⟩ := gnu_unitAt h1 hs
    exact ⟨a, .unit g1, g2⟩
  | numeral h1 h2 h3 h4 =>
    obtain ⟨a, g1, g3⟩ := split_other (fun b hb g => g hb) h1 hs
    obtain ⟨b, k1, k2⟩ := gnu_spaces h3 g3
    obtain ⟨c, q1, q2⟩ := gnu_unitAt h4 k2
    exact ⟨c, .numeral g1 h2 k1 q1, q2⟩

theorem gnu_sign {s s' r : Bytes} {neg : Bool} (h : GnuSign s neg r) (hs : Same s s') : ∃ r', GnuSign s' neg r' ∧ Same r r' := by
  cases h with
  | absent h => exact ⟨s', .absent fun hh => h (starts_other space_sign (symm hs) hh), hs⟩
  | plus h =>
    obtain ⟨t, rfl, g2⟩ := cons hs (by decide)
    obtain ⟨r', k1, k2⟩ := gnu_spaces h g2
    exact ⟨r', .plus k1, k2⟩
  | minus h =>
    obtain ⟨t, rfl, g2⟩ := cons hs (by decide)
    obtain ⟨r', k1, k2⟩ := gnu_spaces h g2
    exact ⟨r', .minus k1, k2⟩

theorem gnu_relative {s s' : Bytes} {l : List GnuPart} (h : RelativeTime s l) (hs : Same s s') : RelativeTime s' l := by
  induction h generalizing s' with
  | last h1 h2 =>
    obtain ⟨a, g1, g2⟩ := gnu_sign h1 hs
    obtain ⟨b, k1, k2⟩ := gnu_text h2 g2
    obtain rfl := nil k2
    exact .last g1 k1
  | more h1 h2 h3 ih =>
    obtain ⟨a, g1, g2⟩ := gnu_sign h1 hs
    obtain ⟨b, k1, k2⟩ := gnu_text h2 g2
    exact .more g1 k1 (ih k2)

/-! ## Trimming -/

theorem last_cons {b : UInt8} {m : Bytes} (h : ∀ c, (b :: m).getLast? = some c → ¬ PosixSpace c) :
    ∀ c, m.getLast? = some c → ¬ PosixSpace c := by
  intro c hc
  cases m with
  | nil => cases hc
  | cons d m => exact h c (by rw [List.getLast?_cons_cons]; exact hc)

theorem trim_end {s t : Bytes} (h : Same s t) : ∀ {m post : Bytes}, s = m ++ post → (∀ b ∈ post, PosixSpace b) →
    (∀ b, m.getLast? = some b → ¬ PosixSpace b) →
    ∃ m' post', t = m' ++ post' ∧ (∀ b ∈ post', PosixSpace b) ∧ (∀ b, m'.getLast? = some b → ¬ PosixSpace b) ∧ Same m m' := by
  induction h with
  | done =>
    intro m post e _ _
    obtain ⟨rfl, rfl⟩ := List.append_eq_nil_iff.1 e.symm
    exact ⟨[], [], rfl, by simp, by simp, .done⟩
  | @same b s t hb hr ih =>
    intro m post e h1 h2
    cases m with
    | nil =>
      have : b ∈ post := by rw [show post = b :: s from e.symm]; simp
      exact absurd (h1 b this) hb
    | cons c m =>
      cases e
      obtain ⟨m', post', rfl, g1, g2, g3⟩ := ih rfl h1 (last_cons h2)
      refine ⟨b :: m', post', rfl, g1, ?_, .same hb g3⟩
      cases m' with
      | nil => intro c hc; cases hc; exact hb
      | cons d m' => intro c hc; rw [List.getLast?_cons_cons] at hc; exact g2 c hc
  | @gap x y s t g1 g2 g3 g4 g5 g6 g7 ih =>
    intro m post e h1 h2
    cases m with
    | nil =>
      have hs : s = [] := by
        cases s with
        | nil => rfl
        | cons b s => exact absurd ⟨b, s, rfl, h1 b (by rw [show post = x ++ b :: s from e.symm]; simp)⟩ g5
      subst hs
      obtain rfl := nil g7
      exact ⟨[], y, by simp, g3, by simp, .done⟩
    | cons c m =>
      have hne : (c :: m) ≠ [] := by simp
      generalize c :: m = m at *
      obtain ⟨m1, rfl, rfl⟩ : ∃ m1, m = x ++ m1 ∧ s = m1 ++ post := by
        rcases List.append_eq_append_iff.1 e with ⟨a, ha, hb⟩ | ⟨a, ha, hb⟩
        · exact ⟨a, ha, hb⟩
        · exfalso
          have hl := List.getLast?_eq_some_getLast hne
          exact h2 _ hl (g1 _ (by rw [ha]; exact List.mem_append_left _ (List.getLast_mem hne)))
      by_cases hm : m1 = []
      · subst hm
        exfalso
        rw [List.append_nil] at h2
        exact h2 _ (List.getLast?_eq_some_getLast g2) (g1 _ (List.getLast_mem g2))
      · obtain ⟨m', post', rfl, k1, k2, k3⟩ := ih rfl h1 (by
          intro b hb
          exact h2 b (by rw [List.getLast?_append_of_ne_nil _ hm]; exact hb))
        have hm' := ne k3 hm
        have n1 : ¬ StartsWith PosixSpace m1 := fun g => g5 ((Concat.startsWith_append hm).2 g)
        refine ⟨y ++ m', post', by simp, k1, ?_, .gap g1 g2 g3 g4 n1 (fun g => n1 (starts_space (symm k3) g)) k3⟩
        intro b hb
        rw [List.getLast?_append_of_ne_nil _ hm'] at hb
        exact k2 b hb

theorem head_iff {s : Bytes} : (∀ b, s.head? = some b → ¬ PosixSpace b) ↔ ¬ StartsWith PosixSpace s := by
  cases s with
  | nil => simp [not_startsWith_nil]
  | cons b s => simp [startsWith_cons]

theorem trimmed {s t m : Bytes} (h : Trimmed s m) (hr : Same s t) : ∃ m', Trimmed t m' ∧ Same m m' := by
  obtain ⟨pre, post, rfl, h1, h2, h3, h4⟩ := h
  rw [head_iff] at h3
  by_cases hm : m = []
  · subst hm
    have hall : ∀ b ∈ pre ++ ([] ++ post), PosixSpace b := all_append h1 h2
    obtain ⟨ds', r', g1, g2, -⟩ := split_space ⟨(List.append_nil _).symm, hall, not_startsWith_nil⟩ hr
    obtain rfl := nil g2
    exact ⟨[], ⟨ds', [], g1.1, g1.2.1, by simp, by simp, by simp⟩, .done⟩
  · have hsp : Split PosixSpace (pre ++ (m ++ post)) pre (m ++ post) :=
      ⟨rfl, h1, fun g => h3 ((Concat.startsWith_append hm).1 g)⟩
    obtain ⟨pre', r', g1, g2, -⟩ := split_space hsp hr
    obtain ⟨m', post', rfl, k1, k2, k3⟩ := trim_end g2 rfl h2 h4
    refine ⟨m', ⟨pre', post', g1.1, g1.2.1, k1, ?_, k2⟩, k3⟩
    rw [head_iff]
    exact fun g => h3 (starts_space (symm k3) g)

end Fundu.Respaced
