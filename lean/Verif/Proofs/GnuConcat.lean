import Verif.Spec.GnuConcat
import Verif.Proofs.GnuRespaced
/-! # gnu: relative times written one after the other -/
namespace Fundu.GnuConcat
open Fundu Fundu.Spec Fundu.Props Fundu.Gnu

variable {sp t : Bytes}

/-- what can follow a relative time -/
structure Follows (sp t : Bytes) : Prop where
  spaces : ∀ b ∈ sp, PosixSpace b
  gap : sp ≠ []
  nonempty : t ≠ []
  start : ¬ StartsWith PosixSpace t
  ago : ∀ r, ¬ AfterWord (b! "ago") t r
  unit : ¬ ∃ len r, GnuWordAt gnuUnits t len r

/-- what remains of the whole text if `r` remains of the first one -/
def rest (sp t r : Bytes) : Bytes := if r = [] then t else r ++ (sp ++ t)

theorem rest_nil : rest sp t [] = t := if_pos rfl
theorem rest_ne {r : Bytes} (h : r ≠ []) : rest sp t r = r ++ (sp ++ t) := if_neg h

section
variable (hf : Follows sp t)
include hf

theorem starts_space : StartsWith PosixSpace (sp ++ t) := by
  obtain ⟨b, l, h⟩ := List.exists_cons_of_ne_nil hf.gap
  exact ⟨b, l ++ t, by rw [h]; rfl, hf.spaces b (by rw [h]; simp)⟩

theorem starts_not {p : UInt8 → Prop} (hp : ∀ b, PosixSpace b → ¬ p b) : ¬ StartsWith p (sp ++ t) := by
  rintro ⟨b, l, h1, h2⟩
  obtain ⟨b', l', h1', h2'⟩ := starts_space hf
  rw [h1] at h1'
  cases h1'
  exact hp b h2' h2

theorem split_more {p : UInt8 → Prop} (hp : ∀ b, PosixSpace b → ¬ p b) {s w r : Bytes} (h : Split p s w r) :
    Split p (s ++ (sp ++ t)) w (r ++ (sp ++ t)) := Concat.split_append h (Or.inr (starts_not hf hp))

theorem not_append {p : UInt8 → Prop} (hp : ∀ b, PosixSpace b → ¬ p b) {r : Bytes} (h : ¬ StartsWith p r) :
    ¬ StartsWith p (r ++ (sp ++ t)) := Concat.not_startsWith_append h (starts_not hf hp)

theorem split_all : Split PosixSpace (sp ++ t) sp t := ⟨rfl, hf.spaces, hf.start⟩

theorem wordAt {table : List (List Bytes × GnuLength)} {s r : Bytes} {len : GnuLength} (h : GnuWordAt table s len r) :
    GnuWordAt table (s ++ (sp ++ t)) len (r ++ (sp ++ t)) := by
  obtain ⟨w, h1, h2⟩ := h
  exact ⟨w, split_more hf (fun b hb g => g (Or.inl hb)) h1, h2⟩

theorem wordAt_of {table : List (List Bytes × GnuLength)} {s r : Bytes} {len : GnuLength}
    (h : GnuWordAt table (s ++ (sp ++ t)) len r) : ∃ r', GnuWordAt table s len r' := by
  obtain ⟨w, h1, h2⟩ := h
  obtain ⟨u, v, h3⟩ := Respaced.exists_split (¬ GnuEnd ·) s
  obtain ⟨rfl, -⟩ := split_unique h1 (split_more hf (fun b hb g => g (Or.inl hb)) h3)
  exact ⟨v, w, h3, h2⟩

theorem spaces {s r : Bytes} (h : Spaces s r) (hr : r ≠ []) : Spaces (s ++ (sp ++ t)) (r ++ (sp ++ t)) := by
  obtain ⟨x, h⟩ := h
  exact ⟨x, Concat.split_append h (Or.inl hr)⟩

theorem gap {s r : Bytes} (h : GnuGap s r) : GnuGap (s ++ (sp ++ t)) (rest sp t r) := by
  by_cases hr : r = []
  · subst hr
    rw [h.2 rfl, rest_nil]
    exact ⟨⟨sp, split_all hf⟩, fun g => absurd g hf.nonempty⟩
  · rw [rest_ne hr]
    exact ⟨spaces hf h.1 hr, fun g => absurd (List.append_eq_nil_iff.1 g).1 hr⟩

theorem ago {s r : Bytes} (h : AgoAt s r) : AgoAt (s ++ (sp ++ t)) (r ++ (sp ++ t)) := by
  obtain ⟨x, r0, h1, h2, h3, h4⟩ := h
  have hne : r0 ≠ [] := by
    rintro rfl
    obtain ⟨y, h5, h6⟩ := h3
    obtain ⟨rfl, rfl⟩ := List.append_eq_nil_iff.1 h5.symm
    cases h6
  refine ⟨x, r0 ++ (sp ++ t), Concat.split_append h1 (Or.inl hne), h2, Concat.afterWord_append h3 _, Or.inr ?_⟩
  rcases h4 with rfl | ⟨b, l, rfl, hb⟩
  · rw [List.nil_append]
    exact startsWith_mono Respaced.space_end (starts_space hf)
  · exact ⟨b, _, rfl, hb⟩

theorem ago_of {s r : Bytes} (h : AgoAt (s ++ (sp ++ t)) r) : ∃ r', AgoAt s r' := by
  obtain ⟨x, r0, h1, h2, h3, h4⟩ := h
  obtain ⟨u, v, h5⟩ := Respaced.exists_split PosixSpace s
  by_cases hv : v = []
  · subst hv
    have hall : Split PosixSpace (s ++ (sp ++ t)) (u ++ sp) t := by
      refine ⟨?_, Respaced.all_append h5.2.1 hf.spaces, hf.start⟩
      rw [h5.1]; simp
    obtain ⟨-, rfl⟩ := split_unique h1 hall
    exact absurd h3 (hf.ago r)
  · obtain ⟨rfl, rfl⟩ := split_unique h1 (Concat.split_append h5 (Or.inl hv))
    obtain ⟨r', h6, rfl⟩ := afterWord_of_append' h3
    refine ⟨r', x, v, h5, h2, h6, ?_⟩
    cases r' with
    | nil => exact Or.inl rfl
    | cons b l =>
      refine Or.inr ⟨b, l, rfl, ?_⟩
      rcases h4 with h4 | ⟨c, l', h7, h8⟩
      · cases h4
      · cases h7; exact h8
where
  afterWord_of_append' {v r : Bytes} (h3 : AfterWord (b! "ago") (v ++ (sp ++ t)) r) :
      ∃ r', AfterWord (b! "ago") v r' ∧ r = r' ++ (sp ++ t) := by
    obtain ⟨y, h5, h6⟩ := h3
    have hy := sameText_letters h6 ago_letters
    rcases List.append_eq_append_iff.1 h5 with ⟨a, ha, hb⟩ | ⟨a, ha, hb⟩
    · -- `y = v ++ a`
      cases a with
      | nil => exact ⟨[], ⟨v, by simp, by rw [ha, List.append_nil] at h6; exact h6⟩, by rw [List.nil_append] at hb; rw [hb]; rfl⟩
      | cons b a =>
        exfalso
        refine starts_not hf Respaced.space_letter ⟨b, a ++ r, hb, hy b (by rw [ha]; simp)⟩
    · exact ⟨a, ⟨y, ha, h6⟩, hb⟩

theorem unitAt {s r : Bytes} {len : GnuLength} {a : Bool} (h : GnuUnitAt s len a r) :
    GnuUnitAt (s ++ (sp ++ t)) len a (rest sp t r) := by
  obtain ⟨x, y, h1, h2, h3⟩ := h
  refine ⟨_, y ++ (sp ++ t), wordAt hf h1, ?_, gap hf h3⟩
  cases h2 with
  | absent hn => exact .absent fun ⟨r, g⟩ => hn (ago_of hf g)
  | present hp => exact .present (ago hf hp)

theorem digits {s W r : Bytes} (h : GnuDigits s W r) : GnuDigits (s ++ (sp ++ t)) W (r ++ (sp ++ t)) :=
  ⟨split_more hf Respaced.space_digit h.1, h.2.1, not_append hf Respaced.space_number h.2.2⟩

theorem decimal {s W F r : Bytes} (h : GnuDecimal s W F r) : GnuDecimal (s ++ (sp ++ t)) W F (r ++ (sp ++ t)) := by
  obtain ⟨r0, h1, h2, h3, h4, h5⟩ := h
  exact ⟨r0 ++ (sp ++ t), split_more hf Respaced.space_digit h1, h2, split_more hf Respaced.space_digit h3, h4,
    not_append hf Respaced.space_exponent h5⟩

theorem noUnit {s r : Bytes} (h : NoUnit s r) : NoUnit (s ++ (sp ++ t)) (rest sp t r) := by
  obtain ⟨_, h1, h2, h3, rfl⟩ := h
  have hg := gap hf ⟨h1, h2⟩
  refine ⟨_, hg.1, hg.2, ?_, rfl⟩
  rintro ⟨len, x, hx⟩
  by_cases hr : r = []
  · subst hr
    rw [rest_nil] at hx
    exact hf.unit ⟨len, x, hx⟩
  · rw [rest_ne hr] at hx
    obtain ⟨x', hx'⟩ := wordAt_of hf hx
    exact h3 ⟨len, x', hx'⟩

omit hf in
theorem unitAt_ne {s r : Bytes} {len : GnuLength} {a : Bool} (h : GnuUnitAt s len a r) : s ≠ [] := by
  obtain ⟨x, y, ⟨w, h1, h2⟩, -⟩ := h
  rintro rfl
  exact gnuWord_ne h2 (by decide) (List.append_eq_nil_iff.1 h1.1.symm).1

theorem text {neg : Bool} {s r : Bytes} {part : GnuPart} (h : GnuText neg s part r) :
    GnuText neg (s ++ (sp ++ t)) part (rest sp t r) := by
  cases h with
  | numberUnit h1 h2 h3 => exact .numberUnit (digits hf h1) (spaces hf h2 (unitAt_ne h3)) (unitAt hf h3)
  | number h1 h2 => exact .number (digits hf h1) (noUnit hf h2)
  | decimalUnit h1 h2 h3 => exact .decimalUnit (decimal hf h1) (spaces hf h2 (unitAt_ne h3)) (unitAt hf h3)
  | decimal h1 h2 => exact .decimal (decimal hf h1) (noUnit hf h2)
  | keyword h1 h2 => exact .keyword (wordAt hf h1) (gap hf h2)
  | unit h1 => exact .unit (unitAt hf h1)
  | numeral h1 h2 h3 h4 =>
    exact .numeral (split_more hf (fun b hb g => g hb) h1) h2 (spaces hf h3 (unitAt_ne h4)) (unitAt hf h4)

omit hf in
theorem text_ne {neg : Bool} {s r : Bytes} {part : GnuPart} (h : GnuText neg s part r) : s ≠ [] := by
  have key : ∀ {p : UInt8 → Prop} {w r : Bytes}, Split p s w r → w ≠ [] → s ≠ [] := by
    rintro p w r ⟨rfl, -⟩ hw g
    exact hw (List.append_eq_nil_iff.1 g).1
  cases h with
  | numberUnit h1 _ _ => exact key h1.1 h1.2.1
  | number h1 _ => exact key h1.1 h1.2.1
  | decimalUnit h1 _ _ => obtain ⟨_, h1, h2, -⟩ := h1; exact key h1 h2
  | decimal h1 _ => obtain ⟨_, h1, h2, -⟩ := h1; exact key h1 h2
  | keyword h1 _ => obtain ⟨w, h1, h2⟩ := h1; exact key h1 (gnuWord_ne h2 (by decide))
  | unit h1 => exact unitAt_ne h1
  | numeral h1 h2 _ _ => exact key h1 (numeral_word h2).1

theorem sign {s r : Bytes} {neg : Bool} (h : GnuSign s neg r) (hr : r ≠ []) : GnuSign (s ++ (sp ++ t)) neg (r ++ (sp ++ t)) := by
  cases h with
  | absent h => exact .absent (not_append hf Respaced.space_sign h)
  | plus h => exact .plus (spaces hf h hr)
  | minus h => exact .minus (spaces hf h hr)

theorem relative {s : Bytes} {l l' : List GnuPart} (h : RelativeTime s l) (h' : RelativeTime t l') :
    RelativeTime (s ++ (sp ++ t)) (l ++ l') := by
  induction h with
  | last h1 h2 =>
    have := text hf h2
    rw [rest_nil] at this
    exact .more (sign hf h1 (text_ne h2)) this h'
  | @more s neg r part rest l h1 h2 h3 ih =>
    have hne : rest ≠ [] := by
      rintro rfl
      cases h3 with
      | last k1 k2 => cases k1; exact text_ne k2 rfl
      | more k1 k2 _ => cases k1; exact text_ne k2 rfl
    have := text hf h2
    rw [rest_ne hne] at this
    exact .more (sign hf h1 (text_ne h2)) this ih
end

/-! ## What starts a relative time -/

theorem relative_ne {s : Bytes} {l : List GnuPart} (h : RelativeTime s l) : s ≠ [] := by
  rintro rfl
  cases h with
  | last k1 k2 => cases k1; exact text_ne k2 rfl
  | more k1 k2 _ => cases k1; exact text_ne k2 rfl

/-- neither white space nor the letter `a` -/
def NoA (b : UInt8) : Prop := ¬ PosixSpace b ∧ lower b ≠ 97

instance (b : UInt8) : Decidable (NoA b) := by unfold NoA; infer_instance

theorem noA_of {p : UInt8 → Prop} [DecidablePred p] (h : ∀ n < 256, p (UInt8.ofNat n) →
    ¬ PosixSpace (UInt8.ofNat n) ∧ lower (UInt8.ofNat n) ≠ 97) : ∀ b, p b → NoA b := by
  intro b
  have := h b.toNat b.toNat_lt
  rwa [UInt8.ofNat_toNat] at this

theorem word_head {w name : Bytes} (h : SameText w name) (hn : ∀ b ∈ (name.map lower).head?, 97 < b.toNat) (hne : name ≠ []) :
    StartsWith NoA w := by
  cases w with
  | nil =>
    have : name = [] := by unfold SameText at h; simpa using h.symm
    exact absurd this hne
  | cons b w =>
    refine ⟨b, w, rfl, ?_⟩
    unfold SameText at h
    rw [← h] at hn
    have hb : 97 < (lower b).toNat := hn _ rfl
    have key : ∀ n < 256, 97 < (lower (UInt8.ofNat n)).toNat → ¬ PosixSpace (UInt8.ofNat n) ∧ lower (UInt8.ofNat n) ≠ 97 := by
      decide +kernel
    have := key b.toNat b.toNat_lt
    rw [UInt8.ofNat_toNat] at this
    exact this hb

theorem starts_append {p : UInt8 → Prop} {w r : Bytes} (h : StartsWith p w) : StartsWith p (w ++ r) := by
  obtain ⟨b, l, rfl, hb⟩ := h
  exact ⟨b, l ++ r, rfl, hb⟩

theorem gnuWord_head {table : List (List Bytes × GnuLength)} {w : Bytes} {len : GnuLength} (h : GnuWord table w len)
    (ht : ∀ p ∈ table, ∀ n ∈ p.1, n ≠ [] ∧ ∀ b ∈ (n.map lower).head?, 97 < b.toNat) : StartsWith NoA w := by
  obtain ⟨names, h1, n, h2, h3⟩ := h
  exact word_head h3 (ht _ h1 n h2).2 (ht _ h1 n h2).1

theorem text_head {neg : Bool} {s r : Bytes} {part : GnuPart} (h : GnuText neg s part r) : StartsWith NoA s := by
  have dig : ∀ {W r : Bytes}, Split IsDigit s W r → W ≠ [] → StartsWith NoA s := by
    rintro W r ⟨rfl, h2, -⟩ hne
    obtain ⟨b, l, rfl⟩ := List.exists_cons_of_ne_nil hne
    exact ⟨b, l ++ r, rfl, noA_of (by decide +kernel) b (h2 b (by simp))⟩
  have unit : ∀ {len a r}, GnuUnitAt s len a r → StartsWith NoA s := by
    rintro len a r ⟨_, _, ⟨w, ⟨rfl, -⟩, h2⟩, -⟩
    exact starts_append (gnuWord_head h2 (by decide))
  cases h with
  | numberUnit h1 _ _ => exact dig h1.1 h1.2.1
  | number h1 _ => exact dig h1.1 h1.2.1
  | decimalUnit h1 _ _ => obtain ⟨_, h1, h2, -⟩ := h1; exact dig h1 h2
  | decimal h1 _ => obtain ⟨_, h1, h2, -⟩ := h1; exact dig h1 h2
  | keyword h1 _ => obtain ⟨w, ⟨rfl, -⟩, h2⟩ := h1; exact starts_append (gnuWord_head h2 (by decide))
  | unit h1 => exact unit h1
  | numeral h1 h2 _ _ =>
    obtain ⟨rfl, -⟩ := h1
    obtain ⟨name, h3, h4⟩ := h2
    have key : ∀ p ∈ gnuNumerals, p.1 ≠ [] ∧ ∀ b ∈ (p.1.map lower).head?, 97 < b.toNat := by decide
    exact starts_append (word_head h4 (key _ h3).2 (key _ h3).1)

theorem relative_head {s : Bytes} {l : List GnuPart} (h : RelativeTime s l) : StartsWith NoA s := by
  have key : ∀ {neg r part q}, GnuSign s neg r → GnuText neg r part q → StartsWith NoA s := by
    intro neg r part q h1 h2
    cases h1 with
    | absent _ => exact text_head h2
    | plus _ => exact ⟨_, _, rfl, by decide⟩
    | minus _ => exact ⟨_, _, rfl, by decide⟩
  cases h with
  | last h1 h2 => exact key h1 h2
  | more h1 h2 _ => exact key h1 h2

theorem follows {l : List GnuPart} (hsp : ∀ b ∈ sp, PosixSpace b) (hg : sp ≠ []) (h : RelativeTime t l)
    (hu : ¬ ∃ len r, GnuWordAt gnuUnits t len r) : Follows sp t := by
  obtain ⟨b, x, rfl, h1, h2⟩ := relative_head h
  refine ⟨hsp, hg, by simp, fun g => h1 (startsWith_cons.1 g), ?_, hu⟩
  rintro r ⟨y, h3, h4⟩
  cases y with
  | nil => cases h4
  | cons c y =>
    cases h3
    unfold SameText at h4
    simp only [List.map_cons] at h4
    injection h4 with h5 _
    exact h2 (h5.trans (by decide))

/-! ## Totals -/

theorem exactTotal_append (l l' : List GnuPart) : exactTotal (l ++ l') =
    ⟨(exactTotal l).years + (exactTotal l').years, (exactTotal l).months + (exactTotal l').months,
      (exactTotal l).nanoseconds + (exactTotal l').nanoseconds⟩ := by
  simp only [exactTotal, List.map_append, List.sum_append]

theorem clampI64_of {x : Int} (h : IsI64 x) : clampI64 x = x := by
  have h1 : -2 ^ 63 ≤ x := h.1
  have h2 : x ≤ 2 ^ 63 - 1 := h.2
  unfold clampI64; omega

theorem clamp_of {x : Int} (h : Representable x) : clamp x = x := by
  unfold Representable at h; unfold clamp; omega

theorem add_exact {t : GnuTotal} {p : GnuPart}
    (h : (⟨t.years + p.total.years, t.months + p.total.months, t.nanoseconds + p.total.nanoseconds⟩ : GnuTotal).InRange) :
    t.add p = ⟨t.years + p.total.years, t.months + p.total.months, t.nanoseconds + p.total.nanoseconds⟩ := by
  obtain ⟨h1, h2, h3⟩ := h
  cases p with
  | exact x =>
    simp only [GnuTotal.add, GnuPart.total, Int.add_zero] at *
    rw [clamp_of h3]
  | months x =>
    simp only [GnuTotal.add, GnuPart.total, Int.add_zero] at *
    rw [clampI64_of h2]
  | years x =>
    simp only [GnuTotal.add, GnuPart.total, Int.add_zero] at *
    rw [clampI64_of h1]

theorem total_exact (l : List GnuPart) (h : ∀ k, k ≤ l.length → (exactTotal (l.take k)).InRange) : gnuTotal l = exactTotal l := by
  obtain ⟨n, hn⟩ : ∃ n, n = l.length := ⟨_, rfl⟩
  induction n generalizing l with
  | zero => rw [List.length_eq_zero_iff.1 hn.symm]; rfl
  | succ n ih =>
    obtain ⟨l, p, rfl⟩ : ∃ l' p, l = l' ++ [p] := by
      have hne : l ≠ [] := by rintro rfl; cases hn
      exact ⟨l.dropLast, l.getLast hne, (List.dropLast_append_getLast hne).symm⟩
    have h0 := ih l (fun k hk => by
      have := h k (by simp; omega)
      rwa [List.take_append_of_le_length hk] at this) (by simpa using hn)
    have h1 := h (l ++ [p]).length (Nat.le_refl _)
    rw [List.take_length, exactTotal_append] at h1
    unfold gnuTotal at *
    rw [List.foldl_append, h0, exactTotal_append]
    have e : exactTotal [p] = p.total := by simp [exactTotal]
    rw [e] at h1 ⊢
    exact add_exact h1

end Fundu.GnuConcat
