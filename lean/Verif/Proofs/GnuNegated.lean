import Verif.Spec.GnuNegated
import Verif.Proofs.GnuConcat
import Verif.Proofs.Negated
/-! # gnu: relative times with the opposite signs -/
namespace Fundu.GnuNegated
open Fundu Fundu.Spec Fundu.Props Fundu.Gnu Fundu.Props.Negated

theorem suff {T r : Bytes} : T <:+ r → ∃ a, r = a ++ T := by rintro ⟨a, ha⟩; exact ⟨a, ha.symm⟩

theorem spaces_suffix {s r : Bytes} (h : Spaces s r) : r <:+ s := by obtain ⟨_, h⟩ := h; exact split_suffix h
theorem wordAt_suffix {table : List (List Bytes × GnuLength)} {s r : Bytes} {len : GnuLength} (h : GnuWordAt table s len r) : r <:+ s := by
  obtain ⟨_, h, -⟩ := h; exact split_suffix h
theorem ago_suffix {s r : Bytes} {a : Bool} (h : GnuAgo s a r) : r <:+ s := by
  cases h with
  | absent => exact List.suffix_refl _
  | present h => obtain ⟨_, _, h1, -, h2, -⟩ := h; exact (afterWord_suffix h2).trans (split_suffix h1)
theorem unitAt_suffix {s r : Bytes} {len : GnuLength} {a : Bool} (h : GnuUnitAt s len a r) : r <:+ s := by
  obtain ⟨_, _, h1, h2, h3⟩ := h
  exact (spaces_suffix h3.1).trans ((ago_suffix h2).trans (wordAt_suffix h1))
theorem noUnit_suffix {s r : Bytes} (h : NoUnit s r) : r <:+ s := by obtain ⟨_, h, -, -, rfl⟩ := h; exact spaces_suffix h
theorem text_suffix {neg : Bool} {s r : Bytes} {part : GnuPart} (h : GnuText neg s part r) : r <:+ s := by
  cases h with
  | numberUnit h1 h2 h3 => exact (unitAt_suffix h3).trans ((spaces_suffix h2).trans (split_suffix h1.1))
  | number h1 h2 => exact (noUnit_suffix h2).trans (split_suffix h1.1)
  | decimalUnit h1 h2 h3 =>
    obtain ⟨r, g1, -, g2, -⟩ := h1
    exact (unitAt_suffix h3).trans ((spaces_suffix h2).trans ((split_suffix g2).trans ((List.suffix_cons _ _).trans (split_suffix g1))))
  | decimal h1 h2 =>
    obtain ⟨r, g1, -, g2, -⟩ := h1
    exact (noUnit_suffix h2).trans ((split_suffix g2).trans ((List.suffix_cons _ _).trans (split_suffix g1)))
  | keyword h1 h2 => exact (spaces_suffix h2.1).trans (wordAt_suffix h1)
  | unit h1 => exact unitAt_suffix h1
  | numeral h1 h2 h3 h4 => exact (unitAt_suffix h4).trans ((spaces_suffix h3).trans (split_suffix h1))
theorem sign_suffix {s r : Bytes} {neg : Bool} (h : GnuSign s neg r) : r <:+ s := by
  cases h with
  | absent => exact List.suffix_refl _
  | plus h => exact (spaces_suffix h).trans (List.suffix_cons _ _)
  | minus h => exact (spaces_suffix h).trans (List.suffix_cons _ _)

section
variable {T T' : Bytes} (hT : T ≠ []) (hS : StartsWith (fun b => b = 43 ∨ b = 45) T')
include hS

theorem spaces_swap {x y : Bytes} (h : Spaces (x ++ T) (y ++ T)) : Spaces (x ++ T') (y ++ T') := by
  obtain ⟨w, h⟩ := h
  exact ⟨w, split_swap hS (by decide) (by decide) h⟩

theorem gap_swap {x : Bytes} (h : GnuGap (x ++ T) T) : GnuGap (x ++ T') T' :=
  ⟨spaces_swap hS (y := []) h.1, fun g => absurd g (ne_of_sign hS)⟩

theorem wordAt_swap {table : List (List Bytes × GnuLength)} {x y : Bytes} {len : GnuLength} (h : GnuWordAt table (x ++ T) len (y ++ T)) :
    GnuWordAt table (x ++ T') len (y ++ T') := by
  obtain ⟨w, h1, h2⟩ := h
  exact ⟨w, split_swap hS (fun h => h (Or.inr (by decide))) (fun h => h (Or.inr (by decide))) h1, h2⟩

theorem no_word {table : List (List Bytes × GnuLength)} (ht : ∀ p ∈ table, ∀ n ∈ p.1, n ≠ []) : ¬ ∃ len r, GnuWordAt table T' len r := by
  rintro ⟨len, r, w, ⟨rfl, h2, -⟩, h3⟩
  obtain ⟨b, l, h4, h5⟩ := hS
  cases w with
  | nil => exact gnuWord_ne h3 ht rfl
  | cons c w =>
    cases h4
    refine h2 b (by simp) (Or.inr ?_)
    rcases h5 with rfl | rfl <;> decide

theorem ago_swap {x y : Bytes} {a : Bool} (h : GnuAgo (x ++ T) a (y ++ T)) (hg : GnuGap (y ++ T) T) : GnuAgo (x ++ T') a (y ++ T') := by
  generalize hs : x ++ T = s at h
  generalize hr : y ++ T = r at h
  cases h with
  | absent h =>
    have e : y = x := List.append_cancel_right (hr.trans hs.symm)
    subst e
    refine .absent ?_
    rintro ⟨rest, sp, r, g1, g2, g3, -⟩
    obtain ⟨sp', k⟩ := hg.1
    have e : y = sp' := List.append_cancel_right k.1
    subst e
    obtain ⟨-, rfl⟩ := split_unique g1 (split_swap hS (x := y) (y := []) (by decide) (by decide) k)
    obtain ⟨v, g3, g4⟩ := g3
    obtain ⟨b, l, g5, g6⟩ := hS
    have hv := sameText_letters g4 ago_letters
    cases v with
    | nil => revert g4; decide
    | cons c v =>
      rw [g5] at g3
      cases g3
      have := hv b (by simp)
      rcases g6 with rfl | rfl <;> revert this <;> decide
  | present h =>
    subst hs hr
    obtain ⟨sp, r, g1, g2, g3, g4⟩ := h
    obtain ⟨v, rfl, g3⟩ := g3
    rw [← List.append_assoc] at g1
    refine .present ⟨sp, _, split_swap hS (by decide) (by decide) g1, g2, ⟨v, by rw [List.append_assoc], g3⟩, Or.inr ?_⟩
    by_cases hy : y = []
    · subst hy; exact sign_is hS (Or.inr (by decide)) (Or.inr (by decide))
    · rw [startsWith_swap (T := T) hy]
      exact g4.resolve_left (by simp [hy])

theorem unitAt_swap {x : Bytes} {len : GnuLength} {a : Bool} (h : GnuUnitAt (x ++ T) len a T) : GnuUnitAt (x ++ T') len a T' := by
  obtain ⟨r, r', h1, h2, h3⟩ := h
  obtain ⟨v, rfl⟩ := suff (spaces_suffix h3.1)
  obtain ⟨u, rfl⟩ := suff (List.IsSuffix.trans ⟨v, rfl⟩ (ago_suffix h2))
  exact ⟨_, _, wordAt_swap hS h1, ago_swap hS h2 h3, gap_swap hS h3⟩

theorem noUnit_swap {x : Bytes} (h : NoUnit (x ++ T) T) : NoUnit (x ++ T') T' := by
  obtain ⟨r, h1, h2, h3, rfl⟩ := h
  have := gap_swap hS ⟨h1, h2⟩
  exact ⟨T', this.1, this.2, no_word hS (by decide), rfl⟩

theorem digits_swap {x y W : Bytes} (h : GnuDigits (x ++ T) W (y ++ T)) : GnuDigits (x ++ T') W (y ++ T') :=
  ⟨split_swap hS (by decide) (by decide) h.1, h.2.1, not_startsWith_swap hS (by decide) (by decide) h.2.2⟩

theorem decimal_swap {x y W F : Bytes} (h : GnuDecimal (x ++ T) W F (y ++ T)) : GnuDecimal (x ++ T') W F (y ++ T') := by
  obtain ⟨r, h1, h2, h3, h4, h5⟩ := h
  obtain ⟨u, rfl⟩ := suff (List.IsSuffix.trans ⟨y, rfl⟩ (split_suffix h3))
  exact ⟨u ++ T', split_swap hS (y := 46 :: u) (by decide) (by decide) h1, h2, split_swap hS (by decide) (by decide) h3, h4,
    not_startsWith_swap hS (by decide) (by decide) h5⟩

/-- What follows a part can be replaced by a text which starts with a sign. -/
theorem text_swap {neg : Bool} {x : Bytes} {part : GnuPart} (h : GnuText neg (x ++ T) part T) : GnuText neg (x ++ T') part T' := by
  generalize hs : x ++ T = s at h
  generalize hr : T = r0 at h
  cases h with
  | numberUnit h1 h2 h3 =>
    subst hs hr
    obtain ⟨v, rfl⟩ := suff (unitAt_suffix h3)
    obtain ⟨u, rfl⟩ := suff (List.IsSuffix.trans ⟨v, rfl⟩ (spaces_suffix h2))
    exact .numberUnit (digits_swap hS h1) (spaces_swap hS h2) (unitAt_swap hS h3)
  | number h1 h2 =>
    subst hs hr
    obtain ⟨v, rfl⟩ := suff (noUnit_suffix h2)
    exact .number (digits_swap hS h1) (noUnit_swap hS h2)
  | decimalUnit h1 h2 h3 =>
    subst hs hr
    obtain ⟨v, rfl⟩ := suff (unitAt_suffix h3)
    obtain ⟨u, rfl⟩ := suff (List.IsSuffix.trans ⟨v, rfl⟩ (spaces_suffix h2))
    exact .decimalUnit (decimal_swap hS h1) (spaces_swap hS h2) (unitAt_swap hS h3)
  | decimal h1 h2 =>
    subst hs hr
    obtain ⟨v, rfl⟩ := suff (noUnit_suffix h2)
    exact .decimal (decimal_swap hS h1) (noUnit_swap hS h2)
  | keyword h1 h2 =>
    subst hs hr
    obtain ⟨v, rfl⟩ := suff (spaces_suffix h2.1)
    exact .keyword (wordAt_swap hS h1) (gap_swap hS h2)
  | unit h1 =>
    subst hs hr
    exact .unit (unitAt_swap hS h1)
  | @numeral w n r r' _ _ _ h1 h2 h3 h4 =>
    subst hs hr
    obtain ⟨v, rfl⟩ := suff (unitAt_suffix h4)
    obtain ⟨u, rfl⟩ := suff (List.IsSuffix.trans ⟨v, rfl⟩ (spaces_suffix h3))
    have hv : v ≠ [] := by
      rintro rfl
      obtain ⟨a, b, ⟨w, k1, k2⟩, k3, k4⟩ := h4
      have hl := (List.IsSuffix.trans (spaces_suffix k4.1) (ago_suffix k3)).length_le
      have hw := List.length_pos_of_ne_nil (gnuWord_ne k2 (by decide))
      have := congrArg List.length k1.1
      simp only [List.length_append, List.nil_append] at this
      omega
    have hu : u ≠ [] := by
      rintro rfl
      have := (spaces_suffix h3).length_le
      have := List.length_pos_of_ne_nil hv
      simp only [List.length_append, List.nil_append] at *
      omega
    have hx : Split (¬ PosixSpace ·) x w u := by
      refine ⟨List.append_cancel_right (bs := T) (by rw [h1.1, List.append_assoc]), h1.2.1, fun g => h1.2.2 ?_⟩
      exact (startsWith_append hu).2 g
    exact .numeral (Concat.split_append hx (Or.inl hu)) h2 (spaces_swap hS h3) (unitAt_swap hS h4)

theorem sign_swap {x y : Bytes} {neg : Bool} (hx : x ≠ []) (h : GnuSign (x ++ T) neg (y ++ T)) : GnuSign (x ++ T') neg (y ++ T') := by
  obtain ⟨b, x, rfl⟩ := List.exists_cons_of_ne_nil hx
  generalize hs : b :: x ++ T = s at h
  generalize hr : y ++ T = r at h
  cases h with
  | absent h =>
    have e : y = b :: x := List.append_cancel_right (hr.trans hs.symm)
    subst e hs
    exact .absent (by rwa [startsWith_swap (T := T) hx])
  | plus h =>
    cases hs; subst hr
    exact .plus (spaces_swap hS h)
  | minus h =>
    cases hs; subst hr
    exact .minus (spaces_swap hS h)
end

/-! ## The other sign -/

/-- what a part with the other sign adds -/
def OppositePart : GnuPart → GnuPart → Prop
  | .exact x, .exact y => y = -x
  | .months m, .months n => ∃ k, m = clampI64 k ∧ n = clampI64 (-k)
  | .years m, .years n => ∃ k, m = clampI64 k ∧ n = clampI64 (-k)
  | _, _ => False

theorem clamp_neg (x : Int) : clamp (-x) = -clamp x := by
  have : (0 : Int) ≤ maxNanos := by decide
  unfold clamp
  omega

theorem signed_not (neg ago : Bool) (n : Int) : signedBy (!neg) ago n = -signedBy neg ago n := by
  cases neg <;> cases ago <;> simp [signedBy]

theorem times_not (n : Int) (len : GnuLength) : OppositePart (timesLength n len) (timesLength (-n) len) := by
  cases len with
  | seconds k =>
    show clamp (-n * k * 10 ^ 9) = -clamp (n * k * 10 ^ 9)
    rw [← clamp_neg, Int.neg_mul, Int.neg_mul]
  | months => exact ⟨n, rfl, rfl⟩
  | years => exact ⟨n, rfl, rfl⟩

theorem text_not {neg : Bool} {s r : Bytes} {part : GnuPart} (h : GnuText neg s part r) :
    ∃ part', GnuText (!neg) s part' r ∧ OppositePart part part' := by
  cases h with
  | numberUnit h1 h2 h3 => exact ⟨_, .numberUnit h1 h2 h3, by rw [signed_not]; exact times_not _ _⟩
  | number h1 h2 => exact ⟨_, .number h1 h2, by rw [signed_not]; exact times_not _ _⟩
  | decimalUnit h1 h2 h3 => exact ⟨_, .decimalUnit h1 h2 h3, by rw [signed_not]; exact clamp_neg _⟩
  | decimal h1 h2 => exact ⟨_, .decimal h1 h2, by rw [signed_not]; exact clamp_neg _⟩
  | keyword h1 h2 => exact ⟨_, .keyword h1 h2, by rw [signed_not]; exact times_not _ _⟩
  | unit h1 => exact ⟨_, .unit h1, by rw [signed_not]; exact times_not _ _⟩
  | numeral h1 h2 h3 h4 => exact ⟨_, .numeral h1 h2 h3 h4, by rw [signed_not]; exact times_not _ _⟩

theorem otherSign_starts {s t : Bytes} (h : OtherSign s t) : StartsWith (fun b => b = 43 ∨ b = 45) t := by
  rcases h with ⟨-, rfl⟩ | ⟨r, -, rfl⟩ | ⟨r, -, rfl⟩
  · exact ⟨_, _, rfl, Or.inr rfl⟩
  · exact ⟨_, _, rfl, Or.inr rfl⟩
  · exact ⟨_, _, rfl, Or.inl rfl⟩

theorem sign_not' {s t r : Bytes} {neg : Bool} (h : GnuSign s neg r) (hr : ¬ StartsWith PosixSpace r) (ho : OtherSign s t) :
    GnuSign t (!neg) r := by
  cases h with
  | absent h =>
    rcases ho with ⟨-, rfl⟩ | ⟨r, rfl, -⟩ | ⟨r, rfl, -⟩
    · exact .minus ⟨[], split_nil hr⟩
    · exact absurd ⟨_, _, rfl, Or.inl rfl⟩ h
    · exact absurd ⟨_, _, rfl, Or.inr rfl⟩ h
  | plus h =>
    rcases ho with ⟨g, -⟩ | ⟨r, e, rfl⟩ | ⟨r, e, -⟩
    · exact absurd ⟨_, _, rfl, Or.inl rfl⟩ g
    · cases e; exact .minus h
    · cases e
  | minus h =>
    rcases ho with ⟨g, -⟩ | ⟨r, e, -⟩ | ⟨r, e, rfl⟩
    · exact absurd ⟨_, _, rfl, Or.inr rfl⟩ g
    · cases e
    · cases e; exact .plus h

theorem not_space {neg : Bool} {s r : Bytes} {part : GnuPart} (h : GnuText neg s part r) : ¬ StartsWith PosixSpace s := by
  obtain ⟨b, l, rfl, h1, -⟩ := GnuConcat.text_head h
  rw [startsWith_cons]; exact h1

theorem text_less {neg : Bool} {s r : Bytes} {part : GnuPart} (h : GnuText neg s part r) : r.length < s.length := by
  rcases Nat.lt_or_ge r.length s.length with g | g
  · exact g
  · exfalso
    have e : r = s := (text_suffix h).eq_of_length_le g
    have wd : ∀ {p : UInt8 → Prop} {s w a r : Bytes}, Split p s w a → w ≠ [] → r <:+ a → r ≠ s := by
      rintro p s w a r h1 h2 h3 rfl
      have := h3.length_le
      have := List.length_pos_of_ne_nil h2
      have := congrArg List.length h1.1
      simp only [List.length_append] at this
      omega
    have un : ∀ {s r : Bytes} {len a}, GnuUnitAt s len a r → r ≠ s := by
      rintro s r len a ⟨_, _, ⟨w, k1, k2⟩, k3, k4⟩
      exact wd k1 (gnuWord_ne k2 (by decide)) ((spaces_suffix k4.1).trans (ago_suffix k3))
    cases h with
    | numberUnit h1 h2 h3 => exact wd h1.1 h1.2.1 ((unitAt_suffix h3).trans (spaces_suffix h2)) e
    | number h1 h2 => exact wd h1.1 h1.2.1 (noUnit_suffix h2) e
    | decimalUnit h1 h2 h3 =>
      obtain ⟨r', g1, g3, g2, -⟩ := h1
      exact wd g1 g3 ((unitAt_suffix h3).trans ((spaces_suffix h2).trans ((split_suffix g2).trans (List.suffix_cons _ _)))) e
    | decimal h1 h2 =>
      obtain ⟨r', g1, g3, g2, -⟩ := h1
      exact wd g1 g3 ((noUnit_suffix h2).trans ((split_suffix g2).trans (List.suffix_cons _ _))) e
    | keyword h1 h2 =>
      obtain ⟨w, k1, k2⟩ := h1
      exact wd k1 (gnuWord_ne k2 (by decide)) (spaces_suffix h2.1) e
    | unit h1 => exact un h1 e
    | numeral h1 h2 h3 h4 => exact wd h1 (numeral_word h2).1 ((unitAt_suffix h4).trans (spaces_suffix h3)) e

theorem opposite_starts {s t : Bytes} (h : GnuOpposite s t) : StartsWith (fun b => b = 43 ∨ b = 45) t := by
  cases h with
  | last _ _ h => exact otherSign_starts h
  | more _ _ _ _ h => exact otherSign_starts h

/-- the parts of a text with the opposite signs -/
theorem opposite_parts {s t : Bytes} (h : GnuOpposite s t) :
    ∃ l l', RelativeTime s l ∧ RelativeTime t l' ∧ List.Forall₂ OppositePart l l' := by
  induction h with
  | last h1 h2 h3 =>
    obtain ⟨p, k1, k2⟩ := text_not h2
    exact ⟨_, _, .last h1 h2, .last (sign_not' h1 (not_space h2) h3) k1, .cons k2 .nil⟩
  | @more s neg r part front rest rest' t h1 h2 h3 h4 h5 ih =>
    obtain ⟨l, l', g1, g2, g3⟩ := ih
    obtain ⟨x, rfl⟩ := suff (text_suffix h2)
    subst h3
    have hx : x ≠ [] := by
      rintro rfl
      have := text_less h2
      simp at this
    have hf : front ≠ [] := by
      rintro rfl
      have := (sign_suffix h1).length_le
      have := List.length_pos_of_ne_nil hx
      simp only [List.length_append, List.nil_append] at *
      omega
    have hS := opposite_starts h4
    have k1 := sign_swap hS hf h1
    have k2 := text_swap hS h2
    obtain ⟨p, k3, k4⟩ := text_not k2
    exact ⟨_, _, .more h1 h2 g1, .more (sign_not' k1 (not_space k2) h5) k3 g2, .cons k4 g3⟩

theorem otherSign_total (s : Bytes) : ∃ t, OtherSign s t := by
  by_cases hs : StartsWith (fun b => b = 43 ∨ b = 45) s
  · obtain ⟨b, r, rfl, rfl | rfl⟩ := hs
    · exact ⟨_, Or.inr (Or.inl ⟨r, rfl, rfl⟩)⟩
    · exact ⟨_, Or.inr (Or.inr ⟨r, rfl, rfl⟩)⟩
  · exact ⟨_, Or.inl ⟨hs, rfl⟩⟩

theorem opposite_exists {s : Bytes} {l : List GnuPart} (h : RelativeTime s l) : ∃ t, GnuOpposite s t := by
  induction h with
  | @last s _ _ _ h1 h2 =>
    obtain ⟨t, ht⟩ := otherSign_total s
    exact ⟨t, .last h1 h2 ht⟩
  | @more s neg r part rest l h1 h2 h3 ih =>
    obtain ⟨rest', hr⟩ := ih
    obtain ⟨front, hf⟩ := suff ((text_suffix h2).trans (sign_suffix h1))
    obtain ⟨t, ht⟩ := otherSign_total (front ++ rest')
    exact ⟨t, .more h1 h2 hf hr ht⟩

/-! ## Totals -/

theorem nanos_neg {l l' : List GnuPart} (h : List.Forall₂ OppositePart l l') (t t' : GnuTotal) (ht : t'.nanoseconds = -t.nanoseconds) :
    (l'.foldl GnuTotal.add t').nanoseconds = -(l.foldl GnuTotal.add t).nanoseconds := by
  induction h generalizing t t' with
  | nil => exact ht
  | @cons p p' l l' h1 _ ih =>
    refine ih _ _ ?_
    cases p <;> cases p' <;> simp only [OppositePart] at h1
    · show clamp (_ + _) = -clamp _
      rw [ht, h1, ← clamp_neg]
      congr 1; omega
    · exact ht
    · exact ht

theorem part_inside {p p' : GnuPart} (h : OppositePart p p') (hi : p.Inside) :
    p'.total = ⟨-p.total.years, -p.total.months, -p.total.nanoseconds⟩ := by
  have key : ∀ k : Int, -2 ^ 63 < clampI64 k → clampI64 k < 2 ^ 63 - 1 → clampI64 (-k) = -clampI64 k := by
    intro k; unfold clampI64; omega
  cases p <;> cases p' <;> simp only [OppositePart] at h
  · simp [GnuPart.total, h]
  · obtain ⟨k, rfl, rfl⟩ := h
    simp only [GnuPart.total, key k hi.1 hi.2]; rfl
  · obtain ⟨k, rfl, rfl⟩ := h
    simp only [GnuPart.total, key k hi.1 hi.2]; rfl

theorem exactTotal_neg {l l' : List GnuPart} (h : List.Forall₂ OppositePart l l') (hi : ∀ p ∈ l, p.Inside) :
    exactTotal l' = ⟨-(exactTotal l).years, -(exactTotal l).months, -(exactTotal l).nanoseconds⟩ := by
  induction h with
  | nil => rfl
  | @cons p p' l l' h1 _ ih =>
    have e1 := part_inside h1 (hi p (by simp))
    have e2 := ih fun p hp => hi p (by simp [hp])
    simp only [exactTotal, GnuTotal.mk.injEq, List.map_cons, List.sum_cons] at e2 ⊢
    rw [e1]
    simp only
    omega

end Fundu.GnuNegated
