import Verif.Proofs.Renumbered
import Verif.Proofs.GnuCase
import Verif.Proofs.GnuSuffix
import Verif.Spec.Local
/-! # gnu: texts which differ only in their numbers -/
namespace Fundu.GnuRenumbered
open Fundu Fundu.Spec Fundu.Props Fundu.Gnu

variable {R : ℚ → ℚ → Prop}

theorem symm {s t : Bytes} (h : GnuRenumbered R s t) : GnuRenumbered (flip R) t s := by
  induction h with
  | done => exact .done
  | same h _ ih => exact .same h ih
  | whole h1 h2 h3 h4 h5 _ ih => exact .whole h2 h1 h3 h5 h4 ih
  | decimal h1 h2 h3 h4 h5 h6 h7 _ ih => exact .decimal h3 h4 h1 h2 h5 h7 h6 ih

theorem eq_symm {s t : Bytes} (h : GnuRenumbered Eq s t) : GnuRenumbered Eq t s := by
  have := symm h
  rwa [show flip (Eq (α := ℚ)) = Eq from by funext a b; exact propext eq_comm] at this

theorem digits_start {W x : Bytes} (h : SomeDigits W) : StartsWith IsDigit (W ++ x) := by
  cases W with
  | nil => exact absurd rfl h.1
  | cons b W => exact ⟨b, _, rfl, h.2 b (by simp)⟩

theorem nil {t : Bytes} (h : GnuRenumbered R [] t) : t = [] := by
  generalize hs : ([] : Bytes) = s at h
  cases h with
  | done => rfl
  | same _ _ => cases hs
  | whole h1 => exact absurd (List.append_eq_nil_iff.1 hs.symm).1 h1.1
  | decimal h1 => exact absurd (List.append_eq_nil_iff.1 hs.symm).1 h1.1

theorem nil' {s : Bytes} (h : GnuRenumbered R s []) : s = [] := nil (symm h)

theorem cons {b : UInt8} {s t : Bytes} (h : GnuRenumbered R (b :: s) t) (hb : ¬ IsDigit b) : ∃ t', t = b :: t' ∧ GnuRenumbered R s t' := by
  generalize hs : b :: s = s' at h
  cases h with
  | done => cases hs
  | same _ h => cases hs; exact ⟨_, rfl, h⟩
  | @whole _ _ s1 _ h1 =>
    have := digits_start (x := s1) h1
    rw [← hs] at this
    exact absurd (startsWith_cons.1 this) hb
  | @decimal _ F _ _ s1 _ h1 =>
    have := digits_start (x := 46 :: (F ++ s1)) h1
    rw [← hs] at this
    exact absurd (startsWith_cons.1 this) hb

theorem append {x r t : Bytes} (h : GnuRenumbered R (x ++ r) t) (hx : ∀ b ∈ x, ¬ IsDigit b) : ∃ r', t = x ++ r' ∧ GnuRenumbered R r r' := by
  induction x generalizing t with
  | nil => exact ⟨t, rfl, h⟩
  | cons b x ih =>
    obtain ⟨t', rfl, h'⟩ := cons h (hx b (by simp))
    obtain ⟨r', rfl, h''⟩ := ih h' fun c hc => hx c (by simp [hc])
    exact ⟨r', rfl, h''⟩

theorem starts_digit {s t : Bytes} (h : GnuRenumbered R s t) (hs : StartsWith IsDigit s) : StartsWith IsDigit t := by
  cases h with
  | done => exact hs
  | same h _ => exact absurd (startsWith_cons.1 hs) h
  | whole _ h2 => exact digits_start h2
  | decimal _ _ h2 => exact digits_start h2

theorem starts_other {p : UInt8 → Prop} (hp : ∀ b, p b → ¬ IsDigit b) {s t : Bytes} (h : GnuRenumbered R s t) (hs : StartsWith p s) : StartsWith p t := by
  obtain ⟨b, l, rfl, hb⟩ := hs
  obtain ⟨t', rfl, -⟩ := cons h (hp b hb)
  exact ⟨b, t', rfl, hb⟩

theorem starts_more {p : UInt8 → Prop} (hp : ∀ b, IsDigit b → p b) {s t : Bytes} (h : GnuRenumbered R s t) (hs : StartsWith p s) : StartsWith p t := by
  obtain ⟨b, l, rfl, hb⟩ := hs
  by_cases hd : IsDigit b
  · exact startsWith_mono hp (starts_digit h ⟨b, l, rfl, hd⟩)
  · obtain ⟨t', rfl, -⟩ := cons h hd
    exact ⟨b, t', rfl, hb⟩

theorem split_other {p : UInt8 → Prop} (hp : ∀ b, p b → ¬ IsDigit b) {s t w r : Bytes} (hs : Split p s w r) (h : GnuRenumbered R s t) :
    ∃ r', Split p t w r' ∧ GnuRenumbered R r r' := by
  obtain ⟨rfl, h2, h3⟩ := hs
  obtain ⟨r', rfl, g⟩ := append h fun b hb => hp b (h2 b hb)
  exact ⟨r', ⟨rfl, h2, fun hh => h3 (starts_other hp (symm g) hh)⟩, g⟩

theorem of_byte {p q : UInt8 → Prop} [DecidablePred p] [DecidablePred q] (h : ∀ n < 256, p (UInt8.ofNat n) → ¬ q (UInt8.ofNat n)) :
    ∀ b, p b → ¬ q b := by
  intro b
  have := h b.toNat b.toNat_lt
  rwa [UInt8.ofNat_toNat] at this

theorem space_digit : ∀ b, PosixSpace b → ¬ IsDigit b := of_byte (by decide +kernel)
theorem letter_digit : ∀ b, IsLetter b → ¬ IsDigit b := of_byte (by decide +kernel)
theorem sign_digit : ∀ b : UInt8, b = 43 ∨ b = 45 → ¬ IsDigit b := of_byte (by decide +kernel)

theorem gnu_wordAt {table : List (List Bytes × GnuLength)} {s s' r : Bytes} {len : GnuLength} (h : GnuWordAt table s len r)
    (hs : GnuRenumbered R s s') : ∃ r', GnuWordAt table s' len r' ∧ GnuRenumbered R r r' := by
  obtain ⟨w, h1, h2⟩ := h
  obtain ⟨r', g1, g2⟩ := split_other (fun b hb hd => hb (Or.inr (Or.inl hd))) h1 hs
  exact ⟨r', ⟨w, g1, h2⟩, g2⟩

theorem gnu_spaces {s s' r : Bytes} (h : Spaces s r) (hs : GnuRenumbered R s s') : ∃ r', Spaces s' r' ∧ GnuRenumbered R r r' := by
  obtain ⟨sp, h⟩ := h
  obtain ⟨r', g1, g2⟩ := split_other space_digit h hs
  exact ⟨r', ⟨sp, g1⟩, g2⟩

theorem gnu_gap {s s' r : Bytes} (h : GnuGap s r) (hs : GnuRenumbered R s s') : ∃ r', GnuGap s' r' ∧ GnuRenumbered R r r' := by
  obtain ⟨r', g1, g2⟩ := gnu_spaces h.1 hs
  refine ⟨r', ⟨g1, ?_⟩, g2⟩
  rintro rfl
  have := h.2 (nil' g2)
  subst this
  exact nil hs

theorem gnu_ago {s s' r : Bytes} (h : AgoAt s r) (hs : GnuRenumbered R s s') : ∃ r', AgoAt s' r' ∧ GnuRenumbered R r r' := by
  obtain ⟨sp, t, h1, h2, ⟨x, rfl, h3⟩, h4⟩ := h
  obtain ⟨t', g1, g2⟩ := split_other space_digit h1 hs
  obtain ⟨r', rfl, k⟩ := append g2 fun b hb => letter_digit b (sameText_letters h3 ago_letters b hb)
  refine ⟨r', ⟨sp, _, g1, h2, ⟨x, rfl, h3⟩, ?_⟩, k⟩
  rcases h4 with rfl | h4
  · exact Or.inl (nil k)
  · exact Or.inr (starts_more (fun b hb => Or.inr (Or.inl hb)) k h4)

theorem gnu_unitAt {s s' r : Bytes} {len : GnuLength} {ago : Bool} (h : GnuUnitAt s len ago r) (hs : GnuRenumbered R s s') :
    ∃ r', GnuUnitAt s' len ago r' ∧ GnuRenumbered R r r' := by
  obtain ⟨t, t', h1, h2, h3⟩ := h
  obtain ⟨a, g1, g2⟩ := gnu_wordAt h1 hs
  cases h2 with
  | absent hn =>
    obtain ⟨r', k1, k2⟩ := gnu_gap h3 g2
    refine ⟨r', ⟨a, a, g1, .absent ?_, k1⟩, k2⟩
    rintro ⟨x, hx⟩
    obtain ⟨y, hy, -⟩ := gnu_ago hx (symm g2)
    exact hn ⟨y, hy⟩
  | present hp =>
    obtain ⟨c, q1, q2⟩ := gnu_ago hp g2
    obtain ⟨r', k1, k2⟩ := gnu_gap h3 q2
    exact ⟨r', ⟨a, c, g1, .present q1, k1⟩, k2⟩

theorem numberEnd_digit {s : Bytes} (h : NumberEnd s) : ¬ StartsWith IsDigit s := fun g => h (startsWith_mono (fun _ hb => Or.inl hb) g)
theorem numberEnd_point {s : Bytes} (h : NumberEnd s) : ¬ StartsWith (fun b => b = 46 ∨ b = 101 ∨ b = 69) s :=
  fun g => h (startsWith_mono (fun _ hb => Or.inr hb) g)
theorem numberEnd_exponent {s : Bytes} (h : NumberEnd s) : ¬ StartsWith (fun b => b = 101 ∨ b = 69) s :=
  fun g => h (startsWith_mono (fun _ hb => Or.inr (Or.inr hb)) g)

theorem split_digits {W s : Bytes} (h : SomeDigits W) (hs : ¬ StartsWith IsDigit s) : Split IsDigit (W ++ s) W s := ⟨rfl, h.2, hs⟩
theorem point_digit (s : Bytes) : ¬ StartsWith IsDigit (46 :: s) := by rw [startsWith_cons]; decide

theorem gnu_digits {s s' W r : Bytes} (h : GnuDigits s W r) (hs : GnuRenumbered R s s') :
    ∃ W' r', GnuDigits s' W' r' ∧ R (decimal W) (decimal W') ∧ GnuRenumbered R r r' := by
  obtain ⟨h1, h2, h3⟩ := h
  cases hs with
  | done => exact absurd (List.append_eq_nil_iff.1 h1.1.symm).1 h2
  | same g _ =>
    cases W with
    | nil => exact absurd rfl h2
    | cons b W =>
      have := h1.1
      rw [List.cons_append] at this
      cases this
      exact absurd (h1.2.1 _ List.mem_cons_self) g
  | whole g1 g2 g3 g4 g5 g6 =>
    obtain ⟨rfl, rfl⟩ := split_unique h1 (split_digits g1 (numberEnd_digit g4))
    exact ⟨_, _, ⟨split_digits g2 (numberEnd_digit g5), g2.1, numberEnd_point g5⟩, g3, g6⟩
  | decimal g1 g2 =>
    obtain ⟨rfl, rfl⟩ := split_unique h1 (split_digits g1 (point_digit _))
    exact absurd ⟨46, _, rfl, Or.inl rfl⟩ h3

theorem gnu_decimal {s s' W F r : Bytes} (h : GnuDecimal s W F r) (hs : GnuRenumbered R s s') :
    ∃ W' F' r', GnuDecimal s' W' F' r' ∧ R (literalValue W F 0) (literalValue W' F' 0) ∧ GnuRenumbered R r r' := by
  obtain ⟨t, h1, h2, h3, h4, h5⟩ := h
  cases hs with
  | done => exact absurd (List.append_eq_nil_iff.1 h1.1.symm).1 h2
  | same g _ =>
    cases W with
    | nil => exact absurd rfl h2
    | cons b W =>
      have := h1.1
      rw [List.cons_append] at this
      cases this
      exact absurd (h1.2.1 _ List.mem_cons_self) g
  | whole g1 g2 g3 g4 g5 g6 =>
    obtain ⟨rfl, rfl⟩ := split_unique h1 (split_digits g1 (numberEnd_digit g4))
    exact absurd ⟨46, _, rfl, Or.inl rfl⟩ (numberEnd_point g4)
  | decimal g1 g2 g3 g4 g5 g6 g7 g8 =>
    obtain ⟨rfl, e⟩ := split_unique h1 (split_digits g1 (point_digit _))
    cases e
    obtain ⟨rfl, rfl⟩ := split_unique h3 (split_digits g2 (numberEnd_digit g6))
    exact ⟨_, _, _, ⟨_, split_digits g3 (point_digit _), g3.1, split_digits g4 (numberEnd_digit g7), g4.1, numberEnd_exponent g7⟩, g5, g8⟩

theorem gnu_noUnit {s s' r : Bytes} (h : NoUnit s r) (hs : GnuRenumbered R s s') : ∃ r', NoUnit s' r' ∧ GnuRenumbered R r r' := by
  obtain ⟨_, h1, h2, h3, rfl⟩ := h
  obtain ⟨r', g1, g2⟩ := gnu_gap ⟨h1, h2⟩ hs
  refine ⟨r', ⟨r', g1.1, g1.2, ?_, rfl⟩, g2⟩
  rintro ⟨len, t, ht⟩
  obtain ⟨t', ht', -⟩ := gnu_wordAt ht (symm g2)
  exact h3 ⟨len, t', ht'⟩

theorem numeral_digit {w : Bytes} {n : Int} (h : GnuNumeral w n) : ∀ b ∈ w, ¬ IsDigit b := by
  obtain ⟨v, hv, hs⟩ := h
  have key : ∀ p ∈ gnuNumerals, ∀ b ∈ p.1, IsLetter b := by decide +kernel
  exact fun b hb => letter_digit b (sameText_letters hs (key _ hv) b hb)

/-- the word `ago` is somewhere in the text -/
def AgoIn (s : Bytes) : Prop := ∃ w, SameText w (b! "ago") ∧ OccursIn w s

theorem agoIn_suffix {a s : Bytes} (h : AgoIn s) : AgoIn (a ++ s) := by
  obtain ⟨w, h1, x, y, rfl⟩ := h
  exact ⟨w, h1, a ++ x, y, by simp only [List.append_assoc]⟩

theorem agoIn_unit {s r : Bytes} {len : GnuLength} (h : GnuUnitAt s len true r) : AgoIn s := by
  obtain ⟨t, t', ⟨w, h1, -⟩, h2, h3⟩ := h
  cases h2 with
  | present h =>
    obtain ⟨sp, x, h4, -, ⟨y, h5, h6⟩, -⟩ := h
    rw [h1.1, h4.1, h5]
    exact agoIn_suffix (agoIn_suffix ⟨y, h6, [], t', rfl⟩)

theorem length_pos {s r : Bytes} {len : GnuLength} {ago : Bool} (h : GnuUnitAt s len ago r) : ∀ n, len = .seconds n → 0 ≤ n := by
  rintro n rfl
  obtain ⟨t, t', ⟨w, -, names, h1, -⟩, -⟩ := h
  simp only [gnuUnits, List.mem_cons, Prod.mk.injEq, GnuLength.seconds.injEq, List.not_mem_nil, reduceCtorEq, and_false, or_false] at h1
  omega

/-- the same part, except for the number; a minus sign and `ago` only if they are there -/
inductive SamePart (R : ℚ → ℚ → Prop) (neg : Bool) (s : Bytes) : GnuPart → GnuPart → Prop
  | refl {p} : SamePart R neg s p p
  | whole {W W' ago len} : R (decimal W) (decimal W') → (ago = true → AgoIn s) → (∀ n, len = .seconds n → 0 ≤ n) →
      SamePart R neg s (timesLength (signedBy neg ago (decimal W)) len) (timesLength (signedBy neg ago (decimal W')) len)
  | decimal {W F W' F' ago} : R (literalValue W F 0) (literalValue W' F' 0) → (ago = true → AgoIn s) →
      SamePart R neg s (.exact (clamp (signedBy neg ago (decimalNanos W F)))) (.exact (clamp (signedBy neg ago (decimalNanos W' F'))))

theorem samePart_suffix {neg : Bool} {a s : Bytes} {p q : GnuPart} (h : SamePart R neg s p q) : SamePart R neg (a ++ s) p q := by
  cases h with
  | refl => exact .refl
  | whole h1 h2 h3 => exact .whole h1 (fun g => agoIn_suffix (h2 g)) h3
  | decimal h1 h2 => exact .decimal h1 (fun g => agoIn_suffix (h2 g))

theorem ago_digits {s W r r' rest : Bytes} {len : GnuLength} {ago : Bool} (h1 : GnuDigits s W r) (h2 : Spaces r r')
    (h3 : GnuUnitAt r' len ago rest) : ago = true → AgoIn s := by
  rintro rfl
  obtain ⟨sp, h2⟩ := h2
  rw [h1.1.1, h2.1]
  exact agoIn_suffix (agoIn_suffix (agoIn_unit h3))

theorem ago_decimal {s W F r r' rest : Bytes} {len : GnuLength} {ago : Bool} (h1 : GnuDecimal s W F r) (h2 : Spaces r r')
    (h3 : GnuUnitAt r' len ago rest) : ago = true → AgoIn s := by
  rintro rfl
  obtain ⟨sp, h2⟩ := h2
  obtain ⟨t, k1, -, k2, -⟩ := h1
  rw [k1.1, k2.1, h2.1]
  exact agoIn_suffix (agoIn_suffix (a := [46]) (agoIn_suffix (agoIn_suffix (agoIn_unit h3))))

theorem gnu_text {neg : Bool} {s s' r : Bytes} {part : GnuPart} (h : GnuText neg s part r) (hs : GnuRenumbered R s s') :
    ∃ part' r', GnuText neg s' part' r' ∧ SamePart R neg s part part' ∧ GnuRenumbered R r r' := by
  cases h with
  | numberUnit h1 h2 h3 =>
    obtain ⟨W', a, g1, gv, g2⟩ := gnu_digits h1 hs
    obtain ⟨b, k1, k2⟩ := gnu_spaces h2 g2
    obtain ⟨c, q1, q2⟩ := gnu_unitAt h3 k2
    exact ⟨_, c, .numberUnit g1 k1 q1, .whole gv (ago_digits h1 h2 h3) (length_pos h3), q2⟩
  | number h1 h2 =>
    obtain ⟨W', a, g1, gv, g2⟩ := gnu_digits h1 hs
    obtain ⟨b, k1, k2⟩ := gnu_noUnit h2 g2
    exact ⟨_, b, .number g1 k1, .whole gv (fun h => by cases h) (fun n hn => by cases hn; decide), k2⟩
  | decimalUnit h1 h2 h3 =>
    obtain ⟨W', F', a, g1, gv, g2⟩ := gnu_decimal h1 hs
    obtain ⟨b, k1, k2⟩ := gnu_spaces h2 g2
    obtain ⟨c, q1, q2⟩ := gnu_unitAt h3 k2
    exact ⟨_, c, .decimalUnit g1 k1 q1, .decimal gv (ago_decimal h1 h2 h3), q2⟩
  | decimal h1 h2 =>
    obtain ⟨W', F', a, g1, gv, g2⟩ := gnu_decimal h1 hs
    obtain ⟨b, k1, k2⟩ := gnu_noUnit h2 g2
    exact ⟨_, b, .decimal g1 k1, .decimal gv (fun h => by cases h), k2⟩
  | keyword h1 h2 =>
    obtain ⟨a, g1, g2⟩ := gnu_wordAt h1 hs
    obtain ⟨b, k1, k2⟩ := gnu_gap h2 g2
    exact ⟨_, b, .keyword g1 k1, .refl, k2⟩
  | unit h1 =>
    obtain ⟨a, g1, g2⟩ := gnu_unitAt h1 hs
    exact ⟨_, a, .unit g1, .refl, g2⟩
  | numeral h1 h2 h3 h4 =>
    obtain ⟨rfl, p2, p3⟩ := h1
    obtain ⟨a, rfl, g3⟩ := append hs (numeral_digit h2)
    obtain ⟨b, k1, k2⟩ := gnu_spaces h3 g3
    obtain ⟨c, q1, q2⟩ := gnu_unitAt h4 k2
    refine ⟨_, c, .numeral ⟨rfl, p2, fun hh => ?_⟩ h2 k1 q1, .refl, q2⟩
    exact p3 (starts_more (fun b hb hp => space_digit b hp hb) (symm g3) hh)

theorem gnu_sign {s s' r : Bytes} {neg : Bool} (h : GnuSign s neg r) (hs : GnuRenumbered R s s') : ∃ r', GnuSign s' neg r' ∧ GnuRenumbered R r r' := by
  cases h with
  | absent h => exact ⟨s', .absent fun hh => h (starts_other sign_digit (symm hs) hh), hs⟩
  | plus h =>
    obtain ⟨t, rfl, g2⟩ := cons hs (by decide)
    obtain ⟨r', k1, k2⟩ := gnu_spaces h g2
    exact ⟨r', .plus k1, k2⟩
  | minus h =>
    obtain ⟨t, rfl, g2⟩ := cons hs (by decide)
    obtain ⟨r', k1, k2⟩ := gnu_spaces h g2
    exact ⟨r', .minus k1, k2⟩

theorem gnu_relative {s s' : Bytes} {l : List GnuPart} (h : RelativeTime s l) (hs : GnuRenumbered R s s') :
    ∃ l', RelativeTime s' l' ∧ List.Forall₂ (fun p q => ∃ neg, (neg = true → (45 : UInt8) ∈ s) ∧ SamePart R neg s p q) l l' := by
  have sgn : ∀ {s r : Bytes} {neg : Bool}, GnuSign s neg r → neg = true → (45 : UInt8) ∈ s := by
    intro s r neg h e
    cases h with
    | absent _ => cases e
    | plus _ => cases e
    | minus _ => exact List.mem_cons_self
  induction h generalizing s' with
  | last h1 h2 =>
    obtain ⟨a, g1, g2⟩ := gnu_sign h1 hs
    obtain ⟨p, b, k1, kp, k2⟩ := gnu_text h2 g2
    obtain rfl := nil k2
    obtain ⟨x, hx⟩ := gnuSign_suffix h1
    exact ⟨_, .last g1 k1, .cons ⟨_, sgn h1, by rw [hx]; exact samePart_suffix kp⟩ .nil⟩
  | more h1 h2 h3 ih =>
    obtain ⟨a, g1, g2⟩ := gnu_sign h1 hs
    obtain ⟨p, b, k1, kp, k2⟩ := gnu_text h2 g2
    obtain ⟨l', q1, q2⟩ := ih k2
    obtain ⟨x, hx⟩ := gnuSign_suffix h1
    obtain ⟨y, hy⟩ := gnuText_suffix h2
    refine ⟨_, .more g1 k1 q1, .cons ⟨_, sgn h1, by rw [hx]; exact samePart_suffix kp⟩ (q2.imp ?_)⟩
    rintro p q ⟨neg, m1, m2⟩
    refine ⟨neg, fun e => ?_, ?_⟩
    · rw [hx, hy]
      exact List.mem_append_right _ (List.mem_append_right _ (m1 e))
    · rw [hx, hy]
      exact samePart_suffix (samePart_suffix m2)

theorem decimalNanos_literal (W F : Bytes) : decimalNanos W F = ⌊literalValue W F 0 * 10 ^ 9⌋ := by
  unfold decimalNanos literalValue
  rw [zpow_zero, mul_one]

theorem samePart_eq {neg : Bool} {s : Bytes} {p q : GnuPart} (h : SamePart Eq neg s p q) : p = q := by
  cases h with
  | refl => rfl
  | whole h _ _ => rw [Nat.cast_inj.1 h]
  | decimal h _ => rw [decimalNanos_literal, h, ← decimalNanos_literal]

theorem gnu_relative_eq {s s' : Bytes} {l : List GnuPart} (h : RelativeTime s l) (hs : GnuRenumbered Eq s s') : RelativeTime s' l := by
  obtain ⟨l', h1, h2⟩ := gnu_relative h hs
  have : l = l' := by
    clear h1 h
    induction h2 with
    | nil => rfl
    | cons h _ ih =>
      obtain ⟨neg, -, h⟩ := h
      rw [samePart_eq h, ih]
  rw [this]
  exact h1

end Fundu.GnuRenumbered
