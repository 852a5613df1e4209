import Verif.Spec.Negated
import Verif.Proofs.Concat
import Verif.Proofs.OptionsMultiple
/-!
# What follows a duration can be replaced by a text with a sign
-/
namespace Fundu.Props.Negated
open Fundu Fundu.Spec Fundu.Props Fundu.Props.Concat

variable {cfg : Config} {units : TimeUnitsLike} {keywords : Option TimeUnitsLike} {numerals : Option NumbersLike} {T T' : Bytes}

theorem startsWith_swap {p : UInt8 → Prop} {y : Bytes} (hy : y ≠ []) : StartsWith p (y ++ T') ↔ StartsWith p (y ++ T) := by
  rw [startsWith_append hy, startsWith_append hy]

variable (hT : T ≠ []) (hS : StartsWith (fun b => b = 43 ∨ b = 45) T')
include hS

theorem sign_not {p : UInt8 → Prop} (h1 : ¬ p 43) (h2 : ¬ p 45) : ¬ StartsWith p T' := by
  obtain ⟨b, l, rfl, hb⟩ := hS
  rw [startsWith_cons]
  rcases hb with rfl | rfl
  · exact h1
  · exact h2

theorem sign_is {p : UInt8 → Prop} (h1 : p 43) (h2 : p 45) : StartsWith p T' := by
  obtain ⟨b, l, rfl, hb⟩ := hS
  rw [startsWith_cons]
  rcases hb with rfl | rfl
  · exact h1
  · exact h2

theorem not_startsWith_swap {p : UInt8 → Prop} (h1 : ¬ p 43) (h2 : ¬ p 45) {y : Bytes} (h : ¬ StartsWith p (y ++ T)) :
    ¬ StartsWith p (y ++ T') := by
  by_cases hy : y = []
  · subst hy; exact sign_not hS h1 h2
  · rwa [startsWith_swap (T := T) hy]

/-- a run ends in front of what is replaced -/
theorem split_swap {p : UInt8 → Prop} (h1 : ¬ p 43) (h2 : ¬ p 45) {x w y : Bytes} (h : Split p (x ++ T) w (y ++ T)) :
    Split p (x ++ T') w (y ++ T') := by
  have e : x = w ++ y := by
    have := h.1
    rw [← List.append_assoc] at this
    exact List.append_cancel_right this
  subst e
  exact ⟨by rw [List.append_assoc], h.2.1, not_startsWith_swap hS h1 h2 h.2.2⟩

omit hS in
theorem split_suffix {p : UInt8 → Prop} {s w r : Bytes} (h : Split p s w r) : r <:+ s := ⟨w, h.1.symm⟩
omit hS in
theorem afterWord_suffix {w s r : Bytes} (h : AfterWord w s r) : r <:+ s := by obtain ⟨x, hx, -⟩ := h; exact ⟨x, hx.symm⟩
omit hS in
theorem afterDelims_suffix {a : Bool} {d : Delimiter} {s r : Bytes} (h : AfterDelims a d s r) : r <:+ s := by
  cases a with
  | false => have : r = s := h; subst this; exact List.suffix_refl _
  | true => obtain ⟨ds, hd⟩ := (show ∃ ds, Split (d · = true) s ds r from h); exact split_suffix hd
omit hS in
theorem fraction_suffix {W s F r : Bytes} (h : FractionPart cfg W s F r) : r <:+ s := by
  cases h with
  | absent => exact List.suffix_refl _
  | present _ h _ => exact (split_suffix h).trans (List.suffix_cons _ _)
omit hS in
theorem exponent_suffix {s r : Bytes} {e : Int} (h : ExponentPart cfg s e r) : r <:+ s := by
  cases h with
  | absent => exact List.suffix_refl _
  | present _ _ h1 h2 _ _ =>
    refine (split_suffix h2).trans (List.IsSuffix.trans ?_ (List.suffix_cons _ _))
    cases h1 with
    | absent => exact List.suffix_refl _
    | plus => exact List.suffix_cons _ _
    | minus => exact List.suffix_cons _ _
omit hS in
theorem number_suffix {s W F r : Bytes} {e : Int} (h : NumberText cfg s W F e r) : r <:+ s := by
  obtain ⟨r1, r2, h1, h2, h3⟩ := h
  exact (exponent_suffix h3).trans ((fraction_suffix h2).trans (split_suffix h1))
omit hS in
theorem connection_suffix {s r : Bytes} (h : Connection cfg s r) : r <:+ s := by
  cases h with
  | absent => exact List.suffix_refl _
  | delims h1 _ _ _ => exact split_suffix h1
  | conjunction h1 _ _ _ h2 h3 _ _ => exact (split_suffix h3).trans ((afterWord_suffix h2).trans (split_suffix h1))
omit hS in
theorem ago_suffix {s r : Bytes} {m m' : Multiplier} (h : AgoPart cfg s m m' r) : r <:+ s := by
  cases h with
  | absent => exact List.suffix_refl _
  | other => exact List.suffix_refl _
  | ago _ h1 _ h2 => exact (afterWord_suffix h2.1).trans (split_suffix h1)
omit hS in
theorem wordIn_suffix {stop : UInt8 → Prop} {tab : TimeUnitsLike} {s r : Bytes} {u} (h : WordIn stop tab s u r) : r <:+ s := by
  obtain ⟨w, h, -⟩ := h; exact split_suffix h

theorem exponent_swap {x y : Bytes} {e : Int} (h : ExponentPart cfg (x ++ T) e (y ++ T)) : ExponentPart cfg (x ++ T') e (y ++ T') := by
  generalize hs : x ++ T = s at h
  generalize hr : y ++ T = r at h
  cases h with
  | absent k =>
    have : x = y := List.append_cancel_right (hs.trans hr.symm)
    subst this hs
    exact .absent (not_startsWith_swap hS (by decide) (by decide) k)
  | @present c r0 neg r' E rest k1 k2 k3 k4 k5 k6 =>
    subst hr
    -- the sign and the digits of the exponent are in front of `T`
    have e1 : ∃ z, r' = z ++ T ∧ z ≠ [] := by
      refine ⟨E ++ y, by rw [k4.1, List.append_assoc], by simp [k5]⟩
    obtain ⟨z, rfl, hz⟩ := e1
    have k4' := split_swap hS (p := IsDigit) (by decide) (by decide) k4
    cases k3 with
    | absent k =>
      have ex : x = c :: z := List.append_cancel_right (bs := T) (by rw [hs]; rfl)
      subst ex
      exact .present k1 k2 (.absent (fun h => k ((startsWith_swap hz).1 h))) k4' k5 k6
    | plus =>
      have ex : x = c :: 43 :: z := List.append_cancel_right (bs := T) (by rw [hs]; rfl)
      subst ex
      exact .present (neg := false) k1 k2 .plus k4' k5 k6
    | minus =>
      have ex : x = c :: 45 :: z := List.append_cancel_right (bs := T) (by rw [hs]; rfl)
      subst ex
      exact .present (neg := true) k1 k2 .minus k4' k5 k6

theorem fraction_swap {W F x y : Bytes} (h : FractionPart cfg W (x ++ T) F (y ++ T)) : FractionPart cfg W (x ++ T') F (y ++ T') := by
  generalize hs : x ++ T = s at h
  generalize hr : y ++ T = r at h
  cases h with
  | absent k1 k2 =>
    have : x = y := List.append_cancel_right (hs.trans hr.symm)
    subst this hs
    exact .absent k1 (not_startsWith_swap hS (by decide) (by decide) k2)
  | @present r0 _ _ k1 k2 k3 =>
    subst hr
    have e1 : r0 = (F ++ y) ++ T := by rw [k2.1, List.append_assoc]
    subst e1
    have ex : x = 46 :: (F ++ y) := List.append_cancel_right (bs := T) (by rw [hs]; rfl)
    subst ex
    exact .present k1 (split_swap hS (by decide) (by decide) k2) k3

theorem number_swap {x y W F : Bytes} {e : Int} (h : NumberText cfg (x ++ T) W F e (y ++ T)) : NumberText cfg (x ++ T') W F e (y ++ T') := by
  obtain ⟨r1, r2, h1, h2, h3⟩ := h
  obtain ⟨b, rfl⟩ : ∃ b, r2 = b ++ T := by
    obtain ⟨b, hb⟩ := exponent_suffix h3; exact ⟨b ++ y, by rw [← hb, List.append_assoc]⟩
  obtain ⟨a, rfl⟩ : ∃ a, r1 = a ++ T := by
    obtain ⟨c, hc⟩ := fraction_suffix h2; exact ⟨c ++ b, by rw [← hc, List.append_assoc]⟩
  exact ⟨a ++ T', b ++ T', split_swap hS (by decide) (by decide) h1, fraction_swap hS h2, exponent_swap hS h3⟩

/-- a word without signs is found in front of what is replaced -/
theorem afterWord_unswap {w z r : Bytes} (hw : ∀ b ∈ w, b ≠ 43 ∧ b ≠ 45) (h : AfterWord w (z ++ T') r) :
    ∃ r', AfterWord w z r' ∧ r = r' ++ T' := by
  obtain ⟨x, hx, hs⟩ := h
  rcases List.append_eq_append_iff.1 hx with ⟨a, ha, hb⟩ | ⟨a, ha, hb⟩
  · cases a with
    | nil => exact ⟨[], ⟨x, by simpa using ha.symm, hs⟩, by simpa using hb.symm⟩
    | cons c a =>
      exfalso
      obtain ⟨b, l, rfl, hb'⟩ := hS
      have : b = c := by injection hb
      subst this
      have hm : b ∈ x := by rw [ha]; simp
      rcases hb' with rfl | rfl
      · exact (hw 43 (sameText_mem hs hm (by decide))).1 rfl
      · exact (hw 45 (sameText_mem hs hm (by decide))).2 rfl
  · exact ⟨a, ⟨x, ha, hs⟩, hb⟩

theorem ne_of_sign : T' ≠ [] := by obtain ⟨b, l, rfl, -⟩ := hS; simp

variable (hn : NoSigns cfg)
include hn

theorem outer_swap {y : Bytes} (h : ¬ StartsWith (cfg.outerDelimiter · = true) (y ++ T)) :
    ¬ StartsWith (cfg.outerDelimiter · = true) (y ++ T') :=
  not_startsWith_swap hS (fun h => (hn.delimiters _ (Or.inr h)).1 rfl) (fun h => (hn.delimiters _ (Or.inr h)).2 rfl) h

theorem inner_swap {y : Bytes} (h : ¬ StartsWith (cfg.innerDelimiter · = true) (y ++ T)) :
    ¬ StartsWith (cfg.innerDelimiter · = true) (y ++ T') :=
  not_startsWith_swap hS (fun h => (hn.delimiters _ (Or.inl h)).1 rfl) (fun h => (hn.delimiters _ (Or.inl h)).2 rfl) h

theorem splitOuter_swap {x w y : Bytes} (h : Split (cfg.outerDelimiter · = true) (x ++ T) w (y ++ T)) :
    Split (cfg.outerDelimiter · = true) (x ++ T') w (y ++ T') :=
  split_swap hS (fun h => (hn.delimiters _ (Or.inr h)).1 rfl) (fun h => (hn.delimiters _ (Or.inr h)).2 rfl) h

theorem splitInner_swap {x w y : Bytes} (h : Split (cfg.innerDelimiter · = true) (x ++ T) w (y ++ T)) :
    Split (cfg.innerDelimiter · = true) (x ++ T') w (y ++ T') :=
  split_swap hS (fun h => (hn.delimiters _ (Or.inl h)).1 rfl) (fun h => (hn.delimiters _ (Or.inl h)).2 rfl) h

theorem connection_swap {y : Bytes} (h : Connection cfg (y ++ T) T) : Connection cfg (y ++ T') T' := by
  generalize hs : y ++ T = s at h
  cases h with
  | absent k =>
    have e : y = [] := by
      have := congrArg List.length hs
      simp only [List.length_append] at this
      exact List.eq_nil_of_length_eq_zero (by omega)
    subst e
    exact .absent (outer_swap hS hn (y := []) (T := T) k)
  | delims k1 k2 k3 k4 =>
    subst hs
    refine .delims (splitOuter_swap hS hn (y := []) k1) k2 (ne_of_sign hS) ?_
    rintro w hw ⟨r', hr⟩
    obtain ⟨t, ht, -⟩ := afterWord_unswap hS (z := []) (hn.conjunctions w hw) hr
    exact k4 w hw ⟨_, afterWord_append ht T⟩
  | @conjunction ds r before w after r' ds' _ k1 k2 k3 k4 k5 k6 k7 k8 =>
    subst hs
    have e1 : r' = ds' ++ T := k6.1
    subst e1
    obtain ⟨x, rfl, hx⟩ := k5
    rw [← List.append_assoc] at k1 k4
    refine .conjunction (splitOuter_swap hS hn k1) k2 k3 ?_ ⟨x, by rw [List.append_assoc], hx⟩ (splitOuter_swap hS hn (y := []) k6)
      (ne_of_sign hS) (fun _ => sign_is hS (by decide) (by decide))
    rintro v hv ⟨r', hr⟩
    obtain ⟨t, ht, -⟩ := afterWord_unswap hS (hn.conjunctions v (by rw [k3]; simp [hv])) hr
    exact k4 v hv ⟨_, afterWord_append ht T⟩

omit hS hn in
/-- what a connection consists of -/
theorem connection_end {y : Bytes} (h : Connection cfg (y ++ T) T) :
    y = [] ∨ ((∃ b l, y = b :: l ∧ cfg.outerDelimiter b = true) ∧
      ((∃ l b, y = l ++ [b] ∧ cfg.outerDelimiter b = true) ∨ StartsWith NextDuration T)) := by
  generalize hs : y ++ T = s at h
  have hd : ∀ {ds : Bytes}, ds ≠ [] → (∀ b ∈ ds, cfg.outerDelimiter b = true) →
      (∃ b l, ds = b :: l ∧ cfg.outerDelimiter b = true) ∧ ∃ l b, ds = l ++ [b] ∧ cfg.outerDelimiter b = true := by
    intro ds h1 h2
    constructor
    · cases ds with
      | nil => exact absurd rfl h1
      | cons b l => exact ⟨b, l, rfl, h2 b (by simp)⟩
    · obtain ⟨l, b, rfl⟩ := (List.eq_nil_or_concat ds).resolve_left h1
      exact ⟨l, b, by simp, h2 b (by simp)⟩
  cases h with
  | absent k =>
    left
    have := congrArg List.length hs
    simp only [List.length_append] at this
    exact List.eq_nil_of_length_eq_zero (by omega)
  | @delims ds _ k1 k2 k3 k4 =>
    subst hs
    have e : y = ds := List.append_cancel_right k1.1
    subst e
    exact Or.inr ⟨(hd k2 k1.2.1).1, Or.inl (hd k2 k1.2.1).2⟩
  | @conjunction ds r before w after r' ds' _ k1 k2 k3 k4 k5 k6 k7 k8 =>
    subst hs
    have e1 : r' = ds' ++ T := k6.1
    subst e1
    obtain ⟨x, rfl, hx⟩ := k5
    have e : y = ds ++ (x ++ ds') := List.append_cancel_right (bs := T) (by rw [k1.1]; simp only [List.append_assoc])
    subst e
    obtain ⟨b, l, rfl, hb⟩ := (hd k2 k1.2.1).1
    refine Or.inr ⟨⟨b, _, rfl, hb⟩, ?_⟩
    by_cases h0 : ds' = []
    · exact Or.inr (k8 h0)
    · obtain ⟨l', b', rfl, hb'⟩ := (hd h0 k6.2.1).2
      exact Or.inl ⟨b :: l ++ (x ++ l'), b', by simp, hb'⟩

omit hS hn in
theorem connection_self (h : Connection cfg T T) : ¬ StartsWith (cfg.outerDelimiter · = true) T := by
  have key : ∀ {s r ds : Bytes}, Split (cfg.outerDelimiter · = true) s ds r → ds ≠ [] → r.length < s.length := by
    intro s r ds h1 h2
    have h3 := List.length_pos_of_ne_nil h2
    rw [h1.1, List.length_append]
    omega
  have gen : ∀ {s r : Bytes}, Connection cfg s r → s = r → ¬ StartsWith (cfg.outerDelimiter · = true) s := by
    intro s r h e
    cases h with
    | absent k => exact k
    | delims k1 k2 _ _ =>
      have := key k1 k2
      rw [e] at this; omega
    | conjunction k1 k2 _ _ k5 k6 _ _ =>
      have h1 := key k1 k2
      have h2 := (afterWord_suffix k5).length_le
      have h3 := (split_suffix k6).length_le
      rw [e] at h1; omega
  exact gen h rfl

omit hS hn in
theorem afterWord_swap {w x z : Bytes} (h : AfterWord w (x ++ T) (z ++ T)) (T' : Bytes) : AfterWord w (x ++ T') (z ++ T') := by
  obtain ⟨v, hv, hs⟩ := h
  have : x = v ++ z := List.append_cancel_right (bs := T) (by rw [hv, List.append_assoc])
  subst this
  exact ⟨v, by rw [List.append_assoc], hs⟩

theorem afterDelims_swap {a : Bool} {x z : Bytes} (h : AfterDelims a cfg.innerDelimiter (x ++ T) (z ++ T)) :
    AfterDelims a cfg.innerDelimiter (x ++ T') (z ++ T') := by
  cases a with
  | false =>
    have : z ++ T = x ++ T := h
    have := List.append_cancel_right this
    subst this; rfl
  | true => obtain ⟨ds, hd⟩ := (show ∃ ds, Split (cfg.innerDelimiter · = true) (x ++ T) ds (z ++ T) from h); exact ⟨ds, splitInner_swap hS hn hd⟩

variable (ho : Orderly cfg units keywords numerals)
include ho

theorem ago_swap {y z : Bytes} {m m' : Multiplier} (h : AgoPart cfg (y ++ T) m m' (z ++ T)) (hc : Connection cfg (z ++ T) T) :
    AgoPart cfg (y ++ T') m m' (z ++ T') := by
  generalize hs : y ++ T = s at h
  generalize hr : z ++ T = r0 at h
  cases h with
  | absent k =>
    have e : z = y := List.append_cancel_right (hr.trans hs.symm)
    subst e hs
    exact .absent fun ha => inner_swap hS hn (k ha)
  | @other ds r k1 k2 k3 k4 k5 =>
    have e : z = y := List.append_cancel_right (hr.trans hs.symm)
    subst e hs
    obtain ⟨ds1, y2, hy⟩ := split_exists (cfg.innerDelimiter · = true) z
    have hsp : Split (cfg.innerDelimiter · = true) (z ++ T') ds1 (y2 ++ T') := by
      refine Concat.split_append hy ?_
      right
      exact inner_swap hS hn (y := []) (T := []) not_startsWith_nil
    by_cases h0 : ds1 = []
    · subst h0
      refine .absent fun _ => ?_
      have : z = y2 := hy.1
      rw [this]; exact hsp.2.2
    · refine .other k1 hsp h0 (by simp [ne_of_sign hS]) ?_
      rintro ⟨rest, g1, g2⟩
      obtain ⟨r', hr', rfl⟩ := afterWord_unswap hS (by decide) g1
      have hy2 : y2 ≠ [] := by
        rintro rfl
        obtain ⟨x, hx, hs⟩ := hr'
        have : x = [] := by
          cases x with
          | nil => rfl
          | cons => cases hx
        subst this; revert hs; decide
      obtain ⟨-, rfl⟩ := split_unique k2 (Concat.split_append hy (X := T) (Or.inl hy2))
      refine k5 ⟨r' ++ T, afterWord_append hr' T, Or.inr ?_⟩
      by_cases hr0 : r' = []
      · subst hr0
        rcases connection_end hc with h | ⟨-, ⟨l, b, hl, hb⟩ | h⟩
        · subst h
          have := hy.1
          exact absurd (List.append_eq_nil_iff.1 this.symm).1 h0
        · exfalso
          obtain ⟨x, hx, hs⟩ := hr'
          rw [List.append_nil] at hx
          subst hx
          have hlast : b ∈ y2 := by
            have e : ds1 ++ y2 = l ++ [b] := hy.1.symm.trans hl
            have := congrArg List.getLast? e
            rw [List.getLast?_append_of_ne_nil _ hy2, List.getLast?_append] at this
            exact List.mem_of_getLast? this
          exact (ho.delimiters b (Or.inr hb)).1 (sameText_letters hs ago_letters b hlast)
        · exact startsWith_mono (fun _ => Or.inr) h
      · rcases g2 with g2 | g2
        · exact absurd (List.append_eq_nil_iff.1 g2).1 hr0
        · rwa [startsWith_swap (T := T) hr0] at g2
  | @ago ds r _ k1 k2 k3 k4 =>
    subst hs hr
    obtain ⟨⟨x, rfl, hx⟩, k5⟩ := k4
    rw [← List.append_assoc] at k2
    refine .ago k1 (splitInner_swap hS hn k2) k3 ⟨⟨x, by rw [List.append_assoc], hx⟩, Or.inr ?_⟩
    by_cases hz : z = []
    · subst hz; exact sign_is hS (Or.inr (by decide)) (Or.inr (by decide))
    · rw [startsWith_swap (T := T) hz]
      exact k5.resolve_left (by simp [hz])

omit hn ho in
theorem wordIn_swap {stop : UInt8 → Prop} (h1 : stop 43) (h2 : stop 45) {tab : TimeUnitsLike} {x y : Bytes} {u}
    (h : WordIn stop tab (x ++ T) u (y ++ T)) : WordIn stop tab (x ++ T') u (y ++ T') := by
  obtain ⟨w, k1, k2, k3⟩ := h
  exact ⟨w, split_swap hS (fun h => h h1) (fun h => h h2) k1, k2, k3⟩

omit hS hn ho in
/-- a word which ends in front of what is replaced -/
theorem wordIn_unswap {stop : UInt8 → Prop} {tab : TimeUnitsLike} {x r' : Bytes} {u} (hx : ∃ b ∈ x, stop b)
    (h : WordIn stop tab (x ++ T') u r') : ∃ r, WordIn stop tab (x ++ T) u r := by
  obtain ⟨w, k1, k2, k3⟩ := h
  obtain ⟨w', r, hw⟩ := split_exists (¬ stop ·) x
  have hr : r ≠ [] := by
    rintro rfl
    obtain ⟨b, hb, hb'⟩ := hx
    have : x = w' := by simpa using hw.1
    exact hw.2.1 b (this ▸ hb) hb'
  obtain ⟨rfl, -⟩ := split_unique k1 (Concat.split_append hw (X := T') (Or.inl hr))
  exact ⟨_, w, Concat.split_append hw (Or.inl hr), k2, k3⟩

omit hn ho in
theorem wordStart_swap {x : Bytes} (hx : x ≠ []) (h : WordStart cfg (x ++ T)) : WordStart cfg (x ++ T') := by
  obtain ⟨-, h2, h3, h4⟩ := h
  refine ⟨by simp [hx], by rwa [startsWith_swap (T := T) hx], by rwa [startsWith_swap (T := T) hx], fun hi => ?_⟩
  rintro ⟨r, hr⟩
  obtain ⟨t, ht, -⟩ := afterWord_unswap hS (by decide) hr
  exact h4 hi ⟨_, afterWord_append ht T⟩

theorem unitMulti_swap {x : Bytes} {u} (h : UnitMulti cfg units (x ++ T) u T) : UnitMulti cfg units (x ++ T') u T' := by
  cases h with
  | @mk _ _ _ r r' _ h1 h2 h3 =>
    obtain ⟨b, rfl⟩ : ∃ b, r' = b ++ T := by obtain ⟨b, hb⟩ := connection_suffix h3; exact ⟨b, hb.symm⟩
    obtain ⟨a, rfl⟩ : ∃ a, r = a ++ T := by
      obtain ⟨c, hc⟩ := ago_suffix h2; exact ⟨c ++ b, by rw [← hc, List.append_assoc]⟩
    exact .mk (wordIn_swap hS (Or.inr (Or.inr (by decide))) (Or.inr (Or.inr (by decide))) h1) (ago_swap hS hn ho h2 h3)
      (connection_swap hS hn h3)

omit hS hn ho in
theorem unitMulti_front {x : Bytes} {u} (h : UnitMulti cfg units (x ++ T) u T) :
    ∃ w y m, x = w ++ y ∧ w ≠ [] ∧ Split (¬ UnitEnd cfg ·) (x ++ T) w (y ++ T) ∧ units.get w = some m := by
  cases h with
  | @mk _ _ _ r r' _ h1 h2 h3 =>
    obtain ⟨b, rfl⟩ : ∃ b, r' = b ++ T := by obtain ⟨b, hb⟩ := connection_suffix h3; exact ⟨b, hb.symm⟩
    obtain ⟨a, rfl⟩ : ∃ a, r = a ++ T := by
      obtain ⟨c, hc⟩ := ago_suffix h2; exact ⟨c ++ b, by rw [← hc, List.append_assoc]⟩
    obtain ⟨w, k1, k2, k3⟩ := h1
    exact ⟨w, a, _, List.append_cancel_right (bs := T) (by rw [k1.1, List.append_assoc]), k2, k1, k3⟩

variable (hd : (∀ b, cfg.innerDelimiter b = true → cfg.outerDelimiter b = true) ∨ (keywords = none ∧ numerals = none))
include hd hT

/-- What follows a duration can be replaced by a text which starts with a sign. -/
theorem multi_swap {x : Bytes} {item : Item} (h : MultiText cfg units keywords numerals (x ++ T) item T) :
    MultiText cfg units keywords numerals (x ++ T') item T' := by
  have ue : UnitEnd cfg 43 ∧ UnitEnd cfg 45 := ⟨Or.inr (Or.inr (by decide)), Or.inr (Or.inr (by decide))⟩
  have ke : KeywordEnd cfg 43 ∧ KeywordEnd cfg 45 := ⟨Or.inr (by decide), Or.inr (by decide)⟩
  have suff : ∀ {r : Bytes}, T <:+ r → ∃ a, r = a ++ T := by rintro r ⟨a, ha⟩; exact ⟨a, ha.symm⟩
  generalize hs : x ++ T = s at h
  generalize hr : T = r0 at h
  cases h with
  | numberEnd => exact absurd hr hT
  | @numberUnit _ _ _ r r' _ _ h1 h2 h3 h4 =>
    subst hs hr
    have k4 : T <:+ r' := by cases h4 with | mk g1 g2 g3 => exact (connection_suffix g3).trans ((ago_suffix g2).trans (wordIn_suffix g1))
    obtain ⟨b, rfl⟩ := suff k4
    obtain ⟨a, rfl⟩ := suff (k4.trans (afterDelims_suffix h2))
    exact .numberUnit (number_swap hS h1) (afterDelims_swap hS hn h2) h3 (unitMulti_swap hS hn ho h4)
  | number h1 h2 h3 h4 h5 =>
    subst hs hr
    have k4 := connection_suffix h5
    obtain ⟨b, rfl⟩ := suff k4
    obtain ⟨a, rfl⟩ := suff (k4.trans (afterDelims_suffix h2))
    refine .number (number_swap hS h1) (afterDelims_swap hS hn h2) (by simp [ne_of_sign hS]) ?_ (connection_swap hS hn h5)
    rintro he ⟨u, t, w, g1, g2, -⟩
    have hst : StartsWith (UnitEnd cfg) (b ++ T') := by
      rcases connection_end h5 with rfl | ⟨⟨c, l, rfl, hc⟩, -⟩
      · exact sign_is hS ue.1 ue.2
      · exact ⟨c, l ++ T', rfl, Or.inr (Or.inl hc)⟩
    obtain ⟨c, l, hc, hc'⟩ := hst
    rw [hc] at g1
    cases w with
    | nil => exact g2 rfl
    | cons c' w =>
      have := g1.1
      injection this with e1 e2
      exact g1.2.1 c' (by simp) (e1 ▸ hc')
  | inf h1 h2 h3 h4 =>
    subst hs hr
    obtain ⟨z, rfl⟩ := suff (connection_suffix h4)
    refine .inf h1 (afterWord_swap h2 T') (Or.inr ?_) (connection_swap hS hn h4)
    have h3 := h3.resolve_left (by simp [hT])
    have hz : z ≠ [] := by rintro rfl; exact connection_self h4 h3
    rwa [startsWith_swap (T := T) hz]
  | infinity h1 h2 h3 h4 h5 h6 =>
    subst hs hr
    obtain ⟨z, rfl⟩ := suff (connection_suffix h6)
    obtain ⟨y, rfl⟩ := suff ((connection_suffix h6).trans (afterWord_suffix h4))
    refine .infinity h1 (afterWord_swap h2 T') (outer_swap hS hn h3) (afterWord_swap h4 T') (Or.inr ?_) (connection_swap hS hn h6)
    have h5 := h5.resolve_left (by simp [hT])
    have hz : z ≠ [] := by rintro rfl; exact connection_self h6 h5
    rwa [startsWith_swap (T := T) hz]
  | keyword h1 h2 h3 h4 =>
    subst hs hr
    obtain ⟨z, rfl⟩ := suff (connection_suffix h4)
    have hx : x ≠ [] := by
      obtain ⟨w, g1, g2, -⟩ := h3
      rintro rfl
      have : w ++ z = [] := List.append_cancel_right (bs := T) (by rw [List.append_assoc]; exact g1.1.symm)
      exact g2 (List.append_eq_nil_iff.1 this).1
    exact .keyword (wordStart_swap hS hx h1) h2 (wordIn_swap hS ke.1 ke.2 h3) (connection_swap hS hn h4)
  | unit h1 h2 h3 h4 =>
    subst hs hr
    obtain ⟨w, y, m, rfl, g2, g3, -⟩ := unitMulti_front h4
    refine .unit (wordStart_swap hS (by simp [g2]) h1) ?_ h3 (unitMulti_swap hS hn ho h4)
    rintro k hk ⟨u', r', w', f1, f2, f3⟩
    have hio : ∀ b, cfg.innerDelimiter b = true → cfg.outerDelimiter b = true :=
      hd.resolve_right (fun h => by rw [hk] at h; cases h.1)
    have end_iff : ∀ b, UnitEnd cfg b → KeywordEnd cfg b := by
      rintro b (⟨-, h⟩ | h)
      · exact Or.inl (hio b h)
      · exact h
    have hsp : Split (¬ KeywordEnd cfg ·) ((w ++ y) ++ T) w (y ++ T) :=
      ⟨g3.1, fun b hb h => g3.2.1 b hb (Or.inr h), fun h => g3.2.2 (startsWith_mono (fun b hb h => hb (end_iff b h)) h)⟩
    obtain ⟨rfl, -⟩ := split_unique f1 (split_swap hS (fun h => h ke.1) (fun h => h ke.2) hsp)
    exact h2 k hk ⟨u', _, w', hsp, f2, f3⟩
  | @numeral n w r1 q ds r2 u _ h1 h2 h3 h4 h5 h6 h7 h8 h9 h10 =>
    subst hs hr
    have k4 : T <:+ r2 := by cases h10 with | mk g1 g2 g3 => exact (connection_suffix g3).trans ((ago_suffix g2).trans (wordIn_suffix g1))
    obtain ⟨c, rfl⟩ := suff k4
    obtain ⟨a, rfl⟩ := suff (k4.trans (split_suffix h8))
    have hio : ∀ b, cfg.innerDelimiter b = true → cfg.outerDelimiter b = true :=
      hd.resolve_right (fun h => by rw [h4] at h; cases h.2)
    have ea : a = ds ++ c := List.append_cancel_right (bs := T) (by rw [h8.1, List.append_assoc])
    have ex : x = w ++ a := List.append_cancel_right (bs := T) (by rw [h5.1, List.append_assoc])
    obtain ⟨b, l, rfl⟩ : ∃ b l, ds = b :: l := by
      cases ds with
      | nil =>
        exfalso
        have ea : a = c := ea
        subst ea
        obtain ⟨b, l, hb⟩ := List.exists_cons_of_ne_nil h9
        rw [hb] at h5 h8
        exact h5.2.2 ⟨b, l, rfl, fun h => h8.2.2 ⟨b, l, rfl, h⟩⟩
      | cons b l => exact ⟨b, l, rfl⟩
    have hb : cfg.innerDelimiter b = true := h8.2.1 b (by simp)
    have hbx : b ∈ x := by rw [ex, ea]; simp
    have ha : a ≠ [] := by rw [ea]; simp
    have h5' : Split (¬ cfg.innerDelimiter · = true) (x ++ T') w (a ++ T') := by
      refine ⟨by rw [ex, List.append_assoc], h5.2.1, ?_⟩
      rw [startsWith_swap (T := T) ha]; exact h5.2.2
    refine .numeral (wordStart_swap hS (by rw [ex]; simp [h6]) h1) ?_ ?_ h4 h5' h6 h7 (splitInner_swap hS hn h8) (by simp [ne_of_sign hS])
      (unitMulti_swap hS hn ho h10)
    · rintro k hk ⟨u', r', hw⟩
      obtain ⟨r, hr⟩ := wordIn_unswap (T := T) ⟨b, hbx, Or.inl (hio b hb)⟩ hw
      exact h2 k hk ⟨u', r, hr⟩
    · rintro hopt ⟨u', r', hw⟩
      obtain ⟨r, hr⟩ := wordIn_unswap (T := T) ⟨b, hbx, Or.inr (Or.inl (hio b hb))⟩ hw
      exact h3 hopt ⟨u', r, hr⟩

omit hT hS hn ho hd in
theorem unitMulti_suffix {s r : Bytes} {u} (h : UnitMulti cfg units s u r) : r <:+ s := by
  cases h with
  | mk g1 g2 g3 => exact (connection_suffix g3).trans ((ago_suffix g2).trans (wordIn_suffix g1))

omit hT hS hn ho hd in
theorem multi_suffix {s r : Bytes} {item : Item} (h : MultiText cfg units keywords numerals s item r) : r <:+ s := by
  cases h with
  | numberEnd h => exact number_suffix h
  | numberUnit h1 h2 _ h4 => exact (unitMulti_suffix h4).trans ((afterDelims_suffix h2).trans (number_suffix h1))
  | number h1 h2 _ _ h5 => exact (connection_suffix h5).trans ((afterDelims_suffix h2).trans (number_suffix h1))
  | inf _ h2 _ h4 => exact (connection_suffix h4).trans (afterWord_suffix h2)
  | infinity _ h2 _ h4 _ h6 => exact (connection_suffix h6).trans ((afterWord_suffix h4).trans (afterWord_suffix h2))
  | keyword _ _ h3 h4 => exact (connection_suffix h4).trans (wordIn_suffix h3)
  | unit _ _ _ h4 => exact unitMulti_suffix h4
  | numeral _ _ _ _ h5 _ _ h8 _ h10 => exact (unitMulti_suffix h10).trans ((split_suffix h8).trans (split_suffix h5))

omit hT hS hn ho hd in
theorem split_less {p : UInt8 → Prop} {s w r : Bytes} (h : Split p s w r) (hw : w ≠ []) : r.length < s.length := by
  have := List.length_pos_of_ne_nil hw
  rw [h.1, List.length_append]; omega

omit hT hS hn ho hd in
theorem number_less {s W F r : Bytes} {e : Int} (h : NumberText cfg s W F e r) : r.length < s.length := by
  obtain ⟨r1, r2, h1, h2, h3⟩ := h
  have h3 := (exponent_suffix h3).length_le
  cases h2 with
  | absent k1 _ => have := split_less h1 k1; omega
  | present _ k2 _ =>
    have := (split_suffix k2).length_le
    have := (split_suffix h1).length_le
    rw [List.length_cons] at this
    omega

omit hT hS hn ho hd in
theorem wordIn_less {stop : UInt8 → Prop} {tab : TimeUnitsLike} {s r : Bytes} {u} (h : WordIn stop tab s u r) : r.length < s.length := by
  obtain ⟨w, h1, h2, -⟩ := h; exact split_less h1 h2

omit hT hS hn ho hd in
theorem afterWord_less {w s r : Bytes} (h : AfterWord w s r) (hw : w ≠ []) : r.length < s.length := by
  obtain ⟨x, rfl, hx⟩ := h
  have : x.length = w.length := by have := congrArg List.length hx; simpa using this
  have := List.length_pos_of_ne_nil hw
  rw [List.length_append]; omega

omit hT hS hn ho hd in
theorem unitMulti_less {s r : Bytes} {u} (h : UnitMulti cfg units s u r) : r.length < s.length := by
  cases h with
  | mk g1 g2 g3 =>
    have := wordIn_less g1
    have := (ago_suffix g2).length_le
    have := (connection_suffix g3).length_le
    omega

omit hT hS hn ho hd in
/-- a duration is not empty -/
theorem multi_less {s r : Bytes} {item : Item} (h : MultiText cfg units keywords numerals s item r) : r.length < s.length := by
  cases h with
  | numberEnd h => exact number_less h
  | numberUnit h1 h2 _ h4 =>
    have := number_less h1; have := (afterDelims_suffix h2).length_le; have := unitMulti_less h4; omega
  | number h1 h2 _ _ h5 =>
    have := number_less h1; have := (afterDelims_suffix h2).length_le; have := (connection_suffix h5).length_le; omega
  | inf _ h2 _ h4 => have := afterWord_less h2 (by decide); have := (connection_suffix h4).length_le; omega
  | infinity _ h2 _ h4 _ h6 =>
    have := afterWord_less h2 (by decide); have := (afterWord_suffix h4).length_le; have := (connection_suffix h6).length_le; omega
  | keyword _ _ h3 h4 => have := wordIn_less h3; have := (connection_suffix h4).length_le; omega
  | unit _ _ _ h4 => exact unitMulti_less h4
  | numeral _ _ _ _ h5 h6 _ h8 _ h10 =>
    have := split_less h5 h6; have := (split_suffix h8).length_le; have := unitMulti_less h10; omega

omit hT ho hd in
theorem sign_swap {a x : Bytes} {neg : Bool} (h : SignPart cfg (a ++ T) neg (x ++ T)) (hx : x ≠ []) : SignPart cfg (a ++ T') neg (x ++ T') := by
  generalize hs : a ++ T = s at h
  generalize hr : x ++ T = r at h
  have cut : ∀ {r0 : Bytes} {b : UInt8}, x ++ T <:+ r0 → a ++ T = b :: r0 → ∃ y, r0 = y ++ T ∧ a = b :: y := by
    rintro r0 b ⟨c, rfl⟩ e
    refine ⟨c ++ x, by rw [List.append_assoc], List.append_cancel_right (bs := T) ?_⟩
    rw [e]; simp
  cases h with
  | absent h1 h2 =>
    have : a = x := List.append_cancel_right (hs.trans hr.symm)
    subst this hs
    exact .absent (by simp [hx]) (by rwa [startsWith_swap (T := T) hx])
  | plus h1 h2 =>
    subst hr
    obtain ⟨y, rfl, rfl⟩ := cut (afterDelims_suffix h1) hs
    exact .plus (afterDelims_swap hS hn h1) (by simp [hx])
  | minus h1 h2 =>
    subst hr
    obtain ⟨y, rfl, rfl⟩ := cut (afterDelims_suffix h1) hs
    exact .minus (afterDelims_swap hS hn h1) (by simp [hx])

omit hT hS hn hd in
theorem sign_other {s t r : Bytes} {neg : Bool} {item : Item} {rest : Bytes} (h : SignPart cfg s neg r)
    (hm : MultiText cfg units keywords numerals r item rest) (hO : OtherSign s t) :
    SignPart cfg t (!neg) r ∧ StartsWith (fun b => b = 43 ∨ b = 45) t := by
  have hst := multi_start ho hm
  cases h with
  | absent h1 h2 =>
    rcases hO with ⟨-, rfl⟩ | ⟨r', rfl, -⟩ | ⟨r', rfl, -⟩
    · exact ⟨.minus (afterDelims_self _ fun h => hst (startsWith_mono (fun _ => Or.inl) h)) h1, ⟨45, _, rfl, Or.inr rfl⟩⟩
    · exact absurd ⟨43, r', rfl, Or.inl rfl⟩ h2
    · exact absurd ⟨45, r', rfl, Or.inr rfl⟩ h2
  | plus h1 h2 =>
    rcases hO with ⟨h, -⟩ | ⟨r', e, rfl⟩ | ⟨r', e, -⟩
    · exact absurd ⟨43, _, rfl, Or.inl rfl⟩ h
    · cases e; exact ⟨.minus h1 h2, ⟨45, _, rfl, Or.inr rfl⟩⟩
    · cases e
  | minus h1 h2 =>
    rcases hO with ⟨h, -⟩ | ⟨r', e, rfl⟩ | ⟨r', e, rfl⟩
    · exact absurd ⟨45, _, rfl, Or.inr rfl⟩ h
    · cases e
    · cases e; exact ⟨.plus h1 h2, ⟨43, _, rfl, Or.inl rfl⟩⟩

/-- the other sign -/
def other (i : Bool × Item) : Bool × Item := (!i.1, i.2)

omit hT hS in
/-- The durations of the opposite text are those of the text with the other signs. -/
theorem opposite_durations {P : Item → Prop} (hP : ∀ {s r item}, MultiText cfg units keywords numerals s item r → P item) {s t : Bytes}
    (h : Opposite cfg units keywords numerals s t) :
    ∃ items, Durations cfg units keywords numerals s items ∧ Durations cfg units keywords numerals t (items.map other) ∧
      (∀ i ∈ items, P i.2) ∧ StartsWith (fun b => b = 43 ∨ b = 45) t := by
  induction h with
  | last h1 h2 h3 =>
    obtain ⟨g1, g2⟩ := sign_other ho h1 h2 h3
    exact ⟨[_], .last h1 h2, .last g1 h2, by simpa using hP h2, g2⟩
  | @more s neg r item front rest rest' t h1 h2 h3 h4 h5 h6 ih =>
    obtain ⟨items, i1, i2, i3, i4⟩ := ih
    obtain ⟨x, rfl⟩ : ∃ x, r = x ++ rest := by obtain ⟨x, hx⟩ := multi_suffix h2; exact ⟨x, hx.symm⟩
    have hx : x ≠ [] := by
      rintro rfl
      exact Nat.lt_irrefl _ (multi_less h2)
    subst h4
    have h2' := multi_swap h3 i4 hn ho hd h2
    obtain ⟨g1, g2⟩ := sign_other ho (sign_swap i4 hn h1 hx) h2' h6
    refine ⟨(neg, item) :: items, .more h1 h2 h3 i1, .more g1 h2' (ne_of_sign i4) i2, ?_, g2⟩
    intro i hi
    rcases List.mem_cons.1 hi with rfl | hi
    · exact hP h2
    · exact i3 i hi

end Fundu.Props.Negated
