import Verif.Spec.Renumbered
import Verif.Proofs.Concat
/-! # Texts which differ only in their numbers -/
namespace Fundu.Renumbered
open Fundu Fundu.Spec Fundu.Props

variable {R : ℚ → ℚ → Prop} {cfg : Config} {f : Bool}

theorem symm {s t : Bytes} (h : Renumbered R cfg f s t) : Renumbered (flip R) cfg f t s := by
  induction h with
  | done => exact .done
  | same h h' _ ih => exact .same h (fun e => (h' e).symm) ih
  | number h1 h2 h3 h4 h5 h6 _ ih => exact .number h2 h1 h3 (fun e => (h4 e).symm) h6 h5 ih

theorem eq_symm {s t : Bytes} (h : Renumbered Eq cfg f s t) : Renumbered Eq cfg f t s := by
  have := symm h
  rwa [show flip (Eq (α := ℚ)) = Eq from by funext a b; exact propext eq_comm] at this

theorem number_ne {n W F r : Bytes} {e : Int} (h : NumberText cfg n W F e r) : n ≠ [] := by
  rintro rfl
  rcases Props.numberText_head h with g | g <;> exact not_startsWith_nil g

theorem nil {t : Bytes} (h : Renumbered R cfg f [] t) : t = [] := by
  generalize hs : ([] : Bytes) = s at h
  cases h with
  | done => rfl
  | same _ _ => cases hs
  | number h1 => exact absurd (List.append_eq_nil_iff.1 hs.symm).1 (number_ne h1)

theorem ne {s t : Bytes} (h : Renumbered R cfg f s t) (hs : s ≠ []) : t ≠ [] := by
  rintro rfl; exact hs (nil (symm h))

/-- no byte of a number -/
def Other (b : UInt8) : Prop := ¬ IsDigit b ∧ b ≠ 46

theorem number_start {n W F r x : Bytes} {e : Int} (h : NumberText cfg n W F e r) {b : UInt8} {s : Bytes} (e : b :: s = n ++ x) : ¬ Other b := by
  rintro ⟨h1, h2⟩
  cases n with
  | nil => exact number_ne h rfl
  | cons c n =>
    cases e
    rcases Props.numberText_head h with g | g
    · exact h1 (startsWith_cons.1 g)
    · exact h2 (startsWith_cons (p := (· = 46)).1 g)

theorem cons {b : UInt8} {s t : Bytes} (h : Renumbered R cfg f (b :: s) t) (hb : Other b) : ∃ t', t = b :: t' ∧ Renumbered R cfg (apart cfg b) s t' := by
  generalize hs : b :: s = s' at h
  cases h with
  | done => cases hs
  | same _ _ h => cases hs; exact ⟨_, rfl, h⟩
  | number h1 => exact absurd hb (number_start h1 hs)

theorem append {x r t : Bytes} (h : Renumbered R cfg f (x ++ r) t) (hx : ∀ b ∈ x, Other b) :
    ∃ r' f', t = x ++ r' ∧ Renumbered R cfg f' r r' ∧ (x = [] → f' = f) ∧ (x ≠ [] → (∀ b ∈ x, apart cfg b = false) → f' = false) := by
  induction x generalizing t f with
  | nil => exact ⟨t, f, rfl, h, fun _ => rfl, fun g => absurd rfl g⟩
  | cons b x ih =>
    obtain ⟨t', rfl, h'⟩ := cons h (hx b (by simp))
    obtain ⟨r', f', rfl, h'', h0, hf⟩ := ih h' fun c hc => hx c (by simp [hc])
    refine ⟨r', f', rfl, h'', (fun g => by cases g), fun _ hall => ?_⟩
    by_cases hx0 : x = []
    · rw [h0 hx0]; exact hall b (by simp)
    · exact hf hx0 fun c hc => hall c (by simp [hc])

theorem starts_other {p : UInt8 → Prop} (hp : ∀ b, p b → Other b) {s t : Bytes} (h : Renumbered R cfg f s t) (hs : StartsWith p s) :
    StartsWith p t := by
  obtain ⟨b, l, rfl, hb⟩ := hs
  obtain ⟨t', rfl, -⟩ := cons h (hp b hb)
  exact ⟨b, t', rfl, hb⟩

theorem number_digit {n W F r : Bytes} {e : Int} (h : NumberText cfg n W F e r) : StartsWith IsDigit n ↔ W ≠ [] := by
  obtain ⟨r1, r2, ⟨h1, h2, h3⟩, g, -⟩ := h
  cases W with
  | nil =>
    rw [List.nil_append] at h1
    rw [h1]
    exact ⟨fun g => absurd g h3, fun g => absurd rfl g⟩
  | cons b W => rw [h1]; exact ⟨fun _ => by simp, fun _ => ⟨b, _, rfl, h2 b (by simp)⟩⟩

theorem starts_number {s t : Bytes} (h : Renumbered R cfg f s t) (hs : StartsWith (fun b => ¬ Other b) s) : StartsWith (fun b => ¬ Other b) t := by
  cases h with
  | done => exact hs
  | same h h' hr =>
    exact ⟨_, _, rfl, startsWith_cons.1 hs⟩
  | number h1 h2 h3 h4 h5 h6 hr =>
    rw [Concat.startsWith_append (number_ne h2)]
    rcases Props.numberText_head h2 with g | g
    · exact startsWith_mono (fun b hb h => h.1 hb) g
    · exact startsWith_mono (fun b hb h => h.2 hb) g

theorem starts_digit {s t : Bytes} (h : Renumbered R cfg false s t) (hs : StartsWith IsDigit s) : StartsWith IsDigit t := by
  cases h with
  | done => exact hs
  | same h h' hr => exact absurd (startsWith_cons.1 hs) h
  | number h1 h2 h3 h4 h5 h6 hr =>
    rw [Concat.startsWith_append (number_ne h1), number_digit h1] at hs
    rw [Concat.startsWith_append (number_ne h2), number_digit h2]
    exact fun g => hs ((h4 rfl).2 g)

theorem split_other {p : UInt8 → Prop} (hp : ∀ b, p b → Other b) {s t w r : Bytes} (hs : Split p s w r) (h : Renumbered R cfg f s t) :
    ∃ r' f', Split p t w r' ∧ Renumbered R cfg f' r r' := by
  obtain ⟨rfl, h2, h3⟩ := hs
  obtain ⟨r', f', rfl, g, -⟩ := append h fun b hb => hp b (h2 b hb)
  exact ⟨r', f', ⟨rfl, h2, fun hh => h3 (starts_other hp (symm g) hh)⟩, g⟩

/-- a word which contains neither delimiters nor anything of a number -/
theorem split_word {stop : UInt8 → Prop} (h46 : ¬ stop 46) (hst : ∀ b c, IsDigit b → IsDigit c → stop b → stop c) {s t w r : Bytes}
    (hs : Split (¬ stop ·) s w r) (hw : w ≠ []) (hp : ∀ b ∈ w, Other b ∧ apart cfg b = false) (h : Renumbered R cfg f s t) :
    ∃ r', Split (¬ stop ·) t w r' ∧ Renumbered R cfg false r r' := by
  obtain ⟨rfl, h2, h3⟩ := hs
  obtain ⟨r', f', rfl, g, -, hf⟩ := append h fun b hb => (hp b hb).1
  obtain rfl := hf hw fun b hb => (hp b hb).2
  refine ⟨r', ⟨rfl, h2, ?_⟩, g⟩
  rintro ⟨b, l, rfl, hb⟩
  cases r with
  | nil => exact absurd (nil g) (by simp)
  | cons c r =>
    have hc : stop c := by
      by_contra hc
      exact h3 ⟨c, r, rfl, hc⟩
    by_cases ho : Other c
    · obtain ⟨t', e, -⟩ := cons g ho
      cases e
      exact hb hc
    · have hd : IsDigit c := by
        by_contra hd
        refine ho ⟨hd, ?_⟩
        rintro rfl
        exact h46 hc
      have := starts_digit g ⟨c, r, rfl, hd⟩
      exact hb (hst c b hd (startsWith_cons.1 this) hc)

/-! ## Numbers -/

theorem number_append {n W F X : Bytes} {e : Int} (h : NumberText cfg n W F e []) (hX : NumberEnd X) : NumberText cfg (n ++ X) W F e X := by
  have d : ¬ StartsWith IsDigit X := fun g => hX (startsWith_mono (fun b hb => Or.inl hb) g)
  obtain ⟨r1, r2, h1, h2, h3⟩ := h
  refine ⟨r1 ++ X, r2 ++ X, Concat.split_append h1 (Or.inr d), ?_, ?_⟩
  · cases h2 with
    | absent k1 k2 => exact .absent k1 (Concat.not_startsWith_append k2 fun g => hX (startsWith_mono (fun b hb => Or.inr (Or.inl hb)) g))
    | present k1 k2 k3 => exact .present k1 (Concat.split_append k2 (Or.inr d)) k3
  · generalize hz : ([] : Bytes) = z at h3
    cases h3 with
    | absent k =>
      subst hz
      exact .absent fun g => hX (startsWith_mono (fun b hb => Or.inr (Or.inr hb)) g)
    | present k1 k2 k3 k4 k5 k6 =>
      subst hz
      refine .present k1 k2 ?_ (Concat.split_append k4 (Or.inr d)) k5 k6
      cases k3 with
      | absent k =>
        refine .absent ?_
        rename_i r0 _
        show ¬ StartsWith _ (r0 ++ X)
        rw [Concat.startsWith_append]
        · exact k
        · intro h0
          subst h0
          exact k5 (List.append_eq_nil_iff.1 k4.1.symm).1
      | plus => exact .plus
      | minus => exact .minus

theorem number {s t W F r : Bytes} {e : Int} (h : NumberText cfg s W F e r) (hr : Renumbered R cfg f s t) :
    ∃ W' F' e' r', NumberText cfg t W' F' e' r' ∧ R (literalValue W F e) (literalValue W' F' e') ∧ Renumbered R cfg false r r' := by
  cases hr with
  | done => exact absurd rfl (number_ne h)
  | @same _ b s t h1 h2 hr =>
    exfalso
    rcases Props.numberText_head h with g | g
    · exact h1 (startsWith_cons.1 g)
    · obtain rfl : b = 46 := startsWith_cons (p := (· = 46)).1 g
      obtain ⟨r1, r2, ⟨g1, g2, g3⟩, g4, -⟩ := h
      cases W with
      | cons c W =>
        cases g1
        exact h1 (g2 _ (by simp))
      | nil =>
        rw [List.nil_append] at g1
        subst g1
        cases g4 with
        | absent k _ => exact k rfl
        | @present _ F _ _ k1 k2 =>
          have hF : F ≠ [] := k2.resolve_left (fun g => g rfl)
          cases F with
          | nil => exact hF rfl
          | cons c F => exact (h2 rfl).1 ⟨c, _, k1.1, k1.2.1 c (by simp)⟩
  | number h1 h2 h3 h4 h5 h6 hr =>
    obtain ⟨rfl, rfl, rfl, rfl⟩ := numberText_unique h (number_append h1 h5)
    exact ⟨_, _, _, _, number_append h2 h6, h3, hr⟩

/-! ## The grammar -/

/-- the same parts, except for the number -/
inductive SameItem (R : ℚ → ℚ → Prop) : Item → Item → Prop
  | refl {i} : SameItem R i i
  | number {W F e W' F' e' u} : R (literalValue W F e) (literalValue W' F' e') → SameItem R (.number W F e u) (.number W' F' e' u)

section
variable {units : TimeUnitsLike} {keywords : Option TimeUnitsLike} {numerals : Option NumbersLike}
variable (ho : Orderly cfg units keywords numerals) (hn : NoPoints cfg units keywords numerals)
include ho hn

omit hn in
theorem delim_other : ∀ b, IsDelimiter cfg b → Other b := fun b h => (ho.delimiters b h).2
omit hn in
theorem inner_other : ∀ b, cfg.innerDelimiter b = true → Other b := fun b h => delim_other ho b (Or.inl h)
omit hn in
theorem outer_other : ∀ b, cfg.outerDelimiter b = true → Other b := fun b h => delim_other ho b (Or.inr h)
omit ho hn in
theorem sign_other : ∀ b : UInt8, b = 43 ∨ b = 45 → Other b := by
  rintro b (rfl | rfl) <;> exact ⟨by decide, by decide⟩
omit ho hn in
theorem letter_other : ∀ b : UInt8, IsLetter b → Other b := by
  have h : ∀ n, n < 256 → (IsLetter (UInt8.ofNat n) → ¬ IsDigit (UInt8.ofNat n) ∧ UInt8.ofNat n ≠ 46) := by decide +kernel
  intro b hb
  have := h b.toNat b.toNat_lt
  rw [UInt8.ofNat_toNat] at this
  exact this hb

omit ho hn in
theorem not_apart {b : UInt8} (h : ¬ IsDelimiter cfg b) (h' : ¬ NextDuration b) : apart cfg b = false := by
  have h1 : cfg.innerDelimiter b = false := Bool.eq_false_iff.2 fun g => h (Or.inl g)
  have h2 : cfg.outerDelimiter b = false := Bool.eq_false_iff.2 fun g => h (Or.inr g)
  have h3 : (b == 43) = false := beq_eq_false_iff_ne.2 fun g => h' (Or.inr (Or.inl g))
  have h4 : (b == 45) = false := beq_eq_false_iff_ne.2 fun g => h' (Or.inr (Or.inr g))
  unfold apart
  rw [h1, h2, h3, h4]
  rfl

theorem id_other {id : Bytes} (hi : IsIdentifier units keywords numerals id) : ∀ b ∈ id, Other b ∧ apart cfg b = false := by
  intro b hb
  obtain ⟨h1, h2⟩ := ho.plain id hi b hb
  refine ⟨⟨fun g => h2 (Or.inl g), ?_⟩, not_apart h1 h2⟩
  rintro rfl
  exact hn.words id hi hb

omit hn in
theorem letter_apart {b : UInt8} (h : IsLetter b) : apart cfg b = false := by
  refine not_apart (fun g => (ho.delimiters b g).1 h) ?_
  have k : ∀ n, n < 256 → (IsLetter (UInt8.ofNat n) → ¬ NextDuration (UInt8.ofNat n)) := by
    unfold NextDuration; decide +kernel
  have := k b.toNat b.toNat_lt
  rw [UInt8.ofNat_toNat] at this
  exact this h

omit hn in
theorem after_letters {w s t r : Bytes} (hw : ∀ b ∈ w, IsLetter b) (h : AfterWord w s r) (hw0 : w ≠ []) (hr : Renumbered R cfg f s t) :
    ∃ r', AfterWord w t r' ∧ Renumbered R cfg false r r' := by
  obtain ⟨x, rfl, hx⟩ := h
  have hl := sameText_letters hx hw
  obtain ⟨r', f', rfl, g, -, hf⟩ := append hr fun b hb => letter_other b (hl b hb)
  have hx0 : x ≠ [] := by
    rintro rfl
    exact hw0 (List.map_eq_nil_iff.1 hx.symm)
  obtain rfl := hf hx0 fun b hb => letter_apart ho (hl b hb)
  exact ⟨r', ⟨x, rfl, hx⟩, g⟩

theorem after_conjunction {w s t r : Bytes} (hw : w ∈ cfg.conjunctions.getD []) (h : AfterWord w s r)
    (hr : Renumbered R cfg f s t) : ∃ r', AfterWord w t r' ∧ Renumbered R cfg false r r' := by
  obtain ⟨x, rfl, hx⟩ := h
  obtain ⟨hw0, hw1⟩ := hn.conjunctions w hw
  have hl : ∀ b ∈ x, Other b ∧ apart cfg b = false := by
    intro b hb
    by_cases hl : IsLetter b
    · exact ⟨letter_other b hl, letter_apart ho hl⟩
    · obtain ⟨g1, g2, g3⟩ := hw1 b (Concat.sameText_mem hx hb hl)
      exact ⟨⟨fun g => g2 (Or.inl g), g3⟩, not_apart g1 g2⟩
  obtain ⟨r', f', rfl, g, -, hf⟩ := append hr fun b hb => (hl b hb).1
  have hx0 : x ≠ [] := by
    rintro rfl
    exact hw0 (List.map_eq_nil_iff.1 hx.symm)
  obtain rfl := hf hx0 fun b hb => (hl b hb).2
  exact ⟨r', ⟨x, rfl, hx⟩, g⟩

omit hn in
theorem afterDelims {a : Bool} {s t r : Bytes} (h : AfterDelims a cfg.innerDelimiter s r) (hr : Renumbered R cfg f s t) :
    ∃ r' f', AfterDelims a cfg.innerDelimiter t r' ∧ Renumbered R cfg f' r r' := by
  unfold AfterDelims at *
  cases a with
  | false => exact ⟨t, f, rfl, by rw [if_neg (by simp)] at h; rw [h]; exact hr⟩
  | true =>
    rw [if_pos rfl] at h
    obtain ⟨ds, h⟩ := h
    obtain ⟨r', f', g1, g2⟩ := split_other (inner_other ho) h hr
    exact ⟨r', f', by rw [if_pos rfl]; exact ⟨ds, g1⟩, g2⟩

omit hn in
theorem sign {s t r : Bytes} {neg : Bool} (h : SignPart cfg s neg r) (hr : Renumbered R cfg f s t) :
    ∃ r' f', SignPart cfg t neg r' ∧ Renumbered R cfg f' r r' := by
  cases h with
  | absent h2 h3 => exact ⟨t, f, .absent (ne hr h2) fun g => h3 (starts_other sign_other (symm hr) g), hr⟩
  | plus h2 h3 =>
    obtain ⟨t', rfl, g⟩ := cons hr (sign_other _ (Or.inl rfl))
    obtain ⟨r', f', g1, g2⟩ := afterDelims ho h2 g
    exact ⟨r', f', .plus g1 (ne g2 h3), g2⟩
  | minus h2 h3 =>
    obtain ⟨t', rfl, g⟩ := cons hr (sign_other _ (Or.inr rfl))
    obtain ⟨r', f', g1, g2⟩ := afterDelims ho h2 g
    exact ⟨r', f', .minus g1 (ne g2 h3), g2⟩

omit hn in
theorem wordStart {s t : Bytes} (h : WordStart cfg s) (hr : Renumbered R cfg f s t) : WordStart cfg t := by
  obtain ⟨g1, g2, g3, g4⟩ := h
  have key : ¬ StartsWith (fun b => ¬ Other b) t := by
    intro g
    obtain ⟨b, l, rfl, hb⟩ := starts_number (symm hr) g
    refine hb ⟨fun h => g2 ⟨b, l, rfl, h⟩, fun h => g3 ⟨b, l, rfl, h⟩⟩
  refine ⟨ne hr g1, fun g => key (startsWith_mono (fun b hb h => h.1 hb) g), fun g => key (startsWith_mono (fun b hb h => h.2 hb) g), fun hi => ?_⟩
  rintro ⟨r, hw⟩
  obtain ⟨r', hw', -⟩ := after_letters ho inf_letters hw (by decide) (symm hr)
  exact g4 hi ⟨r', hw'⟩

theorem identifier {id t : Bytes} (hi : IsIdentifier units keywords numerals id) (hr : Renumbered R cfg f id t) : t = id := by
  rw [← List.append_nil id] at hr
  obtain ⟨r', f', rfl, g, -⟩ := append hr fun b hb => (id_other ho hn hi b hb).1
  rw [nil g, List.append_nil]

theorem not_keyword {s t : Bytes} (h : ∀ k, keywords = some k → k.get s = none) (hr : Renumbered R cfg f s t) :
    ∀ k, keywords = some k → k.get t = none := by
  intro k hk
  by_contra hne
  obtain ⟨u, hu⟩ := Option.ne_none_iff_exists'.1 hne
  obtain rfl := identifier ho hn (Or.inr (Or.inl ⟨k, u, hk, hu⟩)) (symm hr)
  rw [h k hk] at hu
  cases hu

/-- a word up to the next inner delimiter -/
theorem split_id {s t w r : Bytes} (hs : Split (¬ cfg.innerDelimiter · = true) s w r) (hw : w ≠ [])
    (hi : IsIdentifier units keywords numerals w) (hr : Renumbered R cfg f s t) :
    ∃ r', Split (¬ cfg.innerDelimiter · = true) t w r' ∧ Renumbered R cfg false r r' :=
  split_word (fun g => (ho.delimiters 46 (Or.inl g)).2.2 rfl) (fun b _ hb _ g => absurd hb (ho.delimiters b (Or.inl g)).2.1) hs hw
    (id_other ho hn hi) hr

/-! ### Single durations -/

theorem unitSingle {s t r : Bytes} {u} (h : UnitSingle cfg units s u r) (hr : Renumbered R cfg f s t) :
    ∃ r' f', UnitSingle cfg units t u r' ∧ Renumbered R cfg f' r r' := by
  cases h with
  | whole g1 g2 =>
    obtain rfl := identifier ho hn (Or.inl ⟨_, g2⟩) hr
    exact ⟨[], false, .whole g1 g2, .done⟩
  | plain g1 g2 g3 g4 =>
    obtain rfl := identifier ho hn (Or.inl ⟨_, g4⟩) hr
    exact ⟨[], false, .plain g1 g2 g3 g4, .done⟩
  | ago g1 g2 g3 g4 g5 g6 =>
    obtain ⟨t1, k1, hr1⟩ := split_id ho hn g2 g3 (Or.inl ⟨_, g4⟩) hr
    obtain ⟨t2, f2, k2, hr2⟩ := split_other (inner_other ho) g5 hr1
    obtain ⟨t3, k3, hr3⟩ := after_letters ho ago_letters g6 (by decide) hr2
    exact ⟨t3, false, .ago g1 k1 g3 g4 k2 k3, hr3⟩

theorem unitSingle_end {s t : Bytes} {u} (h : UnitSingle cfg units s u []) (hr : Renumbered R cfg f s t) :
    UnitSingle cfg units t u [] := by
  obtain ⟨r', f', g1, g2⟩ := unitSingle ho hn h hr
  rwa [nil g2] at g1

theorem unitPart {s t : Bytes} {u} (h : UnitPart cfg units s u) (hr : Renumbered R cfg f s t) : UnitPart cfg units t u := by
  cases h with
  | absent => rw [nil hr]; exact .absent
  | present g1 g2 g3 g4 =>
    obtain ⟨r', f', k1, hr1⟩ := afterDelims ho g1 hr
    exact .present k1 (ne hr1 g2) g3 (unitSingle_end ho hn g4 hr1)

theorem single {s t : Bytes} {item : Item} (h : SingleText cfg units keywords numerals s item) (hr : Renumbered R cfg f s t) :
    ∃ item', SingleText cfg units keywords numerals t item' ∧ SameItem R item item' := by
  cases h with
  | number g1 g2 =>
    obtain ⟨W', F', e', r', k1, k2, hr1⟩ := number g1 hr
    exact ⟨_, .number k1 (unitPart ho hn g2 hr1), .number k2⟩
  | infinity g1 g2 =>
    have hl : ∀ b ∈ s, IsLetter b := g2.elim (fun g => sameText_letters g inf_letters)
      (fun g => sameText_letters g (by decide))
    rw [← List.append_nil s] at hr
    obtain ⟨r', f', rfl, g, -⟩ := append hr fun b hb => letter_other b (hl b hb)
    rw [nil g, List.append_nil]
    exact ⟨_, .infinity g1 g2, .refl⟩
  | keyword g1 g2 g3 =>
    obtain rfl := identifier ho hn (Or.inr (Or.inl ⟨_, _, g2, g3⟩)) hr
    exact ⟨_, .keyword g1 g2 g3, .refl⟩
  | unit g1 g2 g3 g4 => exact ⟨_, .unit (wordStart ho g1 hr) (not_keyword ho hn g2 hr) g3 (unitSingle_end ho hn g4 hr), .refl⟩
  | numeral g1 g2 g3 g4 g5 g6 g7 g8 g9 g10 =>
    obtain ⟨t1, k1, hr1⟩ := split_id ho hn g5 g6 (Or.inr (Or.inr ⟨_, _, g4, g7⟩)) hr
    obtain ⟨t2, f2, k2, hr2⟩ := split_other (inner_other ho) g8 hr1
    refine ⟨_, .numeral (wordStart ho g1 hr) (not_keyword ho hn g2 hr) ?_ g4 k1 g6 g7 k2 (ne hr2 g9) (unitSingle_end ho hn g10 hr2), .refl⟩
    rintro ha ⟨u, r, hu⟩
    obtain ⟨r', f', hu', -⟩ := unitSingle ho hn hu (symm hr)
    exact g3 ha ⟨u, r', hu'⟩

/-! ### Several durations -/

theorem wordIn {stop : UInt8 → Prop} (h46 : ¬ stop 46) (hst : ∀ b, NextDuration b → stop b) {table : TimeUnitsLike}
    (htab : ∀ w u, table.get w = some u → IsIdentifier units keywords numerals w) {s t r : Bytes} {u}
    (h : WordIn stop table s u r) (hr : Renumbered R cfg f s t) : ∃ r', WordIn stop table t u r' ∧ Renumbered R cfg false r r' := by
  obtain ⟨w, g1, g2, g3⟩ := h
  obtain ⟨r', k1, hr1⟩ := split_word h46 (fun b c _ hc _ => hst c (Or.inl hc)) g1 g2 (id_other ho hn (htab w u g3)) hr
  exact ⟨r', ⟨w, k1, g2, g3⟩, hr1⟩

omit ho hn in
theorem point_next : ¬ NextDuration 46 := by unfold NextDuration; decide

theorem keywordIn {k : TimeUnitsLike} (hk : keywords = some k) {s t r : Bytes} {u} (h : WordIn (KeywordEnd cfg) k s u r)
    (hr : Renumbered R cfg f s t) : ∃ r', WordIn (KeywordEnd cfg) k t u r' ∧ Renumbered R cfg false r r' :=
  wordIn ho hn (fun g => g.elim (fun g => (ho.delimiters 46 (Or.inr g)).2.2 rfl) point_next) (fun _ => Or.inr)
    (fun _ _ g => Or.inr (Or.inl ⟨k, _, hk, g⟩)) h hr

theorem unitIn {s t r : Bytes} {u} (h : WordIn (UnitEnd cfg) units s u r)
    (hr : Renumbered R cfg f s t) : ∃ r', WordIn (UnitEnd cfg) units t u r' ∧ Renumbered R cfg false r r' :=
  wordIn ho hn (fun g => g.elim (fun g => (ho.delimiters 46 (Or.inl g.2)).2.2 rfl)
    (fun g => g.elim (fun g => (ho.delimiters 46 (Or.inr g)).2.2 rfl) point_next)) (fun _ g => Or.inr (Or.inr g))
    (fun _ _ g => Or.inl ⟨_, g⟩) h hr

omit hn in
theorem starts_end {p : UInt8 → Prop} (hp : ∀ b, p b → cfg.outerDelimiter b = true ∨ NextDuration b) (hd : ∀ b, IsDigit b → p b)
    {r r' : Bytes} (h : StartsWith p r) (hr : Renumbered R cfg false r r') : StartsWith p r' := by
  obtain ⟨b, l, rfl, hb⟩ := h
  by_cases hdig : IsDigit b
  · exact startsWith_mono hd (starts_digit hr ⟨b, l, rfl, hdig⟩)
  · have : Other b := by
      rcases hp b hb with g | g | g
      · exact outer_other ho b g
      · exact absurd g hdig
      · exact sign_other b g
    obtain ⟨t', rfl, -⟩ := cons hr this
    exact ⟨b, t', rfl, hb⟩

theorem connection {s t r : Bytes} (h : Connection cfg s r) (hr : Renumbered R cfg f s t) :
    ∃ r' f', Connection cfg t r' ∧ Renumbered R cfg f' r r' := by
  cases h with
  | absent g1 => exact ⟨t, f, .absent fun g => g1 (starts_other (outer_other ho) (symm hr) g), hr⟩
  | delims g1 g2 g3 g4 =>
    obtain ⟨t1, f1, k1, hr1⟩ := split_other (outer_other ho) g1 hr
    refine ⟨t1, f1, .delims k1 g2 (ne hr1 g3) ?_, hr1⟩
    rintro w hw ⟨r', ha⟩
    obtain ⟨r'', ha', -⟩ := after_conjunction ho hn hw ha (symm hr1)
    exact g4 w hw ⟨r'', ha'⟩
  | conjunction g1 g2 g3 g4 g5 g6 g7 g8 =>
    obtain ⟨t1, f1, k1, hr1⟩ := split_other (outer_other ho) g1 hr
    obtain ⟨t2, k2, hr2⟩ := after_conjunction ho hn (by rw [g3]; simp) g5 hr1
    obtain ⟨t3, f3, k3, hr3⟩ := split_other (outer_other ho) g6 hr2
    refine ⟨t3, f3, .conjunction k1 g2 g3 ?_ k2 k3 (ne hr3 g7) ?_, hr3⟩
    · rintro w hw ⟨r', ha⟩
      obtain ⟨r'', ha', -⟩ := after_conjunction ho hn (by rw [g3]; simp [hw]) ha (symm hr1)
      exact g4 w hw ⟨r'', ha'⟩
    · intro hds
      have e1 := g6.1
      have e2 := k3.1
      rw [hds, List.nil_append] at e1 e2
      rw [e1, e2] at hr2
      exact starts_end ho (fun b hb => Or.inr hb) (fun b hb => Or.inl hb) (g8 hds) hr2

omit hn in
theorem agoText {s t r : Bytes} (h : AgoText cfg s r) (hr : Renumbered R cfg f s t) :
    ∃ r', AgoText cfg t r' ∧ Renumbered R cfg false r r' := by
  obtain ⟨g1, g2⟩ := h
  obtain ⟨r', k1, hr1⟩ := after_letters ho ago_letters g1 (by decide) hr
  refine ⟨r', ⟨k1, ?_⟩, hr1⟩
  rcases g2 with rfl | g2
  · exact Or.inl (nil hr1)
  · exact Or.inr (starts_end ho (fun b hb => hb) (fun b hb => Or.inr (Or.inl hb)) g2 hr1)

omit hn in
theorem agoPart {s t r : Bytes} {m m' : Multiplier} (h : AgoPart cfg s m m' r) (hr : Renumbered R cfg f s t) :
    ∃ r' f', AgoPart cfg t m m' r' ∧ Renumbered R cfg f' r r' := by
  cases h with
  | absent g1 => exact ⟨t, f, .absent fun ha g => g1 ha (starts_other (inner_other ho) (symm hr) g), hr⟩
  | other g1 g2 g3 g4 g5 =>
    obtain ⟨t1, f1, k1, hr1⟩ := split_other (inner_other ho) g2 hr
    refine ⟨t, f, .other g1 k1 g3 (ne hr1 g4) ?_, hr⟩
    rintro ⟨r', ha⟩
    obtain ⟨r'', ha', -⟩ := agoText ho ha (symm hr1)
    exact g5 ⟨r'', ha'⟩
  | ago g1 g2 g3 g4 =>
    obtain ⟨t1, f1, k1, hr1⟩ := split_other (inner_other ho) g2 hr
    obtain ⟨t2, k2, hr2⟩ := agoText ho g4 hr1
    exact ⟨t2, false, .ago g1 k1 g3 k2, hr2⟩

theorem unitMulti {s t r : Bytes} {u} (h : UnitMulti cfg units s u r) (hr : Renumbered R cfg f s t) :
    ∃ r' f', UnitMulti cfg units t u r' ∧ Renumbered R cfg f' r r' := by
  obtain ⟨g1, g2, g3⟩ := h
  obtain ⟨t1, k1, hr1⟩ := unitIn ho hn g1 hr
  obtain ⟨t2, f2, k2, hr2⟩ := agoPart ho g2 hr1
  obtain ⟨t3, f3, k3, hr3⟩ := connection ho hn g3 hr2
  exact ⟨t3, f3, .mk k1 k2 k3, hr3⟩

omit hn in
theorem starts_outer {r r' : Bytes} (h : r = [] ∨ StartsWith (cfg.outerDelimiter · = true) r) (hr : Renumbered R cfg f r r') :
    r' = [] ∨ StartsWith (cfg.outerDelimiter · = true) r' := by
  rcases h with rfl | h
  · exact Or.inl (nil hr)
  · exact Or.inr (starts_other (outer_other ho) hr h)

theorem multi {s t r : Bytes} {item : Item} (h : MultiText cfg units keywords numerals s item r) (hr : Renumbered R cfg f s t) :
    ∃ item' r' f', MultiText cfg units keywords numerals t item' r' ∧ SameItem R item item' ∧ Renumbered R cfg f' r r' := by
  have nokey : (∀ k, keywords = some k → ¬ ∃ u r, WordIn (KeywordEnd cfg) k s u r) →
      ∀ k, keywords = some k → ¬ ∃ u r, WordIn (KeywordEnd cfg) k t u r := by
    rintro h k hk ⟨u, r, hw⟩
    obtain ⟨r', hw', -⟩ := keywordIn ho hn hk hw (symm hr)
    exact h k hk ⟨u, r', hw'⟩
  cases h with
  | numberEnd g1 =>
    obtain ⟨W', F', e', t1, k1, k2, hr1⟩ := number g1 hr
    rw [nil hr1] at k1
    exact ⟨_, [], false, .numberEnd k1, .number k2, .done⟩
  | numberUnit g1 g2 g3 g4 =>
    obtain ⟨W', F', e', t1, k1, kv, hr1⟩ := number g1 hr
    obtain ⟨t2, f2, k2, hr2⟩ := afterDelims ho g2 hr1
    obtain ⟨t3, f3, k3, hr3⟩ := unitMulti ho hn g4 hr2
    exact ⟨_, t3, f3, .numberUnit k1 k2 g3 k3, .number kv, hr3⟩
  | number g1 g2 g3 g4 g5 =>
    obtain ⟨W', F', e', t1, k1, kv, hr1⟩ := number g1 hr
    obtain ⟨t2, f2, k2, hr2⟩ := afterDelims ho g2 hr1
    obtain ⟨t3, f3, k3, hr3⟩ := connection ho hn g5 hr2
    refine ⟨_, t3, f3, .number k1 k2 (ne hr2 g3) ?_ k3, .number kv, hr3⟩
    rintro he ⟨u, r, hw⟩
    obtain ⟨r', hw', -⟩ := unitIn ho hn hw (symm hr2)
    exact g4 he ⟨u, r', hw'⟩
  | inf g1 g2 g3 g4 =>
    obtain ⟨t1, k1, hr1⟩ := after_letters ho inf_letters g2 (by decide) hr
    obtain ⟨t2, f2, k2, hr2⟩ := connection ho hn g4 hr1
    exact ⟨_, t2, f2, .inf g1 k1 (starts_outer ho g3 hr1) k2, .refl, hr2⟩
  | infinity g1 g2 g3 g4 g5 g6 =>
    obtain ⟨t1, k1, hr1⟩ := after_letters ho inf_letters g2 (by decide) hr
    obtain ⟨t2, k2, hr2⟩ := after_letters ho inity_letters g4 (by decide) hr1
    obtain ⟨t3, f3, k3, hr3⟩ := connection ho hn g6 hr2
    exact ⟨_, t3, f3, .infinity g1 k1 (fun g => g3 (starts_other (outer_other ho) (symm hr1) g)) k2 (starts_outer ho g5 hr2) k3, .refl, hr3⟩
  | keyword g1 g2 g3 g4 =>
    obtain ⟨t1, k1, hr1⟩ := keywordIn ho hn g2 g3 hr
    obtain ⟨t2, f2, k2, hr2⟩ := connection ho hn g4 hr1
    exact ⟨_, t2, f2, .keyword (wordStart ho g1 hr) g2 k1 k2, .refl, hr2⟩
  | unit g1 g2 g3 g4 =>
    obtain ⟨t1, f1, k1, hr1⟩ := unitMulti ho hn g4 hr
    exact ⟨_, t1, f1, .unit (wordStart ho g1 hr) (nokey g2) g3 k1, .refl, hr1⟩
  | numeral g1 g2 g3 g4 g5 g6 g7 g8 g9 g10 =>
    obtain ⟨t1, k1, hr1⟩ := split_id ho hn g5 g6 (Or.inr (Or.inr ⟨_, _, g4, g7⟩)) hr
    obtain ⟨t2, f2, k2, hr2⟩ := split_other (inner_other ho) g8 hr1
    obtain ⟨t3, f3, k3, hr3⟩ := unitMulti ho hn g10 hr2
    refine ⟨_, t3, f3, .numeral (wordStart ho g1 hr) (nokey g2) ?_ g4 k1 g6 g7 k2 (ne hr2 g9) k3, .refl, hr3⟩
    rintro ha ⟨u, r, hw⟩
    obtain ⟨r', hw', -⟩ := unitIn ho hn hw (symm hr)
    exact g3 ha ⟨u, r', hw'⟩

theorem durations {s t : Bytes} {l : List (Bool × Item)} (h : Durations cfg units keywords numerals s l) (hr : Renumbered R cfg f s t) :
    ∃ l', Durations cfg units keywords numerals t l' ∧ List.Forall₂ (fun i j => i.1 = j.1 ∧ SameItem R i.2 j.2) l l' := by
  induction h generalizing t f with
  | last g1 g2 =>
    obtain ⟨t1, f1, k1, hr1⟩ := sign ho g1 hr
    obtain ⟨i, t2, f2, k2, ki, hr2⟩ := multi ho hn g2 hr1
    rw [nil hr2] at k2
    exact ⟨_, .last k1 k2, .cons ⟨rfl, ki⟩ .nil⟩
  | more g1 g2 g3 _ ih =>
    obtain ⟨t1, f1, k1, hr1⟩ := sign ho g1 hr
    obtain ⟨i, t2, f2, k2, ki, hr2⟩ := multi ho hn g2 hr1
    obtain ⟨l', k3, k4⟩ := ih hr2
    exact ⟨_, .more k1 k2 (ne hr2 g3) k3, .cons ⟨rfl, ki⟩ k4⟩

omit ho hn in
theorem value_same {neg : Bool} {W F W' F' : Bytes} {e e' : Int} {m : Multiplier} {d : Duration}
    (h : literalValue W F e = literalValue W' F' e') (hv : Value neg W F e m d) : Value neg W' F' e' m d := by
  have key : literalValue W F (e + m.exponent) = literalValue W' F' (e' + m.exponent) := by
    unfold literalValue at *
    rw [zpow_add₀ (by norm_num), zpow_add₀ (by norm_num), ← mul_assoc, ← mul_assoc, h]
  obtain ⟨h1, h2, h3⟩ := hv
  rw [key] at h2 h3
  exact ⟨h1, h2, h3⟩

omit ho hn in
theorem accepted_same {neg : Bool} {i j : Item} {d : Duration} (h : SameItem Eq i j) (ha : Accepted cfg neg i d) : Accepted cfg neg j d := by
  cases h with
  | refl => exact ha
  | number hv =>
    refine ⟨?_, ha.2⟩
    cases ha.1 with
    | number g => exact .number (value_same hv g)
    | numberUnit g1 g2 => exact .numberUnit g1 (value_same hv g2)

theorem denotesSingle {s t : Bytes} {d : Duration} (h : DenotesSingle cfg units keywords numerals s d)
    (hr : Renumbered Eq cfg f s t) : DenotesSingle cfg units keywords numerals t d := by
  obtain ⟨neg, r, item, g1, g2, g3⟩ := h
  obtain ⟨t1, f1, k1, hr1⟩ := sign ho g1 hr
  obtain ⟨j, k2, kj⟩ := single ho hn g2 hr1
  exact ⟨neg, t1, j, k1, k2, accepted_same kj g3⟩

theorem denotesMultiple {s t : Bytes} {l : List Duration} (h : DenotesMultiple cfg units keywords numerals s l)
    (hr : Renumbered Eq cfg f s t) : DenotesMultiple cfg units keywords numerals t l := by
  obtain ⟨items, g1, g2⟩ := h
  obtain ⟨l', k1, k2⟩ := durations ho hn g1 hr
  refine ⟨l', k1, ?_⟩
  clear g1 k1
  induction k2 generalizing l with
  | nil => exact g2
  | cons h _ ih =>
    cases g2 with
    | cons a b => exact .cons (by rw [← h.1]; exact accepted_same h.2 a) (ih b)

end

end Fundu.Renumbered
