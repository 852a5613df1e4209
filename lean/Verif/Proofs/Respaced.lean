import Verif.Spec.Respaced
import Verif.Proofs.Concat
/-! # Texts which differ only in their gaps -/
namespace Fundu.Respaced
open Fundu Fundu.Spec Fundu.Props

variable {D : UInt8 → Prop}

theorem symm {s t : Bytes} (h : Respaced D s t) : Respaced D t s := by
  induction h with
  | done => exact .done
  | same h _ ih => exact .same h ih
  | gap h1 h2 h3 h4 h5 h6 _ ih => exact .gap h3 h4 h1 h2 h6 h5 ih

theorem nil {t : Bytes} (h : Respaced D [] t) : t = [] := by
  generalize hs : ([] : Bytes) = s at h
  cases h with
  | done => rfl
  | same _ _ => cases hs
  | gap h1 h2 _ _ _ _ _ => exact absurd (List.append_eq_nil_iff.1 hs.symm).1 h2

theorem nil' {s : Bytes} (h : Respaced D s []) : s = [] := nil (symm h)

theorem ne {s t : Bytes} (h : Respaced D s t) (hs : s ≠ []) : t ≠ [] := by
  rintro rfl; exact hs (nil' h)

theorem cons {b : UInt8} {s t : Bytes} (h : Respaced D (b :: s) t) (hb : ¬ D b) : ∃ t', t = b :: t' ∧ Respaced D s t' := by
  generalize hs : b :: s = s' at h
  cases h with
  | done => cases hs
  | same _ h => cases hs; exact ⟨_, rfl, h⟩
  | @gap x y _ _ h1 h2 _ _ _ _ _ =>
    cases x with
    | nil => exact absurd rfl h2
    | cons c x => cases hs; exact absurd (h1 b (by simp)) hb

theorem append {x r t : Bytes} (h : Respaced D (x ++ r) t) (hx : ∀ b ∈ x, ¬ D b) : ∃ r', t = x ++ r' ∧ Respaced D r r' := by
  induction x generalizing t with
  | nil => exact ⟨t, rfl, h⟩
  | cons b x ih =>
    obtain ⟨t', rfl, h'⟩ := cons h (hx b (by simp))
    obtain ⟨r', rfl, h''⟩ := ih h' fun c hc => hx c (by simp [hc])
    exact ⟨r', rfl, h''⟩

theorem starts_space {s t : Bytes} (h : Respaced D s t) (hs : StartsWith D s) : StartsWith D t := by
  obtain ⟨b, l, rfl, hb⟩ := hs
  generalize hs : b :: l = s' at h
  cases h with
  | done => cases hs
  | same h _ => cases hs; exact absurd hb h
  | @gap x y _ _ _ _ h3 h4 _ _ _ =>
    cases y with
    | nil => exact absurd rfl h4
    | cons c y => exact ⟨c, _, rfl, h3 c (by simp)⟩

theorem starts_other {p : UInt8 → Prop} (hp : ∀ b, D b → ¬ p b) {s t : Bytes} (h : Respaced D s t) (hs : StartsWith p s) :
    StartsWith p t := by
  obtain ⟨b, l, rfl, hb⟩ := hs
  obtain ⟨t', rfl, -⟩ := cons h fun g => hp b g hb
  exact ⟨b, t', rfl, hb⟩

theorem starts_more {p : UInt8 → Prop} (hp : ∀ b, D b → p b) {s t : Bytes} (h : Respaced D s t) (hs : StartsWith p s) :
    StartsWith p t := by
  by_cases hd : StartsWith D s
  · exact startsWith_mono hp (starts_space h hd)
  · obtain ⟨b, l, rfl, hb⟩ := hs
    obtain ⟨t', rfl, -⟩ := cons h fun g => hd ⟨b, l, rfl, g⟩
    exact ⟨b, t', rfl, hb⟩

theorem split_space {s t ds r : Bytes} (hs : Split D s ds r) (h : Respaced D s t) :
    ∃ ds' r', Split D t ds' r' ∧ Respaced D r r' ∧ (ds = [] ↔ ds' = []) := by
  by_cases hd : StartsWith D s
  · obtain ⟨h1, h2, h3⟩ := hs
    cases h with
    | done => exact absurd hd not_startsWith_nil
    | same h _ => exact absurd (startsWith_cons.1 hd) h
    | @gap x y s' t' g1 g2 g3 g4 g5 g6 g7 =>
      obtain ⟨rfl, rfl⟩ := split_unique (⟨h1, h2, h3⟩ : Split D (x ++ s') ds r) ⟨rfl, g1, g5⟩
      exact ⟨y, t', ⟨rfl, g3, g6⟩, g7, by simp [g2, g4]⟩
  · obtain ⟨rfl, rfl⟩ := split_unique hs (split_nil hd)
    exact ⟨[], t, split_nil fun g => hd (starts_space (symm h) g), h, by simp⟩

theorem split_other {p : UInt8 → Prop} (hp : ∀ b, D b → ¬ p b) {s t w r : Bytes} (hs : Split p s w r) (h : Respaced D s t) :
    ∃ r', Split p t w r' ∧ Respaced D r r' := by
  obtain ⟨rfl, h2, h3⟩ := hs
  obtain ⟨r', rfl, g⟩ := append h fun b hb hd => hp b hd (h2 b hb)
  exact ⟨r', ⟨rfl, h2, fun hh => h3 (starts_other hp (symm g) hh)⟩, g⟩

theorem exists_split (D : UInt8 → Prop) (s : Bytes) : ∃ u v, Split D s u v := by
  induction s with
  | nil => exact ⟨[], [], rfl, by simp, not_startsWith_nil⟩
  | cons b s ih =>
    by_cases hb : D b
    · obtain ⟨u, v, rfl, h2, h3⟩ := ih
      refine ⟨b :: u, v, rfl, ?_, h3⟩
      intro c hc
      rcases List.mem_cons.1 hc with rfl | hc
      · exact hb
      · exact h2 c hc
    · exact ⟨[], b :: s, split_nil fun g => hb (startsWith_cons.1 g)⟩

theorem all_append {u v : Bytes} (hu : ∀ b ∈ u, D b) (hv : ∀ b ∈ v, D b) : ∀ b ∈ u ++ v, D b :=
  fun b hb => (List.mem_append.1 hb).elim (hu b) (hv b)

theorem prepend_one (b : UInt8) {s t : Bytes} (h : Respaced D s t) : Respaced D (b :: s) (b :: t) := by
  by_cases hb : D b
  · have h1 : ∀ c ∈ ([b] : Bytes), D c := by simpa using hb
    by_cases hd : StartsWith D s
    · cases h with
      | done => exact absurd hd not_startsWith_nil
      | same h _ => exact absurd (startsWith_cons.1 hd) h
      | @gap x y u v g1 g2 g3 g4 g5 g6 g7 =>
        exact .gap (x := b :: x) (y := b :: y) (all_append h1 g1) (by simp) (all_append h1 g3) (by simp) g5 g6 g7
    · exact .gap (x := [b]) (y := [b]) h1 (by simp) h1 (by simp) hd (fun g => hd (starts_space (symm h) g)) h
  · exact .same hb h

/-- what is in front of a text does not matter -/
theorem prepend (a : Bytes) {s t : Bytes} (h : Respaced D s t) : Respaced D (a ++ s) (a ++ t) := by
  induction a with
  | nil => exact h
  | cons b a ih => exact prepend_one b ih

theorem refl (s : Bytes) : Respaced D s s := by
  have := prepend s (.done (space := D))
  rwa [List.append_nil] at this

/-- replacing one gap by another -/
theorem replace {a x y c : Bytes} (hx : ∀ b ∈ x, D b) (hx0 : x ≠ []) (hy : ∀ b ∈ y, D b) (hy0 : y ≠ []) :
    Respaced D (a ++ (x ++ c)) (a ++ (y ++ c)) := by
  apply prepend
  obtain ⟨u, v, rfl, h2, h3⟩ := exists_split D c
  rw [← List.append_assoc, ← List.append_assoc]
  exact .gap (all_append hx h2) (by simp [hx0]) (all_append hy h2) (by simp [hy0]) h3 h3 (refl v)

/-! ## The grammar -/

section
variable {cfg : Config} {units : TimeUnitsLike} {keywords : Option TimeUnitsLike} {numerals : Option NumbersLike}

/-- the delimiters of the settings -/
abbrev Del (cfg : Config) (b : UInt8) : Prop := cfg.innerDelimiter b = true

variable (ho : Orderly cfg units keywords numerals) (h1 : OneDelimiter cfg)
include ho h1

theorem not_digit : ∀ b, Del cfg b → ¬ IsDigit b := fun b h => (ho.delimiters b (Or.inl h)).2.1
theorem not_point : ∀ b, Del cfg b → ¬ b = 46 := fun b h => (ho.delimiters b (Or.inl h)).2.2
theorem not_letter : ∀ b, Del cfg b → ¬ IsLetter b := fun b h => (ho.delimiters b (Or.inl h)).1
theorem not_sign : ∀ b, Del cfg b → ¬ (b = 43 ∨ b = 45) := fun b h g => g.elim (h1.signs b h).1 (h1.signs b h).2
theorem not_e : ∀ b, Del cfg b → ¬ (b = 101 ∨ b = 69) := by
  intro b h g
  apply not_letter ho h1 b h
  rcases g with rfl | rfl <;> decide

theorem outer_eq : cfg.outerDelimiter = cfg.innerDelimiter := funext fun b => (h1.same b).symm

theorem keywordEnd {b : UInt8} (h : Del cfg b) : KeywordEnd cfg b := Or.inl (by rw [outer_eq ho h1]; exact h)
theorem unitEnd {b : UInt8} (h : Del cfg b) : UnitEnd cfg b := Or.inr (Or.inl (by rw [outer_eq ho h1]; exact h))

theorem after_letters {w s t r : Bytes} (hw : ∀ b ∈ w, IsLetter b) (h : AfterWord w s r) (hr : Respaced (Del cfg) s t) :
    ∃ r', AfterWord w t r' ∧ Respaced (Del cfg) r r' := by
  obtain ⟨x, rfl, hx⟩ := h
  obtain ⟨r', rfl, g⟩ := append hr fun b hb hd => not_letter ho h1 b hd (sameText_letters hx hw b hb)
  exact ⟨r', ⟨x, rfl, hx⟩, g⟩

theorem after_conjunction (hp : PlainConjunctions cfg) {w s t r : Bytes} (hw : w ∈ cfg.conjunctions.getD []) (h : AfterWord w s r)
    (hr : Respaced (Del cfg) s t) : ∃ r', AfterWord w t r' ∧ Respaced (Del cfg) r r' := by
  obtain ⟨x, rfl, hx⟩ := h
  obtain ⟨r', rfl, g⟩ := append hr fun b hb hd =>
    hp w hw b (Concat.sameText_mem hx hb (not_letter ho h1 b hd)) (Or.inl hd)
  exact ⟨r', ⟨x, rfl, hx⟩, g⟩

theorem afterDelims {a : Bool} {s t r : Bytes} (h : AfterDelims a cfg.innerDelimiter s r) (hr : Respaced (Del cfg) s t) :
    ∃ r', AfterDelims a cfg.innerDelimiter t r' ∧ Respaced (Del cfg) r r' := by
  unfold AfterDelims at *
  cases a with
  | false => exact ⟨t, rfl, by rw [if_neg (by simp)] at h; rw [h]; exact hr⟩
  | true =>
    rw [if_pos rfl] at h
    obtain ⟨ds, h⟩ := h
    obtain ⟨ds', r', g1, g2, -⟩ := split_space h hr
    exact ⟨r', by rw [if_pos rfl]; exact ⟨ds', g1⟩, g2⟩

theorem sign {s t r : Bytes} {neg : Bool} (h : SignPart cfg s neg r) (hr : Respaced (Del cfg) s t) :
    ∃ r', SignPart cfg t neg r' ∧ Respaced (Del cfg) r r' := by
  cases h with
  | absent h2 h3 => exact ⟨t, .absent (ne hr h2) fun g => h3 (starts_other (not_sign ho h1) (symm hr) g), hr⟩
  | plus h2 h3 =>
    obtain ⟨t', rfl, g⟩ := cons hr fun hd => not_sign ho h1 _ hd (Or.inl rfl)
    obtain ⟨r', g1, g2⟩ := afterDelims ho h1 h2 g
    exact ⟨r', .plus g1 (ne g2 h3), g2⟩
  | minus h2 h3 =>
    obtain ⟨t', rfl, g⟩ := cons hr fun hd => not_sign ho h1 _ hd (Or.inr rfl)
    obtain ⟨r', g1, g2⟩ := afterDelims ho h1 h2 g
    exact ⟨r', .minus g1 (ne g2 h3), g2⟩

theorem exponentSign {s t r : Bytes} {neg : Bool} (h : ExponentSign s neg r) (hr : Respaced (Del cfg) s t) :
    ∃ r', ExponentSign t neg r' ∧ Respaced (Del cfg) r r' := by
  cases h with
  | absent p1 => exact ⟨t, .absent fun g' => p1 (starts_other (not_sign ho h1) (symm hr) g'), hr⟩
  | plus =>
    obtain ⟨t4, rfl, p⟩ := cons hr fun hd => not_sign ho h1 _ hd (Or.inl rfl)
    exact ⟨t4, .plus, p⟩
  | minus =>
    obtain ⟨t4, rfl, p⟩ := cons hr fun hd => not_sign ho h1 _ hd (Or.inr rfl)
    exact ⟨t4, .minus, p⟩

theorem number {s t W F r : Bytes} {e : Int} (h : NumberText cfg s W F e r) (hr : Respaced (Del cfg) s t) :
    ∃ r', NumberText cfg t W F e r' ∧ Respaced (Del cfg) r r' := by
  obtain ⟨r1, r2, g1, g2, g3⟩ := h
  obtain ⟨t1, k1, hr1⟩ := split_other (not_digit ho h1) g1 hr
  have frac : ∃ t2, FractionPart cfg W t1 F t2 ∧ Respaced (Del cfg) r2 t2 := by
    cases g2 with
    | absent q1 q2 => exact ⟨t1, .absent q1 fun g => q2 (starts_other (not_point ho h1) (symm hr1) g), hr1⟩
    | present q1 q2 q3 =>
      obtain ⟨t', rfl, g⟩ := cons hr1 fun hd => not_point ho h1 _ hd rfl
      obtain ⟨t2, k2, hr2⟩ := split_other (not_digit ho h1) q2 g
      exact ⟨t2, .present q1 k2 q3, hr2⟩
  obtain ⟨t2, k2, hr2⟩ := frac
  have ex : ∃ t3, ExponentPart cfg t2 e t3 ∧ Respaced (Del cfg) r t3 := by
    cases g3 with
    | absent q1 => exact ⟨t2, .absent fun g => q1 (starts_other (not_e ho h1) (symm hr2) g), hr2⟩
    | present q1 q2 q3 q4 q5 q6 =>
      obtain ⟨t', rfl, g⟩ := cons hr2 fun hd => not_e ho h1 _ hd q1
      obtain ⟨t4, p1, p2⟩ := exponentSign ho h1 q3 g
      obtain ⟨t5, p3, p4⟩ := split_other (not_digit ho h1) q4 p2
      exact ⟨t5, .present q1 q2 p1 p3 q5 q6, p4⟩
  obtain ⟨t3, k3, hr3⟩ := ex
  exact ⟨t3, ⟨t1, t2, k1, k2, k3⟩, hr3⟩

theorem wordStart {s t : Bytes} (h : WordStart cfg s) (hr : Respaced (Del cfg) s t) : WordStart cfg t := by
  obtain ⟨g1, g2, g3, g4⟩ := h
  refine ⟨ne hr g1, fun g => g2 (starts_other (not_digit ho h1) (symm hr) g),
    fun g => g3 (starts_other (not_point ho h1) (symm hr) g), fun hi => ?_⟩
  rintro ⟨r, hw⟩
  obtain ⟨r', hw', -⟩ := after_letters ho h1 inf_letters hw (symm hr)
  exact g4 hi ⟨r', hw'⟩

/-- a text without delimiters is the same -/
theorem plain {s t : Bytes} (hs : ∀ b ∈ s, ¬ Del cfg b) (hr : Respaced (Del cfg) s t) : t = s := by
  rw [← List.append_nil s] at hr
  obtain ⟨r', rfl, g⟩ := append hr hs
  rw [nil g, List.append_nil]

theorem identifier {id t : Bytes} (hi : IsIdentifier units keywords numerals id) (hr : Respaced (Del cfg) id t) : t = id :=
  plain ho h1 (fun b hb hd => (ho.plain id hi b hb).1 (Or.inl hd)) hr

theorem not_keyword {s t : Bytes} (h : ∀ k, keywords = some k → k.get s = none) (hr : Respaced (Del cfg) s t) :
    ∀ k, keywords = some k → k.get t = none := by
  intro k hk
  by_contra hne
  obtain ⟨u, hu⟩ := Option.ne_none_iff_exists'.1 hne
  obtain rfl := identifier ho h1 (Or.inr (Or.inl ⟨k, u, hk, hu⟩)) (symm hr)
  rw [h k hk] at hu
  cases hu

/-! ### Single durations -/

theorem unitSingle {s t r : Bytes} {u} (h : UnitSingle cfg units s u r) (hr : Respaced (Del cfg) s t) :
    ∃ r', UnitSingle cfg units t u r' ∧ Respaced (Del cfg) r r' := by
  cases h with
  | whole g1 g2 =>
    obtain rfl := identifier ho h1 (Or.inl ⟨_, g2⟩) hr
    exact ⟨[], .whole g1 g2, .done⟩
  | plain g1 g2 g3 g4 =>
    obtain rfl := identifier ho h1 (Or.inl ⟨_, g4⟩) hr
    exact ⟨[], .plain g1 g2 g3 g4, .done⟩
  | ago g1 g2 g3 g4 g5 g6 =>
    obtain ⟨t1, k1, hr1⟩ := split_other (fun b hd g => g hd) g2 hr
    obtain ⟨ds', t2, k2, hr2, -⟩ := split_space g5 hr1
    obtain ⟨t3, k3, hr3⟩ := after_letters ho h1 ago_letters g6 hr2
    exact ⟨t3, .ago g1 k1 g3 g4 k2 k3, hr3⟩

theorem unitSingle_end {s t : Bytes} {u} (h : UnitSingle cfg units s u []) (hr : Respaced (Del cfg) s t) :
    UnitSingle cfg units t u [] := by
  obtain ⟨r', g1, g2⟩ := unitSingle ho h1 h hr
  rwa [nil g2] at g1

theorem unitPart {s t : Bytes} {u} (h : UnitPart cfg units s u) (hr : Respaced (Del cfg) s t) : UnitPart cfg units t u := by
  cases h with
  | absent => rw [nil hr]; exact .absent
  | present g1 g2 g3 g4 =>
    obtain ⟨r', k1, hr1⟩ := afterDelims ho h1 g1 hr
    exact .present k1 (ne hr1 g2) g3 (unitSingle_end ho h1 g4 hr1)

theorem single {s t : Bytes} {item : Item} (h : SingleText cfg units keywords numerals s item) (hr : Respaced (Del cfg) s t) :
    SingleText cfg units keywords numerals t item := by
  cases h with
  | number g1 g2 =>
    obtain ⟨r', k1, hr1⟩ := number ho h1 g1 hr
    exact .number k1 (unitPart ho h1 g2 hr1)
  | infinity g1 g2 =>
    have : ∀ b ∈ s, IsLetter b := g2.elim (fun g => sameText_letters g inf_letters)
      (fun g => sameText_letters g (by decide))
    obtain rfl := plain ho h1 (fun b hb hd => not_letter ho h1 b hd (this b hb)) hr
    exact .infinity g1 g2
  | keyword g1 g2 g3 =>
    obtain rfl := identifier ho h1 (Or.inr (Or.inl ⟨_, _, g2, g3⟩)) hr
    exact .keyword g1 g2 g3
  | unit g1 g2 g3 g4 => exact .unit (wordStart ho h1 g1 hr) (not_keyword ho h1 g2 hr) g3 (unitSingle_end ho h1 g4 hr)
  | numeral g1 g2 g3 g4 g5 g6 g7 g8 g9 g10 =>
    obtain ⟨t1, k1, hr1⟩ := split_other (fun b hd g => g hd) g5 hr
    obtain ⟨ds', t2, k2, hr2, -⟩ := split_space g8 hr1
    refine .numeral (wordStart ho h1 g1 hr) (not_keyword ho h1 g2 hr) ?_ g4 k1 g6 g7 k2 (ne hr2 g9) (unitSingle_end ho h1 g10 hr2)
    rintro ha ⟨u, r, hu⟩
    obtain ⟨r', hu', -⟩ := unitSingle ho h1 hu (symm hr)
    exact g3 ha ⟨u, r', hu'⟩

/-! ### Several durations -/

theorem wordIn {stop : UInt8 → Prop} (hst : ∀ b, Del cfg b → stop b) {table : TimeUnitsLike} {s t r : Bytes} {u}
    (h : WordIn stop table s u r) (hr : Respaced (Del cfg) s t) : ∃ r', WordIn stop table t u r' ∧ Respaced (Del cfg) r r' := by
  obtain ⟨w, g1, g2, g3⟩ := h
  obtain ⟨r', k1, hr1⟩ := split_other (fun b hd g => g (hst b hd)) g1 hr
  exact ⟨r', ⟨w, k1, g2, g3⟩, hr1⟩

theorem connection (hp : PlainConjunctions cfg) {s t r : Bytes} (h : Connection cfg s r) (hr : Respaced (Del cfg) s t) :
    ∃ r', Connection cfg t r' ∧ Respaced (Del cfg) r r' := by
  have e := outer_eq ho h1
  cases h with
  | absent g1 =>
    refine ⟨t, .absent fun g => g1 ?_, hr⟩
    rw [e] at *
    exact starts_space (symm hr) g
  | delims g1 g2 g3 g4 =>
    rw [e] at g1
    obtain ⟨ds', t1, k1, hr1, hz⟩ := split_space g1 hr
    refine ⟨t1, .delims (by rw [e]; exact k1) (fun g => g2 (hz.2 g)) (ne hr1 g3) ?_, hr1⟩
    rintro w hw ⟨r', ha⟩
    obtain ⟨r'', ha', -⟩ := after_conjunction ho h1 hp hw ha (symm hr1)
    exact g4 w hw ⟨r'', ha'⟩
  | conjunction g1 g2 g3 g4 g5 g6 g7 g8 =>
    rw [e] at g1 g6
    obtain ⟨ds', t1, k1, hr1, hz⟩ := split_space g1 hr
    obtain ⟨t2, k2, hr2⟩ := after_conjunction ho h1 hp (by rw [g3]; simp) g5 hr1
    obtain ⟨ds'', t3, k3, hr3, hz'⟩ := split_space g6 hr2
    refine ⟨t3, .conjunction (by rw [e]; exact k1) (fun g => g2 (hz.2 g)) g3 ?_ k2 (by rw [e]; exact k3) (ne hr3 g7) ?_, hr3⟩
    · rintro w hw ⟨r', ha⟩
      obtain ⟨r'', ha', -⟩ := after_conjunction ho h1 hp (by rw [g3]; simp [hw]) ha (symm hr1)
      exact g4 w hw ⟨r'', ha'⟩
    · intro hds
      refine starts_other ?_ hr3 (g8 (hz'.2 hds))
      rintro b hd (g | g)
      · exact not_digit ho h1 b hd g
      · exact not_sign ho h1 b hd g

theorem agoText {s t r : Bytes} (h : AgoText cfg s r) (hr : Respaced (Del cfg) s t) :
    ∃ r', AgoText cfg t r' ∧ Respaced (Del cfg) r r' := by
  obtain ⟨g1, g2⟩ := h
  obtain ⟨r', k1, hr1⟩ := after_letters ho h1 ago_letters g1 hr
  refine ⟨r', ⟨k1, ?_⟩, hr1⟩
  rcases g2 with rfl | g2
  · exact Or.inl (nil hr1)
  · exact Or.inr (starts_more (fun b hd => keywordEnd ho h1 hd) hr1 g2)

theorem agoPart {s t r : Bytes} {m m' : Multiplier} (h : AgoPart cfg s m m' r) (hr : Respaced (Del cfg) s t) :
    ∃ r', AgoPart cfg t m m' r' ∧ Respaced (Del cfg) r r' := by
  cases h with
  | absent g1 => exact ⟨t, .absent fun ha g => g1 ha (starts_space (symm hr) g), hr⟩
  | other g1 g2 g3 g4 g5 =>
    obtain ⟨ds', t1, k1, hr1, hz⟩ := split_space g2 hr
    refine ⟨t, .other g1 k1 (fun g => g3 (hz.2 g)) (ne hr1 g4) ?_, hr⟩
    rintro ⟨r', ha⟩
    obtain ⟨r'', ha', -⟩ := agoText ho h1 ha (symm hr1)
    exact g5 ⟨r'', ha'⟩
  | ago g1 g2 g3 g4 =>
    obtain ⟨ds', t1, k1, hr1, hz⟩ := split_space g2 hr
    obtain ⟨t2, k2, hr2⟩ := agoText ho h1 g4 hr1
    exact ⟨t2, .ago g1 k1 (fun g => g3 (hz.2 g)) k2, hr2⟩

theorem unitMulti (hp : PlainConjunctions cfg) {s t r : Bytes} {u} (h : UnitMulti cfg units s u r) (hr : Respaced (Del cfg) s t) :
    ∃ r', UnitMulti cfg units t u r' ∧ Respaced (Del cfg) r r' := by
  obtain ⟨g1, g2, g3⟩ := h
  obtain ⟨t1, k1, hr1⟩ := wordIn ho h1 (fun b hd => unitEnd ho h1 hd) g1 hr
  obtain ⟨t2, k2, hr2⟩ := agoPart ho h1 g2 hr1
  obtain ⟨t3, k3, hr3⟩ := connection ho h1 hp g3 hr2
  exact ⟨t3, .mk k1 k2 k3, hr3⟩

theorem starts_end {r r' : Bytes} (h : r = [] ∨ StartsWith (cfg.outerDelimiter · = true) r) (hr : Respaced (Del cfg) r r') :
    r' = [] ∨ StartsWith (cfg.outerDelimiter · = true) r' := by
  rw [outer_eq ho h1] at *
  rcases h with rfl | h
  · exact Or.inl (nil hr)
  · exact Or.inr (starts_space hr h)

theorem multi (hp : PlainConjunctions cfg) {s t r : Bytes} {item : Item} (h : MultiText cfg units keywords numerals s item r)
    (hr : Respaced (Del cfg) s t) : ∃ r', MultiText cfg units keywords numerals t item r' ∧ Respaced (Del cfg) r r' := by
  have nokey : (∀ k, keywords = some k → ¬ ∃ u r, WordIn (KeywordEnd cfg) k s u r) →
      ∀ k, keywords = some k → ¬ ∃ u r, WordIn (KeywordEnd cfg) k t u r := by
    rintro h k hk ⟨u, r, hw⟩
    obtain ⟨r', hw', -⟩ := wordIn ho h1 (fun b hd => keywordEnd ho h1 hd) hw (symm hr)
    exact h k hk ⟨u, r', hw'⟩
  cases h with
  | numberEnd g1 =>
    obtain ⟨t1, k1, hr1⟩ := number ho h1 g1 hr
    rw [nil hr1] at k1
    exact ⟨[], .numberEnd k1, .done⟩
  | numberUnit g1 g2 g3 g4 =>
    obtain ⟨t1, k1, hr1⟩ := number ho h1 g1 hr
    obtain ⟨t2, k2, hr2⟩ := afterDelims ho h1 g2 hr1
    obtain ⟨t3, k3, hr3⟩ := unitMulti ho h1 hp g4 hr2
    exact ⟨t3, .numberUnit k1 k2 g3 k3, hr3⟩
  | number g1 g2 g3 g4 g5 =>
    obtain ⟨t1, k1, hr1⟩ := number ho h1 g1 hr
    obtain ⟨t2, k2, hr2⟩ := afterDelims ho h1 g2 hr1
    obtain ⟨t3, k3, hr3⟩ := connection ho h1 hp g5 hr2
    refine ⟨t3, .number k1 k2 (ne hr2 g3) ?_ k3, hr3⟩
    rintro he ⟨u, r, hw⟩
    obtain ⟨r', hw', -⟩ := wordIn ho h1 (fun b hd => unitEnd ho h1 hd) hw (symm hr2)
    exact g4 he ⟨u, r', hw'⟩
  | inf g1 g2 g3 g4 =>
    obtain ⟨t1, k1, hr1⟩ := after_letters ho h1 inf_letters g2 hr
    obtain ⟨t2, k2, hr2⟩ := connection ho h1 hp g4 hr1
    exact ⟨t2, .inf g1 k1 (starts_end ho h1 g3 hr1) k2, hr2⟩
  | infinity g1 g2 g3 g4 g5 g6 =>
    obtain ⟨t1, k1, hr1⟩ := after_letters ho h1 inf_letters g2 hr
    obtain ⟨t2, k2, hr2⟩ := after_letters ho h1 inity_letters g4 hr1
    obtain ⟨t3, k3, hr3⟩ := connection ho h1 hp g6 hr2
    refine ⟨t3, .infinity g1 k1 ?_ k2 (starts_end ho h1 g5 hr2) k3, hr3⟩
    rw [outer_eq ho h1] at *
    exact fun g => g3 (starts_space (symm hr1) g)
  | keyword g1 g2 g3 g4 =>
    obtain ⟨t1, k1, hr1⟩ := wordIn ho h1 (fun b hd => keywordEnd ho h1 hd) g3 hr
    obtain ⟨t2, k2, hr2⟩ := connection ho h1 hp g4 hr1
    exact ⟨t2, .keyword (wordStart ho h1 g1 hr) g2 k1 k2, hr2⟩
  | unit g1 g2 g3 g4 =>
    obtain ⟨t1, k1, hr1⟩ := unitMulti ho h1 hp g4 hr
    exact ⟨t1, .unit (wordStart ho h1 g1 hr) (nokey g2) g3 k1, hr1⟩
  | numeral g1 g2 g3 g4 g5 g6 g7 g8 g9 g10 =>
    obtain ⟨t1, k1, hr1⟩ := split_other (fun b hd g => g hd) g5 hr
    obtain ⟨ds', t2, k2, hr2, -⟩ := split_space g8 hr1
    obtain ⟨t3, k3, hr3⟩ := unitMulti ho h1 hp g10 hr2
    refine ⟨t3, .numeral (wordStart ho h1 g1 hr) (nokey g2) ?_ g4 k1 g6 g7 k2 (ne hr2 g9) k3, hr3⟩
    rintro ha ⟨u, r, hw⟩
    obtain ⟨r', hw', -⟩ := wordIn ho h1 (fun b hd => unitEnd ho h1 hd) hw (symm hr)
    exact g3 ha ⟨u, r', hw'⟩

theorem durations (hp : PlainConjunctions cfg) {s t : Bytes} {l : List (Bool × Item)}
    (h : Durations cfg units keywords numerals s l) (hr : Respaced (Del cfg) s t) : Durations cfg units keywords numerals t l := by
  induction h generalizing t with
  | last g1 g2 =>
    obtain ⟨t1, k1, hr1⟩ := sign ho h1 g1 hr
    obtain ⟨t2, k2, hr2⟩ := multi ho h1 hp g2 hr1
    rw [nil hr2] at k2
    exact .last k1 k2
  | more g1 g2 g3 _ ih =>
    obtain ⟨t1, k1, hr1⟩ := sign ho h1 g1 hr
    obtain ⟨t2, k2, hr2⟩ := multi ho h1 hp g2 hr1
    exact .more k1 k2 (ne hr2 g3) (ih hr2)

theorem denotesSingle {s t : Bytes} {d : Duration} (h : DenotesSingle cfg units keywords numerals s d)
    (hr : Respaced (Del cfg) s t) : DenotesSingle cfg units keywords numerals t d := by
  obtain ⟨neg, r, item, g1, g2, g3⟩ := h
  obtain ⟨t1, k1, hr1⟩ := sign ho h1 g1 hr
  exact ⟨neg, t1, item, k1, single ho h1 g2 hr1, g3⟩

theorem denotesMultiple (hp : PlainConjunctions cfg) {s t : Bytes} {l : List Duration}
    (h : DenotesMultiple cfg units keywords numerals s l) (hr : Respaced (Del cfg) s t) :
    DenotesMultiple cfg units keywords numerals t l := by
  obtain ⟨items, g1, g2⟩ := h
  exact ⟨items, durations ho h1 hp g1 hr, g2⟩

end

end Fundu.Respaced
