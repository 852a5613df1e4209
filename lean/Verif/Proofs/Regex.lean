import Verif.Proofs.Options
import Verif.Props.Words
import Verif.Spec.Regex
import Verif.Props.Mistakes
namespace Fundu.Props
open Fundu Fundu.Spec Fundu.Spec.Regex

theorem matches_seq {a b : Regex} {s : Bytes} : (Regex.seq a b).Matches s ↔ ∃ x y, s = x ++ y ∧ a.Matches x ∧ b.Matches y := Iff.rfl
theorem matches_alt {a b : Regex} {s : Bytes} : (Regex.alt a b).Matches s ↔ a.Matches s ∨ b.Matches s := Iff.rfl

theorem matches_opt {r : Regex} {s : Bytes} : (opt r).Matches s ↔ s = [] ∨ r.Matches s := Iff.rfl

theorem matches_byte {b : UInt8} {s : Bytes} : (byte b).Matches s ↔ s = [b] := by
  unfold byte Matches
  constructor
  · rintro ⟨c, h, rfl⟩; rw [eq_of_beq h]
  · rintro rfl; exact ⟨b, by simp, rfl⟩

theorem matches_many_one {p : UInt8 → Bool} {s : Bytes} : (Regex.many (.one p)).Matches s ↔ ∀ b ∈ s, p b = true := by
  unfold Matches
  constructor
  · rintro ⟨l, rfl, h⟩ b hb
    obtain ⟨x, hx, hb⟩ := List.mem_flatten.1 hb
    obtain ⟨c, hc, rfl⟩ := h x hx
    rw [List.mem_singleton.1 hb]; exact hc
  · intro h
    refine ⟨s.map fun b => [b], ?_, ?_⟩
    · induction s with
      | nil => rfl
      | cons b s ih =>
        rw [List.map_cons, List.flatten_cons, ← ih fun c hc => h c (List.mem_cons_of_mem _ hc)]; rfl
    · intro x hx
      obtain ⟨b, hb, rfl⟩ := List.mem_map.1 hx
      exact ⟨b, h b hb, rfl⟩

theorem matches_some_one {p : UInt8 → Bool} {s : Bytes} : (many1 (.one p)).Matches s ↔ s ≠ [] ∧ ∀ b ∈ s, p b = true := by
  show (∃ x y, s = x ++ y ∧ (∃ b, p b = true ∧ x = [b]) ∧ (Regex.many (.one p)).Matches y) ↔ _
  simp only [matches_many_one]
  constructor
  · rintro ⟨x, y, rfl, ⟨b, hb, rfl⟩, h⟩
    refine ⟨by simp, ?_⟩
    intro c hc
    rcases List.mem_append.1 hc with hc | hc
    · rw [List.mem_singleton.1 hc]; exact hb
    · exact h c hc
  · rintro ⟨h, h'⟩
    cases s with
    | nil => exact absurd rfl h
    | cons b l => exact ⟨[b], l, rfl, ⟨b, h' b (by simp), rfl⟩, fun c hc => h' c (List.mem_cons_of_mem _ hc)⟩

theorem matches_word {w s : Bytes} : (word w).Matches s ↔ s = w := by
  induction w generalizing s with
  | nil => exact Iff.rfl
  | cons b w ih =>
    show (∃ x y, s = x ++ y ∧ (∃ c, (c == b) = true ∧ x = [c]) ∧ (word w).Matches y) ↔ _
    constructor
    · rintro ⟨x, y, rfl, ⟨c, hc, rfl⟩, h⟩
      rw [ih.1 h, eq_of_beq hc]; rfl
    · rintro rfl; exact ⟨[b], w, rfl, ⟨b, by simp, rfl⟩, ih.2 rfl⟩

theorem matches_anyCase {w s : Bytes} : (anyCase w).Matches s ↔ SameText s w := by
  induction w generalizing s with
  | nil =>
    show s = [] ↔ _
    unfold SameText
    simp
  | cons b w ih =>
    show (∃ x y, s = x ++ y ∧ (∃ c, (lower c == lower b) = true ∧ x = [c]) ∧ (anyCase w).Matches y) ↔ _
    constructor
    · rintro ⟨x, y, rfl, ⟨c, hc, rfl⟩, h⟩
      have := ih.1 h
      unfold SameText at this ⊢
      rw [List.singleton_append, List.map_cons, List.map_cons, this, eq_of_beq hc]
    · intro h
      cases s with
      | nil => cases h
      | cons c s =>
        unfold SameText at h
        rw [List.map_cons, List.map_cons] at h
        injection h with h1 h2
        exact ⟨[c], s, rfl, ⟨c, by simp [h1], rfl⟩, ih.2 h2⟩

theorem matches_words {ws : List Bytes} {s : Bytes} : (oneOf (ws.map word)).Matches s ↔ s ∈ ws := by
  induction ws with
  | nil => simp [oneOf, Matches]
  | cons w ws ih =>
    show (word w).Matches s ∨ (oneOf (ws.map word)).Matches s ↔ _
    rw [ih, matches_word, List.mem_cons]

theorem matches_allowed {b : Bool} {r : Regex} {s : Bytes} : (allowed b r).Matches s ↔ b = true ∧ r.Matches s := by
  cases b <;> simp [allowed, Matches]

theorem matches_digits {s : Bytes} : (many1 digit).Matches s ↔ s ≠ [] ∧ AllDigits s := by
  unfold digit
  rw [matches_some_one]
  simp only [decide_eq_true_eq]
  rfl

theorem matches_digits_many {s : Bytes} : (Regex.many digit).Matches s ↔ AllDigits s := by
  unfold digit
  rw [matches_many_one]
  simp only [decide_eq_true_eq]
  rfl

theorem matches_base {cfg : Config} {s : Bytes} : (baseRegex cfg).Matches s ↔
    (s ≠ [] ∧ AllDigits s) ∨ cfg.disableFraction = false ∧ ∃ W F, s = W ++ 46 :: F ∧ AllDigits W ∧ AllDigits F ∧ (W ≠ [] ∨ F ≠ []) := by
  unfold baseRegex
  rw [matches_alt, matches_allowed, matches_digits, matches_alt]
  simp only [matches_seq, matches_digits, matches_digits_many, matches_byte, Bool.not_eq_true']
  constructor
  · rintro (h | ⟨h, ⟨x, y, rfl, ⟨h1, h2⟩, p, q, rfl, rfl, h3⟩ | ⟨x, y, rfl, h1, p, q, rfl, rfl, h2, h3⟩⟩)
    · exact Or.inl h
    · exact Or.inr ⟨h, x, q, rfl, h2, h3, Or.inl h1⟩
    · exact Or.inr ⟨h, x, q, rfl, h1, h3, Or.inr h2⟩
  · rintro (h | ⟨h, W, F, rfl, h1, h2, h3 | h3⟩)
    · exact Or.inl h
    · exact Or.inr ⟨h, Or.inl ⟨W, _, rfl, ⟨h3, h1⟩, _, F, rfl, rfl, h2⟩⟩
    · exact Or.inr ⟨h, Or.inr ⟨W, _, rfl, h1, _, F, rfl, rfl, h3, h2⟩⟩

theorem matches_exponent {s : Bytes} : exponentRegex.Matches s ↔
    ∃ x sign E, s = x :: (sign ++ E) ∧ (x = 101 ∨ x = 69) ∧ (sign = [] ∨ sign = [43] ∨ sign = [45]) ∧ E ≠ [] ∧ AllDigits E := by
  unfold exponentRegex
  simp only [matches_seq, matches_digits, matches_byte, matches_alt, matches_opt]
  constructor
  · rintro ⟨x, y, rfl, h, p, q, rfl, h1, h2⟩
    rcases h with rfl | rfl
    · exact ⟨_, p, q, rfl, Or.inl rfl, h1, h2⟩
    · exact ⟨_, p, q, rfl, Or.inr rfl, h1, h2⟩
  · rintro ⟨x, sign, E, rfl, h, h1, h2⟩
    exact ⟨[x], _, rfl, h.imp (by rintro rfl; rfl) (by rintro rfl; rfl), sign, E, rfl, h1, h2⟩

/-! ## From the grammar to the regular expression -/

variable {cfg : Config} {units : TimeUnitsLike} {keywords : Option TimeUnitsLike} {numerals : Option NumbersLike} {U K N : List Bytes}

theorem number_matches {s W F r : Bytes} {e : Int} (h : NumberText cfg s W F e r) :
    ∃ t, s = t ++ r ∧ (numberRegex cfg).Matches t := by
  obtain ⟨r1, r2, ⟨rfl, hW, -⟩, h2, h3⟩ := h
  have hb : ∃ t, W ++ r1 = t ++ r2 ∧ (baseRegex cfg).Matches t := by
    cases h2 with
    | absent h4 _ => exact ⟨W, rfl, matches_base.2 (Or.inl ⟨h4, hW⟩)⟩
    | present h4 h5 h6 =>
      obtain ⟨rfl, hF, -⟩ := h5
      exact ⟨W ++ 46 :: F, by simp, matches_base.2 (Or.inr ⟨h4, W, F, rfl, hW, hF, h6⟩)⟩
  obtain ⟨t, e1, ht⟩ := hb
  rw [e1]
  unfold numberRegex
  simp only [matches_seq, matches_opt, matches_allowed, matches_exponent]
  cases h3 with
  | absent _ => exact ⟨t, rfl, t, [], by simp, ht, Or.inl rfl⟩
  | @present x q neg q' E rest hx hd hs hE hne _ =>
    obtain ⟨rfl, hE, -⟩ := hE
    have key : ∃ sign, q = sign ++ (E ++ r) ∧ (sign = [] ∨ sign = [43] ∨ sign = [45]) := by
      cases hs with
      | absent _ => exact ⟨[], rfl, Or.inl rfl⟩
      | plus => exact ⟨[43], rfl, Or.inr (Or.inl rfl)⟩
      | minus => exact ⟨[45], rfl, Or.inr (Or.inr rfl)⟩
    obtain ⟨sign, rfl, hsign⟩ := key
    refine ⟨t ++ x :: (sign ++ E), by simp, t, _, rfl, ht, Or.inr ⟨by rw [hd]; rfl, x, sign, E, rfl, hx, hsign, hne, hE⟩⟩

theorem unit_matches (hl : WordLists units keywords numerals U K N) {s : Bytes} {u} (h : UnitSingle cfg units s u []) :
    (unitRegex cfg U).Matches s := by
  unfold unitRegex
  simp only [matches_seq, matches_opt, matches_allowed, matches_words, matches_anyCase, spaceRegex, matches_some_one]
  cases h with
  | whole h1 h2 => exact ⟨s, [], by simp, (hl.ofUnits s).1 ⟨_, h2⟩, Or.inl rfl⟩
  | plain h1 h2 h3 h4 => exact ⟨s, [], by simp, (hl.ofUnits s).1 ⟨_, h4⟩, Or.inl rfl⟩
  | ago h1 h2 h3 h4 h5 h6 =>
    rename_i w r u' m ds r'
    obtain ⟨x, hx, hsame⟩ := h6
    rw [List.append_nil] at hx
    subst hx
    have hne : r' ≠ [] := by rintro rfl; exact absurd hsame (by decide)
    refine ⟨w, r, h2.1, (hl.ofUnits w).1 ⟨_, h4⟩, Or.inr ⟨h1, ds, r', h5.1, ⟨?_, h5.2.1⟩, hsame⟩⟩
    rintro rfl
    rcases not_startsWith_not h2.2.2 with rfl | h
    · exact hne (by have := h5.1; simpa using this.symm)
    · rw [h5.1] at h
      exact h5.2.2 h

theorem oneOf_cons {r : Regex} {l : List Regex} {s : Bytes} : (oneOf (r :: l)).Matches s ↔ r.Matches s ∨ (oneOf l).Matches s := Iff.rfl

/-- the regular expression of a duration without its sign -/
def bodyRegex (cfg : Config) (units keywords numerals : List Bytes) : Regex := oneOf [
    allowed (!cfg.disableInfinity) (.alt (anyCase (b! "inf")) (anyCase (b! "infinity"))),
    oneOf (keywords.map word),
    numberRegex cfg,
    .seq (numberRegex cfg) (.seq (opt (allowed cfg.allowTimeUnitDelimiter (many1 (spaceRegex cfg)))) (unitRegex cfg units)),
    allowed cfg.numberIsOptional (unitRegex cfg units),
    .seq (oneOf (numerals.map word)) (.seq (many1 (spaceRegex cfg)) (unitRegex cfg units))]

/-- the cases of a duration without its sign -/
theorem matches_body {s : Bytes} : (bodyRegex cfg U K N).Matches s ↔
    cfg.disableInfinity = false ∧ (SameText s (b! "inf") ∨ SameText s (b! "infinity")) ∨ s ∈ K ∨
    (numberRegex cfg).Matches s ∨
    (∃ t ds r, s = t ++ (ds ++ r) ∧ (numberRegex cfg).Matches t ∧ (ds = [] ∨ cfg.allowTimeUnitDelimiter = true) ∧
      (∀ b ∈ ds, cfg.innerDelimiter b = true) ∧ (unitRegex cfg U).Matches r) ∨
    cfg.numberIsOptional = true ∧ (unitRegex cfg U).Matches s ∨
    ∃ w ds r, s = w ++ (ds ++ r) ∧ w ∈ N ∧ ds ≠ [] ∧ (∀ b ∈ ds, cfg.innerDelimiter b = true) ∧ (unitRegex cfg U).Matches r := by
  unfold bodyRegex
  simp only [oneOf_cons, matches_allowed, matches_alt, matches_anyCase, matches_words, matches_seq, matches_opt, spaceRegex,
    matches_some_one, Bool.not_eq_true']
  constructor
  · rintro (h | h | h | ⟨t, y, rfl, h1, ds, r, rfl, h2, h3⟩ | h | ⟨w, y, rfl, h1, ds, r, rfl, ⟨h2, h3⟩, h4⟩ | h)
    · exact Or.inl h
    · exact Or.inr (Or.inl h)
    · exact Or.inr (Or.inr (Or.inl h))
    · refine Or.inr (Or.inr (Or.inr (Or.inl ⟨t, ds, r, rfl, h1, h2.imp_right And.left, ?_, h3⟩)))
      rcases h2 with rfl | ⟨-, -, h⟩
      · intro b hb; cases hb
      · exact h
    · exact Or.inr (Or.inr (Or.inr (Or.inr (Or.inl h))))
    · exact Or.inr (Or.inr (Or.inr (Or.inr (Or.inr ⟨w, ds, r, rfl, h1, h2, h3, h4⟩))))
    · exact h.elim
  · rintro (h | h | h | ⟨t, ds, r, rfl, h1, h2, h3, h4⟩ | h | ⟨w, ds, r, rfl, h1, h2, h3, h4⟩)
    · exact Or.inl h
    · exact Or.inr (Or.inl h)
    · exact Or.inr (Or.inr (Or.inl h))
    · refine Or.inr (Or.inr (Or.inr (Or.inl ⟨t, _, rfl, h1, ds, r, rfl, ?_, h4⟩)))
      by_cases hd : ds = []
      · exact Or.inl hd
      · exact Or.inr ⟨h2.resolve_left hd, hd, h3⟩
    · exact Or.inr (Or.inr (Or.inr (Or.inr (Or.inl h))))
    · exact Or.inr (Or.inr (Or.inr (Or.inr (Or.inr (Or.inl ⟨w, _, rfl, h1, ds, r, rfl, ⟨h2, h3⟩, h4⟩)))))

theorem after_matches {a : Bool} {d : Delimiter} {s r : Bytes} (h : AfterDelims a d s r) :
    ∃ ds, s = ds ++ r ∧ (ds = [] ∨ a = true) ∧ ∀ b ∈ ds, d b = true := by
  unfold AfterDelims at h
  split at h
  · obtain ⟨ds, h1, h2, -⟩ := h
    exact ⟨ds, h1, Or.inr (by assumption), h2⟩
  · exact ⟨[], by simp [h], Or.inl rfl, by simp⟩

theorem body_matches (hl : WordLists units keywords numerals U K N) {s : Bytes} {item : Item}
    (h : SingleText cfg units keywords numerals s item) : (bodyRegex cfg U K N).Matches s := by
  rw [matches_body]
  cases h with
  | number h1 h2 =>
    obtain ⟨t, rfl, ht⟩ := number_matches h1
    cases h2 with
    | absent => exact Or.inr (Or.inr (Or.inl (by rw [List.append_nil]; exact ht)))
    | present k1 k2 k3 k4 =>
      obtain ⟨ds, rfl, g1, g2⟩ := after_matches k1
      exact Or.inr (Or.inr (Or.inr (Or.inl ⟨t, ds, _, rfl, ht, g1, g2, unit_matches hl k4⟩)))
  | infinity h1 h2 => exact Or.inl ⟨h1, h2⟩
  | keyword _ h1 h2 => exact Or.inr (Or.inl ((hl.ofKeywords s).1 ⟨_, _, h1, h2⟩))
  | unit _ _ h1 h2 => exact Or.inr (Or.inr (Or.inr (Or.inr (Or.inl ⟨h1, unit_matches hl h2⟩))))
  | @numeral n w r1 q ds r2 u _ _ _ h4 h5 h6 h7 h8 h9 h10 =>
    refine Or.inr (Or.inr (Or.inr (Or.inr (Or.inr ⟨w, ds, r2, by rw [h5.1, h8.1], (hl.ofNumerals w).1 ⟨_, _, h4, h7⟩, ?_, h8.2.1,
      unit_matches hl h10⟩))))
    rintro rfl
    rcases not_startsWith_not h5.2.2 with rfl | h
    · exact h9 (by have := h8.1; simpa using this.symm)
    · rw [h8.1] at h
      exact h8.2.2 h

theorem matches_sign {s : Bytes} : (signRegex cfg).Matches s ↔
    s = [] ∨ ∃ b ds, s = b :: ds ∧ (b = 43 ∨ b = 45) ∧ (ds = [] ∨ cfg.allowSignDelimiter = true) ∧ ∀ c ∈ ds, cfg.innerDelimiter c = true := by
  unfold signRegex
  simp only [matches_opt, matches_seq, matches_alt, matches_byte, matches_allowed, spaceRegex, matches_some_one]
  constructor
  · rintro (h | ⟨x, y, rfl, h, h'⟩)
    · exact Or.inl h
    · refine Or.inr ?_
      have : ∃ b, x = [b] ∧ (b = 43 ∨ b = 45) := by rcases h with rfl | rfl; exacts [⟨_, rfl, Or.inl rfl⟩, ⟨_, rfl, Or.inr rfl⟩]
      obtain ⟨b, rfl, hb⟩ := this
      refine ⟨b, y, rfl, hb, h'.imp_right And.left, ?_⟩
      rcases h' with rfl | ⟨-, -, h'⟩
      · intro c hc; cases hc
      · exact h'
  · rintro (h | ⟨b, ds, rfl, hb, h1, h2⟩)
    · exact Or.inl h
    · refine Or.inr ⟨[b], ds, rfl, hb.imp (by rintro rfl; rfl) (by rintro rfl; rfl), ?_⟩
      by_cases hd : ds = []
      · exact Or.inl hd
      · exact Or.inr ⟨h1.resolve_left hd, hd, h2⟩

theorem sign_matches {s r : Bytes} {neg : Bool} (h : SignPart cfg s neg r) : ∃ sg, s = sg ++ r ∧ (signRegex cfg).Matches sg := by
  cases h with
  | absent _ _ => exact ⟨[], rfl, matches_sign.2 (Or.inl rfl)⟩
  | plus h _ =>
    obtain ⟨ds, rfl, g⟩ := after_matches h
    exact ⟨43 :: ds, rfl, matches_sign.2 (Or.inr ⟨43, ds, rfl, Or.inl rfl, g⟩)⟩
  | minus h _ =>
    obtain ⟨ds, rfl, g⟩ := after_matches h
    exact ⟨45 :: ds, rfl, matches_sign.2 (Or.inr ⟨45, ds, rfl, Or.inr rfl, g⟩)⟩

/-- what the grammar of a single duration describes matches the regular expression -/
theorem duration_matches (hl : WordLists units keywords numerals U K N) {s r : Bytes} {neg : Bool} {item : Item}
    (h1 : SignPart cfg s neg r) (h2 : SingleText cfg units keywords numerals r item) : (durationRegex cfg U K N).Matches s := by
  obtain ⟨sg, rfl, h⟩ := sign_matches h1
  exact ⟨sg, r, rfl, h, body_matches hl h2⟩

/-! ## From the regular expression to the grammar -/

/-- the text cannot continue a number -/
def NumberEnd (r : Bytes) : Prop := ¬ StartsWith (fun b => IsDigit b ∨ b = 46 ∨ b = 101 ∨ b = 69) r

/-- a number whose exponent is out of range, in front of `r` -/
def OverflowText (cfg : Config) (s : Bytes) : Prop :=
  ∃ W r1 F x q n q' E rest, Split IsDigit s W r1 ∧ FractionPart cfg W r1 F (x :: q) ∧ (x = 101 ∨ x = 69) ∧
    cfg.disableExponent = false ∧ ExponentSign q n q' ∧ Split IsDigit q' E rest ∧ E ≠ [] ∧
    ¬ IsI16 (if n then -(decimal E : Int) else decimal E)

theorem digit_facts {b : UInt8} (h : IsDigit b) : b ≠ 43 ∧ b ≠ 45 ∧ b ≠ 46 ∧ b ≠ 101 ∧ b ≠ 69 := by
  unfold IsDigit at h
  refine ⟨?_, ?_, ?_, ?_, ?_⟩ <;> rintro rfl <;> revert h <;> decide

theorem base_text {t : Bytes} (h : (baseRegex cfg).Matches t) (r : Bytes) (h1 : ¬ StartsWith IsDigit r) (h2 : ¬ StartsWith (· = 46) r) :
    ∃ W F r1, Split IsDigit (t ++ r) W r1 ∧ FractionPart cfg W r1 F r := by
  rcases matches_base.1 h with ⟨h3, h4⟩ | ⟨h3, W, F, rfl, h4, h5, h6⟩
  · exact ⟨t, [], r, ⟨rfl, h4, h1⟩, .absent h3 h2⟩
  · refine ⟨W, F, 46 :: (F ++ r), ⟨by simp, h4, ?_⟩, .present h3 ⟨rfl, h5, h1⟩ h6⟩
    rw [startsWith_cons]
    decide

theorem number_text {t : Bytes} (h : (numberRegex cfg).Matches t) {r : Bytes} (hr : NumberEnd r) :
    (∃ W F e, NumberText cfg (t ++ r) W F e r) ∨ OverflowText cfg (t ++ r) := by
  have n1 : ¬ StartsWith IsDigit r := fun k => hr (startsWith_mono (fun _ => Or.inl) k)
  have n2 : ¬ StartsWith (· = 46) r := fun k => hr (startsWith_mono (fun _ k => Or.inr (Or.inl k)) k)
  have n3 : ¬ StartsWith (fun b => b = 101 ∨ b = 69) r := fun k => hr (startsWith_mono (fun _ k => Or.inr (Or.inr k)) k)
  unfold numberRegex at h
  simp only [matches_seq, matches_opt, matches_allowed, matches_exponent, Bool.not_eq_true'] at h
  obtain ⟨t, y, rfl, hb, rfl | ⟨hd, x, sign, E, rfl, hx, hs, hne, hE⟩⟩ := h
  · rw [List.append_nil]
    obtain ⟨W, F, r1, k1, k2⟩ := base_text hb r n1 n2
    exact Or.inl ⟨W, F, 0, r1, r, k1, k2, .absent n3⟩
  · have hx1 : ¬ IsDigit x ∧ x ≠ 46 := by
      rcases hx with rfl | rfl <;> decide
    obtain ⟨W, F, r1, k1, k2⟩ := base_text hb (x :: (sign ++ (E ++ r))) (by rw [startsWith_cons]; exact hx1.1)
      (by rw [startsWith_cons]; exact hx1.2)
    have e : t ++ x :: (sign ++ E) ++ r = t ++ x :: (sign ++ (E ++ r)) := by simp
    rw [e]
    have key : ∃ neg, ExponentSign (sign ++ (E ++ r)) neg (E ++ r) := by
      rcases hs with rfl | rfl | rfl
      · refine ⟨false, .absent ?_⟩
        obtain ⟨b, E', rfl⟩ := List.exists_cons_of_ne_nil hne
        rw [List.nil_append, List.cons_append, startsWith_cons]
        have := digit_facts (hE b (by simp))
        tauto
      · exact ⟨false, .plus⟩
      · exact ⟨true, .minus⟩
    obtain ⟨neg, hneg⟩ := key
    have hsE : Split IsDigit (E ++ r) E r := ⟨rfl, hE, n1⟩
    by_cases hi : IsI16 (if neg then -(decimal E : Int) else decimal E)
    · exact Or.inl ⟨W, F, _, r1, _, k1, k2, .present hx hd hneg hsE hne hi⟩
    · exact Or.inr ⟨W, r1, F, x, _, neg, _, E, r, k1, k2, hx, hd, hneg, hsE, hne, hi⟩

/-- what the regular expressions need besides orderly words: no time unit starts with `e` -/
def NoExponentUnits (U : List Bytes) : Prop := ∀ id ∈ U, ¬ StartsWith (fun b => b = 101 ∨ b = 69) id

theorem unit_identifier (hl : WordLists units keywords numerals U K N) {id : Bytes} (h : id ∈ U) : IsIdentifier units keywords numerals id :=
  Or.inl ((hl.ofUnits id).2 h)

theorem matches_unit {s : Bytes} : (unitRegex cfg U).Matches s ↔ s ∈ U ∨
    ∃ id ds a, s = id ++ (ds ++ a) ∧ id ∈ U ∧ cfg.allowAgo = true ∧ ds ≠ [] ∧ (∀ b ∈ ds, cfg.innerDelimiter b = true) ∧ SameText a (b! "ago") := by
  unfold unitRegex
  simp only [matches_seq, matches_opt, matches_allowed, matches_words, matches_anyCase, spaceRegex, matches_some_one]
  constructor
  · rintro ⟨id, y, rfl, h, rfl | ⟨h1, ds, a, rfl, ⟨h2, h3⟩, h4⟩⟩
    · exact Or.inl (by rw [List.append_nil]; exact h)
    · exact Or.inr ⟨id, ds, a, rfl, h, h1, h2, h3, h4⟩
  · rintro (h | ⟨id, ds, a, rfl, h, h1, h2, h3, h4⟩)
    · exact ⟨s, [], by simp, h, Or.inl rfl⟩
    · exact ⟨id, _, rfl, h, Or.inr ⟨h1, ds, a, rfl, ⟨h2, h3⟩, h4⟩⟩

theorem ago_start (ho : Orderly cfg units keywords numerals) {a : Bytes} (h : SameText a (b! "ago")) :
    ¬ StartsWith (cfg.innerDelimiter · = true) a := by
  rintro ⟨b, l, rfl, hb⟩
  exact (ho.delimiters b (Or.inl hb)).1 (sameText_letters h ago_letters b (by simp))

theorem unit_text (ho : Orderly cfg units keywords numerals) (hl : WordLists units keywords numerals U K N) {s : Bytes}
    (h : (unitRegex cfg U).Matches s) : ∃ u, UnitSingle cfg units s u [] := by
  have inner : ∀ {id}, id ∈ U → ∀ b ∈ id, ¬ cfg.innerDelimiter b = true := fun hid b hb k =>
    (ho.plain _ (unit_identifier hl hid) b hb).1 (Or.inl k)
  rcases matches_unit.1 h with h | ⟨id, ds, a, rfl, hid, h1, h2, h3, h4⟩
  · obtain ⟨u, hu⟩ := (hl.ofUnits s).2 h
    cases ha : cfg.allowAgo with
    | false => exact ⟨u, .whole ha hu⟩
    | true => exact ⟨u, .plain ha (split_self (inner h)) (ho.nonempty s (unit_identifier hl h)) hu⟩
  · obtain ⟨⟨u, m⟩, hu⟩ := (hl.ofUnits id).2 hid
    have hds : StartsWith (cfg.innerDelimiter · = true) (ds ++ a) := by
      obtain ⟨b, ds', rfl⟩ := List.exists_cons_of_ne_nil h2
      exact ⟨b, ds' ++ a, rfl, h3 b (by simp)⟩
    refine ⟨_, .ago h1 (split_of (inner hid) ?_) (ho.nonempty id (unit_identifier hl hid)) hu (split_of h3 (ago_start ho h4))
      ⟨a, by simp, h4⟩⟩
    rintro ⟨b, l, e, hb⟩
    obtain ⟨b', l', e', hb'⟩ := hds
    rw [e] at e'
    cases e'
    exact hb hb'

/-- a unit and what follows it, in front of which there is no delimiter -/
theorem unit_head (ho : Orderly cfg units keywords numerals) (hl : WordLists units keywords numerals U K N) {s : Bytes}
    (h : (unitRegex cfg U).Matches s) : ∃ id r, s = id ++ r ∧ id ∈ U ∧ (r = [] ∨ StartsWith (fun b => IsDelimiter cfg b ∨ NextDuration b) r) := by
  rcases matches_unit.1 h with h | ⟨id, ds, a, rfl, hid, h1, h2, h3, h4⟩
  · exact ⟨s, [], by simp, h, Or.inl rfl⟩
  · refine ⟨id, _, rfl, hid, Or.inr ?_⟩
    obtain ⟨b, ds', rfl⟩ := List.exists_cons_of_ne_nil h2
    exact ⟨b, ds' ++ a, rfl, Or.inl (Or.inl (h3 b (by simp)))⟩

theorem identifier_wordStart (ho : Orderly cfg units keywords numerals) {id r : Bytes} (hid : IsIdentifier units keywords numerals id)
    (hr : r = [] ∨ StartsWith (fun b => IsDelimiter cfg b ∨ NextDuration b) r) : WordStart cfg (id ++ r) := by
  have h1 := ho.nonempty id hid
  have h2 := ho.plain id hid
  have h3 := ho.point id hid
  refine ⟨by simp [h1], ?_, ?_, fun _ => ho.not_inf hid hr⟩
  · cases id with
    | nil => exact absurd rfl h1
    | cons b l =>
      rw [List.cons_append, startsWith_cons]
      exact fun k => (h2 b (by simp)).2 (Or.inl k)
  · cases id with
    | nil => exact absurd rfl h1
    | cons b l =>
      rw [List.cons_append, startsWith_cons (p := (· = 46))]
      exact fun k => h3 ⟨b, l, rfl, k⟩

theorem identifier_noSign (ho : Orderly cfg units keywords numerals) {id r : Bytes} (hid : IsIdentifier units keywords numerals id) :
    ¬ StartsWith (fun b => b = 43 ∨ b = 45) (id ++ r) := by
  have h1 := ho.nonempty id hid
  have h2 := ho.plain id hid
  cases id with
  | nil => exact absurd rfl h1
  | cons b l =>
    rw [List.cons_append, startsWith_cons]
    exact fun k => (h2 b (by simp)).2 (Or.inr k)

theorem no_keyword (ho : Orderly cfg units keywords numerals) {s : Bytes} (b : UInt8) (hb : b ∈ s) (hd : cfg.innerDelimiter b = true) :
    ∀ k, keywords = some k → k.get s = none := by
  intro k hk
  cases h : k.get s with
  | none => rfl
  | some u => exact absurd (Or.inl hd) (ho.plain s (Or.inr (Or.inl ⟨k, u, hk, h⟩)) b hb).1

/-- what matches the regular expression of a duration without its sign is in the grammar or has a huge exponent -/
theorem body_text (ho : Orderly cfg units keywords numerals) (hl : WordLists units keywords numerals U K N) (he : NoExponentUnits U)
    {s : Bytes} (h : (bodyRegex cfg U K N).Matches s) :
    (∃ item, SingleText cfg units keywords numerals s item) ∨ OverflowText cfg s := by
  rcases matches_body.1 h with ⟨h1, h2⟩ | h | h | ⟨t, ds, r, rfl, h1, h2, h3, h4⟩ | ⟨h1, h2⟩ | ⟨w, ds, r, rfl, h1, h2, h3, h4⟩
  · exact Or.inl ⟨_, .infinity h1 h2⟩
  · obtain ⟨k, u, hk, hu⟩ := (hl.ofKeywords s).2 h
    have := identifier_wordStart ho (r := []) (Or.inr (Or.inl ⟨k, u, hk, hu⟩)) (Or.inl rfl)
    rw [List.append_nil] at this
    exact Or.inl ⟨_, .keyword this hk hu⟩
  · rcases number_text h (r := []) not_startsWith_nil with ⟨W, F, e, hn⟩ | ho
    · rw [List.append_nil] at hn
      exact Or.inl ⟨_, .number hn .absent⟩
    · rw [List.append_nil] at ho
      exact Or.inr ho
  · obtain ⟨id, r', rfl, hid, hr'⟩ := unit_head ho hl h4
    have hstart := ho.start (r := r') (unit_identifier hl hid)
    have hne := ho.nonempty id (unit_identifier hl hid)
    have hws := identifier_wordStart ho (unit_identifier hl hid) hr'
    have hend : NumberEnd (ds ++ (id ++ r')) := by
      cases ds with
      | cons b ds =>
        rw [List.cons_append, NumberEnd, startsWith_cons]
        have hb := ho.delimiters b (Or.inl (h3 b (by simp)))
        rintro (k | k | k | k)
        · exact hb.2.1 k
        · exact hb.2.2 k
        · exact hb.1 (by rw [k]; decide)
        · exact hb.1 (by rw [k]; decide)
      | nil =>
        rw [List.nil_append]
        rintro ⟨b, l, hbl, k⟩
        rcases k with k | k | k
        · exact hws.2.1 ⟨b, l, hbl, k⟩
        · exact hws.2.2.1 ⟨b, l, hbl, k⟩
        · cases id with
          | nil => exact hne rfl
          | cons c id =>
            rw [List.cons_append] at hbl
            injection hbl with h1 h2
            exact he _ hid ⟨c, id, rfl, by rw [h1]; exact k⟩
    rcases number_text h1 hend with ⟨W, F, e, hn⟩ | ho'
    · obtain ⟨u, hu⟩ := unit_text ho hl h4
      refine Or.inl ⟨_, .number hn (.present ?_ hws.1 ?_ hu)⟩
      · have hin : ¬ StartsWith (cfg.innerDelimiter · = true) (id ++ r') := fun k => hstart (startsWith_mono (fun _ => Or.inl) k)
        rcases h2 with rfl | h2
        · exact afterDelims_self _ hin
        · unfold AfterDelims
          rw [if_pos h2]
          exact ⟨ds, rfl, h3, hin⟩
      · cases hemp : units.isEmpty with
        | false => rfl
        | true => rw [hl.ofEmpty hemp] at hid; cases hid
    · exact Or.inr ho'
  · obtain ⟨id, r', rfl, hid, hr'⟩ := unit_head ho hl h2
    have hws := identifier_wordStart ho (unit_identifier hl hid) hr'
    obtain ⟨u, hu⟩ := unit_text ho hl h2
    by_cases hk : ∃ k u, keywords = some k ∧ k.get (id ++ r') = some u
    · obtain ⟨k, u, hk, hu⟩ := hk
      exact Or.inl ⟨_, .keyword hws hk hu⟩
    · refine Or.inl ⟨_, .unit hws (fun k hk' => ?_) h1 hu⟩
      cases hg : k.get (id ++ r') with
      | none => rfl
      | some u => exact absurd ⟨k, u, hk', hg⟩ hk
  · obtain ⟨n, q, hn, hq⟩ := (hl.ofNumerals w).2 h1
    have hid : IsIdentifier units keywords numerals w := Or.inr (Or.inr ⟨n, q, hn, hq⟩)
    obtain ⟨b, ds', rfl⟩ := List.exists_cons_of_ne_nil h2
    have hb := h3 b (by simp)
    have hws := identifier_wordStart ho (r := b :: ds' ++ r) hid (Or.inr ⟨b, ds' ++ r, rfl, Or.inl (Or.inl hb)⟩)
    obtain ⟨u, hu⟩ := unit_text ho hl h4
    obtain ⟨id, r', rfl, hid', -⟩ := unit_head ho hl h4
    have hs1 : Split (¬ cfg.innerDelimiter · = true) (w ++ (b :: ds' ++ (id ++ r'))) w (b :: ds' ++ (id ++ r')) :=
      split_of (fun c hc k => (ho.plain w hid c hc).1 (Or.inl k)) (by rw [List.cons_append, startsWith_cons]; exact fun k => k hb)
    have hs2 : Split (cfg.innerDelimiter · = true) (b :: ds' ++ (id ++ r')) (b :: ds') (id ++ r') :=
      split_of h3 (ho.start_inner (unit_identifier hl hid'))
    have hne : id ++ r' ≠ [] := by simp [ho.nonempty id (unit_identifier hl hid')]
    exact Or.inl ⟨_, .numeral hws (no_keyword ho b (by simp) hb)
      (fun _ => numeral_not_unit ho hn hs1 hq hs2 hne) hn hs1 (ho.nonempty w hid) hq hs2 hne hu⟩

theorem overflow_head {s : Bytes} (h : OverflowText cfg s) : s ≠ [] ∧ StartsWith (fun b => IsDigit b ∨ b = 46) s := by
  obtain ⟨W, r1, F, x, q, n, q', E, rest, ⟨rfl, hW, -⟩, h2, -⟩ := h
  cases W with
  | cons b W => exact ⟨by simp, b, W ++ r1, rfl, Or.inl (hW b (by simp))⟩
  | nil =>
    cases h2 with
    | absent k _ => exact absurd rfl k
    | present _ _ _ => exact ⟨by simp, 46, _, rfl, Or.inr rfl⟩

/-- a text without its sign does not start with a delimiter or a sign -/
theorem body_start (ho : Orderly cfg units keywords numerals) {s : Bytes}
    (h : (∃ item, SingleText cfg units keywords numerals s item) ∨ OverflowText cfg s) :
    s ≠ [] ∧ ¬ StartsWith (cfg.innerDelimiter · = true) s ∧ ¬ StartsWith (fun b => b = 43 ∨ b = 45) s := by
  have num : StartsWith (fun b => IsDigit b ∨ b = 46) s → s ≠ [] ∧ ¬ StartsWith (cfg.innerDelimiter · = true) s ∧ ¬ StartsWith (fun b => b = 43 ∨ b = 45) s := by
    rintro ⟨b, l, rfl, hb⟩
    refine ⟨by simp, ?_, ?_⟩
    · rw [startsWith_cons]
      intro k
      have := ho.delimiters b (Or.inl k)
      tauto
    · rw [startsWith_cons]
      rcases hb with hb | rfl
      · have := digit_facts hb; tauto
      · decide
  rcases h with ⟨item, h⟩ | h
  · have hstart : ¬ StartsWith (cfg.innerDelimiter · = true) s := fun k => single_start ho h (startsWith_mono (fun _ => Or.inl) k)
    cases h with
    | number h1 _ =>
      refine num ?_
      rcases numberText_head h1 with ⟨b, l, rfl, hb⟩ | ⟨b, l, rfl, hb⟩
      · exact ⟨b, l, rfl, Or.inl hb⟩
      · exact ⟨b, l, rfl, Or.inr hb⟩
    | infinity _ h1 =>
      have hl : ∀ b ∈ s, IsLetter b := by
        rcases h1 with h1 | h1
        · exact sameText_letters h1 inf_letters
        · exact sameText_letters h1 (by decide)
      cases s with
      | nil => rcases h1 with h1 | h1 <;> exact absurd h1 (by decide)
      | cons b l =>
        refine ⟨by simp, hstart, ?_⟩
        rw [startsWith_cons]
        have := hl b (by simp)
        rintro (rfl | rfl) <;> exact absurd this (by decide)
    | keyword hw h1 h2 =>
      have := identifier_noSign ho (r := []) (Or.inr (Or.inl ⟨_, _, h1, h2⟩))
      rw [List.append_nil] at this
      exact ⟨hw.1, hstart, this⟩
    | unit hw _ _ h1 =>
      obtain ⟨id, r, v, rfl, h, -⟩ := unitSingle_identifier h1
      exact ⟨hw.1, hstart, identifier_noSign ho (Or.inl ⟨v, h⟩)⟩
    | numeral hw _ _ h1 h2 h3 h4 =>
      refine ⟨hw.1, hstart, ?_⟩
      rw [h2.1]
      exact identifier_noSign ho (Or.inr (Or.inr ⟨_, _, h1, h4⟩))
  · exact num (overflow_head h).2

theorem sign_text_part {sg s : Bytes} (h : (signRegex cfg).Matches sg) (hs : s ≠ []) (h1 : ¬ StartsWith (cfg.innerDelimiter · = true) s)
    (h2 : ¬ StartsWith (fun b => b = 43 ∨ b = 45) s) : ∃ neg, SignPart cfg (sg ++ s) neg s := by
  rcases matches_sign.1 h with rfl | ⟨b, ds, rfl, hb, h3, h4⟩
  · exact ⟨false, .absent hs h2⟩
  · have ha : AfterDelims cfg.allowSignDelimiter cfg.innerDelimiter (ds ++ s) s := by
      rcases h3 with rfl | h3
      · exact afterDelims_self _ h1
      · unfold AfterDelims
        rw [if_pos h3]
        exact ⟨ds, rfl, h4, h1⟩
    rcases hb with rfl | rfl
    · exact ⟨false, .plus ha hs⟩
    · exact ⟨true, .minus ha hs⟩

/-- what matches the regular expression is in the grammar or has a huge exponent -/
theorem duration_text (ho : Orderly cfg units keywords numerals) (hl : WordLists units keywords numerals U K N) (he : NoExponentUnits U)
    {s : Bytes} (h : (durationRegex cfg U K N).Matches s) :
    ∃ neg r, SignPart cfg s neg r ∧ ((∃ item, SingleText cfg units keywords numerals r item) ∨ OverflowText cfg r) := by
  obtain ⟨sg, r, rfl, h1, h2⟩ := h
  have hb := body_text ho hl he h2
  obtain ⟨k1, k2, k3⟩ := body_start ho hb
  obtain ⟨neg, hn⟩ := sign_text_part h1 k1 k2 k3
  exact ⟨neg, r, hn, hb⟩

theorem overflow_huge {s r : Bytes} {neg : Bool} (h1 : SignPart cfg s neg r) (h : OverflowText cfg r) : HugeExponent s := by
  obtain ⟨sg, rfl, -⟩ := sign_matches h1
  obtain ⟨W, r1, F, x, q, n, q', E, rest, ⟨rfl, -, -⟩, h2, hx, -, h3, ⟨rfl, hE, hr⟩, hne, hi⟩ := h
  have k1 : ∃ a, W ++ r1 = a ++ x :: q := by
    cases h2 with
    | absent _ _ => exact ⟨W, rfl⟩
    | present _ h _ => obtain ⟨rfl, -, -⟩ := h; exact ⟨W ++ 46 :: F, by simp⟩
  obtain ⟨a, ha⟩ := k1
  have k2 : ∃ sign, q = sign ++ (E ++ rest) ∧ ((sign = [] ∨ sign = [43]) ∧ n = false ∨ sign = [45] ∧ n = true) := by
    cases h3 with
    | absent _ => exact ⟨[], rfl, Or.inl ⟨Or.inl rfl, rfl⟩⟩
    | plus => exact ⟨[43], rfl, Or.inl ⟨Or.inr rfl, rfl⟩⟩
    | minus => exact ⟨[45], rfl, Or.inr ⟨rfl, rfl⟩⟩
  obtain ⟨sign, rfl, hs⟩ := k2
  exact ⟨sg ++ a, x, sign, E, rest, n, by rw [ha]; simp, hx, hs, hE, hne, hr, hi⟩

theorem single_mistake_error {s t : Bytes} {f : Fault} (h : SingleMistake cfg units keywords numerals t f) :
    f.error s ≠ .negativeNumber := by
  have hexp : ∀ {t f}, ExponentMistake cfg t f → f.error s ≠ .negativeNumber := by
    intro t f h
    cases h with
    | @overflow x r neg r' E rest _ _ _ _ _ => cases neg <;> simp [Fault.error]
    | _ => simp [Fault.error]
  have hnum : ∀ {t f}, NumberMistake cfg t f → f.error s ≠ .negativeNumber := by
    intro t f h
    cases h with
    | fraction _ h => cases h <;> simp [Fault.error]
    | exponent _ _ h => exact hexp h
  have hunit : ∀ {t f}, UnitSingleMistake cfg units t f → f.error s ≠ .negativeNumber := by
    intro t f h
    cases h <;> simp [Fault.error]
  cases h with
  | number h => exact hnum h
  | unit _ _ _ _ h => exact hunit h
  | infinity _ _ h => cases h <;> simp [Fault.error]
  | unitWord _ _ _ h => exact hunit h
  | numeral _ _ _ h =>
    cases h with
    | unit _ _ _ h => exact hunit h
    | _ => simp [Fault.error]
  | _ => simp [Fault.error]

/-- a text in the grammar is a duration, or a negative one which is not allowed, or the product of multipliers is out of
range -/
theorem single_outcome (units : TimeUnitsLike) (keywords : Option TimeUnitsLike) (numerals : Option NumbersLike) {s r : Bytes}
    {neg : Bool} {item : Item} (hs : IsText s) (hc : CfgText cfg) (hm : cfg.allowMultiple = false) (h1 : SignPart cfg s neg r)
    (h2 : SingleText cfg units keywords numerals r item) :
    (∃ d, parse cfg units keywords numerals s = .ok d) ∨
    (cfg.allowNegative = false ∧ parse cfg units keywords numerals s = fail .negativeNumber) ∨
    ∃ p, parse cfg units keywords numerals s = panic p := by
  rw [C33_buffer_transparent cfg units keywords numerals s (Or.inr (Or.inr hm))]
  unfold parseUnbuffered parseWith
  simp only [hm, Bool.false_eq_true, if_false]
  let env : Env := ⟨cfg, units, keywords, numerals, fun d c => c.advanceTo d⟩
  have hI := (isText_iff s).mp hs
  have hat : At s 0 (Cursor.new s) s := ⟨Inv.new hI, Cursor.rest_new s, Nat.zero_le _⟩
  obtain ⟨o, g1, g2⟩ := (template_at (env := env) (cfgOk_of_text hc) rfl .single hat).some
    ((template_iff (env := env) _ _ _).2 ⟨r, h1, (single_iff (env := env) _ _).2 ⟨rfl, h2⟩⟩)
  have hp : parseSingle env s = parseRepr cfg o.1 := by unfold parseSingle; rw [g1, ok_bind]
  have goal : (∃ d, parseSingle env s = .ok d) ∨ (cfg.allowNegative = false ∧ parseSingle env s = fail .negativeNumber) ∨
      ∃ p, parseSingle env s = panic p := by
    rw [hp]
    rcases parseRepr_cases g2.1.parse with ⟨d, k1, k2⟩ | ⟨d, k1, k2, k3, k4⟩ | ⟨k1, p, k2⟩
    · exact Or.inl ⟨d, k2⟩
    · exact Or.inr (Or.inl ⟨k3, k4⟩)
    · exact Or.inr (Or.inr ⟨p, k2⟩)
  exact goal

end Fundu.Props
