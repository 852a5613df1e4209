import Verif.Spec.GnuRegex
import Verif.Spec.GnuMistakes
import Verif.Proofs.Regex
import Verif.Proofs.GnuConcat
import Verif.Proofs.GnuSentence
/-! # The regular expressions of the fuzz target of fundu-gnu -/
namespace Fundu.GnuRegexProof
open Fundu Fundu.Spec Fundu.Props Fundu.Gnu Fundu.GnuConcat

/-! ## The language of the main regular expression -/

def AllSpaces (sp : Bytes) : Prop := ∀ b ∈ sp, PosixSpace b

/-- optional delimiters and `ago` -/
def AgoText (a : Bytes) : Prop := a = [] ∨ ∃ sp x, a = sp ++ x ∧ sp ≠ [] ∧ AllSpaces sp ∧ SameText x (b! "ago")

/-- a time unit and `ago` -/
def UnitText (u : Bytes) : Prop := ∃ w len a, u = w ++ a ∧ GnuWord gnuUnits w len ∧ AgoText a

def Digits (W : Bytes) : Prop := W ≠ [] ∧ ∀ b ∈ W, IsDigit b

inductive DigitBody : Bytes → Prop
  | numberUnit {W sp u} : Digits W → AllSpaces sp → UnitText u → DigitBody (W ++ (sp ++ u))
  | decimalUnit {W F sp u} : Digits W → Digits F → AllSpaces sp → UnitText u → DigitBody (W ++ 46 :: (F ++ (sp ++ u)))
  | decimal {W F} : Digits W → Digits F → DigitBody (W ++ 46 :: F)
  | number {W} : Digits W → DigitBody W

inductive Body : Bytes → Prop
  | keyword {w len} : GnuWord gnuKeywords w len → Body w
  | numeral {w n sp u} : GnuNumeral w n → sp ≠ [] → AllSpaces sp → UnitText u → Body (w ++ (sp ++ u))
  | unit {u} : UnitText u → Body u
  | digit {x} : DigitBody x → Body x

inductive Dur : Bytes → Prop
  | plain {x} : Body x → Dur x
  | sign {b sp x} : (b = 43 ∨ b = 45) → AllSpaces sp → Body x → Dur (b :: (sp ++ x))

inductive Tail : Nat → Bytes → Prop
  | nil : Tail 0 []
  | digit {n x t} : DigitBody x → Tail n t → Tail (n + 1) (x ++ t)
  | sign {n b sp x t} : (b = 43 ∨ b = 45) → AllSpaces sp → Body x → Tail n t → Tail (n + 1) (b :: (sp ++ (x ++ t)))
  | space {n sp x t} : sp ≠ [] → AllSpaces sp → Dur x → Tail n t → Tail (n + 1) (sp ++ (x ++ t))

def Lang (n : Nat) (s : Bytes) : Prop := ∃ x t, s = x ++ t ∧ Dur x ∧ Tail n t

section matching
open Regex

theorem matches_words' {ws : List Bytes} {s : Bytes} : (GnuRegex.words ws).Matches s ↔ ∃ w ∈ ws, SameText s w := by
  unfold GnuRegex.words
  induction ws with
  | nil => simp [oneOf, Matches]
  | cons w ws ih =>
    rw [List.map_cons, oneOf_cons, ih, matches_anyCase]
    simp

theorem space_iff (b : UInt8) : decide (b = 32 ∨ b = 9 ∨ b = 10 ∨ b = 12 ∨ b = 13 ∨ b = 11) = true ↔ PosixSpace b := by
  rw [decide_eq_true_eq]
  unfold PosixSpace
  constructor
  · rintro (h | h | h | h | h | h) <;> simp [h]
  · rintro (h | h | h | h | h | h) <;> simp [h]

theorem matches_spaces {s : Bytes} : (Regex.many GnuRegex.space).Matches s ↔ AllSpaces s := by
  unfold GnuRegex.space
  rw [matches_many_one]
  exact forall₂_congr fun b _ => space_iff b

theorem matches_spaces1 {s : Bytes} : (many1 GnuRegex.space).Matches s ↔ s ≠ [] ∧ AllSpaces s := by
  unfold GnuRegex.space
  rw [matches_some_one]
  exact and_congr_right fun _ => forall₂_congr fun b _ => space_iff b

theorem matches_number {s : Bytes} : GnuRegex.digits.Matches s ↔ Digits s := matches_digits

theorem matches_decimal {s : Bytes} : GnuRegex.decimal.Matches s ↔ ∃ W F, s = W ++ 46 :: F ∧ Digits W ∧ Digits F := by
  unfold GnuRegex.decimal
  simp only [matches_seq, matches_number, matches_byte]
  constructor
  · rintro ⟨W, y, rfl, h1, p, F, rfl, rfl, h2⟩
    exact ⟨W, F, rfl, h1, h2⟩
  · rintro ⟨W, F, rfl, h1, h2⟩
    exact ⟨W, 46 :: F, rfl, h1, [46], F, rfl, rfl, h2⟩

theorem unit_words {s : Bytes} : (∃ w ∈ GnuRegex.secondWords ++ GnuRegex.otherUnitWords, SameText s w) ↔ ∃ len, GnuWord gnuUnits s len := by
  constructor
  · rintro ⟨w, hw, h⟩
    have : ∀ w ∈ GnuRegex.secondWords ++ GnuRegex.otherUnitWords, ∃ p ∈ gnuUnits, w ∈ p.1 := by decide
    obtain ⟨p, h1, h2⟩ := this w hw
    exact ⟨p.2, p.1, h1, w, h2, h⟩
  · rintro ⟨len, names, h1, w, h2, h⟩
    have : ∀ p ∈ gnuUnits, ∀ w ∈ p.1, w ∈ GnuRegex.secondWords ++ GnuRegex.otherUnitWords := by decide
    exact ⟨w, this _ h1 w h2, h⟩

theorem other_words {s : Bytes} {len : GnuLength} (h : GnuWord gnuUnits s len) (hl : len ≠ .seconds 1) :
    ∃ w ∈ GnuRegex.otherUnitWords, SameText s w := by
  obtain ⟨names, h1, w, h2, h⟩ := h
  have : ∀ p ∈ gnuUnits, p.2 ≠ .seconds 1 → ∀ w ∈ p.1, w ∈ GnuRegex.otherUnitWords := by decide
  exact ⟨w, this _ h1 hl w h2, h⟩

theorem keyword_words {s : Bytes} : (∃ w ∈ GnuRegex.keywordWords, SameText s w) ↔ ∃ len, GnuWord gnuKeywords s len := by
  constructor
  · rintro ⟨w, hw, h⟩
    have : ∀ w ∈ GnuRegex.keywordWords, ∃ p ∈ gnuKeywords, w ∈ p.1 := by decide
    obtain ⟨p, h1, h2⟩ := this w hw
    exact ⟨p.2, p.1, h1, w, h2, h⟩
  · rintro ⟨len, names, h1, w, h2, h⟩
    have : ∀ p ∈ gnuKeywords, ∀ w ∈ p.1, w ∈ GnuRegex.keywordWords := by decide
    exact ⟨w, this _ h1 w h2, h⟩

theorem numeral_words {s : Bytes} : (∃ w ∈ GnuRegex.numeralWords, SameText s w) ↔ ∃ n, GnuNumeral s n := by
  constructor
  · rintro ⟨w, hw, h⟩
    have : ∀ w ∈ GnuRegex.numeralWords, ∃ p ∈ gnuNumerals, w = p.1 := by decide
    obtain ⟨p, h1, rfl⟩ := this w hw
    exact ⟨p.2, p.1, h1, h⟩
  · rintro ⟨n, w, h1, h⟩
    have : ∀ p ∈ gnuNumerals, p.1 ∈ GnuRegex.numeralWords := by decide
    exact ⟨w, this _ h1, h⟩

theorem matches_ago {s : Bytes} : GnuRegex.ago.Matches s ↔ AgoText s := by
  unfold GnuRegex.ago AgoText
  rw [matches_opt, matches_seq]
  simp only [matches_spaces1, matches_anyCase, and_assoc]

theorem matches_unitAgo {s : Bytes} : GnuRegex.unitAgo.Matches s ↔ UnitText s := by
  unfold GnuRegex.unitAgo GnuRegex.unit UnitText
  simp only [matches_seq, matches_words', unit_words, matches_ago]
  constructor
  · rintro ⟨x, y, rfl, ⟨len, h1⟩, h2⟩; exact ⟨x, len, y, rfl, h1, h2⟩
  · rintro ⟨x, len, y, rfl, h1, h2⟩; exact ⟨x, y, rfl, ⟨len, h1⟩, h2⟩

theorem matches_digitBody {s : Bytes} : GnuRegex.durationDigit.Matches s ↔ DigitBody s := by
  unfold GnuRegex.durationDigit
  simp only [oneOf_cons, matches_seq, matches_unitAgo, matches_decimal, matches_number, matches_spaces]
  constructor
  · rintro (⟨W, y, rfl, h1, sp, u, rfl, h2, h3⟩ | ⟨x, y, rfl, ⟨W, F, rfl, h1, h2⟩, sp, u, rfl, h3, h4⟩ | ⟨W, F, rfl, h1, h2⟩ | h | h)
    · exact .numberUnit h1 h2 h3
    · rw [List.append_assoc, List.cons_append]; exact .decimalUnit h1 h2 h3 h4
    · exact .decimal h1 h2
    · exact .number h
    · exact absurd h (by simp [oneOf, Matches])
  · intro h
    cases h with
    | numberUnit h1 h2 h3 => exact Or.inl ⟨_, _, rfl, h1, _, _, rfl, h2, h3⟩
    | decimalUnit h1 h2 h3 h4 => exact Or.inr (Or.inl ⟨_, _, by rw [← List.cons_append, ← List.append_assoc], ⟨_, _, rfl, h1, h2⟩, _, _, rfl, h3, h4⟩)
    | decimal h1 h2 => exact Or.inr (Or.inr (Or.inl ⟨_, _, rfl, h1, h2⟩))
    | number h => exact Or.inr (Or.inr (Or.inr (Or.inl h)))

theorem matches_body {s : Bytes} : GnuRegex.body.Matches s ↔ Body s := by
  unfold GnuRegex.body GnuRegex.keyword GnuRegex.numeral
  simp only [oneOf_cons, matches_seq, matches_unitAgo, matches_words', matches_digitBody, keyword_words, numeral_words, matches_spaces1]
  constructor
  · rintro (⟨len, h⟩ | ⟨w, y, rfl, ⟨n, h1⟩, sp, u, rfl, ⟨h2, h3⟩, h4⟩ | h | h | h)
    · exact .keyword h
    · exact .numeral h1 h2 h3 h4
    · exact .unit h
    · exact .digit h
    · exact absurd h (by simp [oneOf, Matches])
  · intro h
    cases h with
    | keyword h => exact Or.inl ⟨_, h⟩
    | numeral h1 h2 h3 h4 => exact Or.inr (Or.inl ⟨_, _, rfl, ⟨_, h1⟩, _, _, rfl, ⟨h2, h3⟩, h4⟩)
    | unit h => exact Or.inr (Or.inr (Or.inl h))
    | digit h => exact Or.inr (Or.inr (Or.inr (Or.inl h)))

theorem matches_sign' {s : Bytes} : GnuRegex.sign.Matches s ↔ ∃ b sp, s = b :: sp ∧ (b = 43 ∨ b = 45) ∧ AllSpaces sp := by
  unfold GnuRegex.sign
  simp only [matches_seq, matches_alt, matches_byte, matches_spaces]
  constructor
  · rintro ⟨x, y, rfl, rfl | rfl, h⟩
    · exact ⟨43, y, rfl, Or.inl rfl, h⟩
    · exact ⟨45, y, rfl, Or.inr rfl, h⟩
  · rintro ⟨b, sp, rfl, rfl | rfl, h⟩
    · exact ⟨[43], sp, rfl, Or.inl rfl, h⟩
    · exact ⟨[45], sp, rfl, Or.inr rfl, h⟩

theorem matches_duration {s : Bytes} : GnuRegex.duration.Matches s ↔ Dur s := by
  unfold GnuRegex.duration
  simp only [matches_seq, matches_opt, matches_sign', matches_body]
  constructor
  · rintro ⟨x, y, rfl, rfl | ⟨b, sp, rfl, h1, h2⟩, h3⟩
    · exact .plain h3
    · exact .sign h1 h2 h3
  · intro h
    cases h with
    | plain h => exact ⟨[], _, rfl, Or.inl rfl, h⟩
    | sign h1 h2 h3 => exact ⟨_, _, rfl, Or.inr ⟨_, _, rfl, h1, h2⟩, h3⟩

/-- the regular expression for what can follow a duration -/
theorem matches_next {s : Bytes} : (oneOf [GnuRegex.durationDigit, GnuRegex.durationSign, .seq (many1 GnuRegex.space) GnuRegex.duration]).Matches s ↔
    DigitBody s ∨ (∃ b sp x, s = b :: (sp ++ x) ∧ (b = 43 ∨ b = 45) ∧ AllSpaces sp ∧ Body x) ∨
      ∃ sp x, s = sp ++ x ∧ sp ≠ [] ∧ AllSpaces sp ∧ Dur x := by
  unfold GnuRegex.durationSign
  simp only [oneOf_cons, matches_seq, matches_sign', matches_body, matches_digitBody, matches_duration, matches_spaces1]
  constructor
  · rintro (h | ⟨x, y, rfl, ⟨b, sp, rfl, h1, h2⟩, h3⟩ | ⟨sp, y, rfl, ⟨h1, h2⟩, h3⟩ | h)
    · exact Or.inl h
    · exact Or.inr (Or.inl ⟨b, sp, y, rfl, h1, h2, h3⟩)
    · exact Or.inr (Or.inr ⟨sp, y, rfl, h1, h2, h3⟩)
    · exact absurd h (by simp [oneOf, Matches])
  · rintro (h | ⟨b, sp, x, rfl, h1, h2, h3⟩ | ⟨sp, x, rfl, h1, h2, h3⟩)
    · exact Or.inl h
    · exact Or.inr (Or.inl ⟨_, _, rfl, ⟨b, sp, rfl, h1, h2⟩, h3⟩)
    · exact Or.inr (Or.inr (Or.inl ⟨_, _, rfl, ⟨h1, h2⟩, h3⟩))

theorem matches_main {s : Bytes} : GnuRegex.main.Matches s ↔ ∃ n, Lang n s := by
  unfold GnuRegex.main
  rw [matches_seq]
  constructor
  · rintro ⟨x, y, rfl, h1, l, rfl, h2⟩
    refine ⟨l.length, x, l.flatten, rfl, matches_duration.1 h1, ?_⟩
    clear h1
    induction l with
    | nil => exact .nil
    | cons a l ih =>
      have ih := ih fun x hx => h2 x (List.mem_cons_of_mem _ hx)
      rw [List.flatten_cons]
      rcases matches_next.1 (h2 a (by simp)) with h | ⟨b, sp, x, rfl, h3, h4, h5⟩ | ⟨sp, x, rfl, h3, h4, h5⟩
      · exact .digit h ih
      · rw [List.cons_append, List.append_assoc]; exact .sign h3 h4 h5 ih
      · rw [List.append_assoc]; exact .space h3 h4 h5 ih
  · rintro ⟨n, x, t, rfl, h1, h2⟩
    refine ⟨x, t, rfl, matches_duration.2 h1, ?_⟩
    clear h1
    induction h2 with
    | nil => exact ⟨[], rfl, by simp⟩
    | digit h _ ih =>
      obtain ⟨l, rfl, h2⟩ := ih
      refine ⟨_ :: l, rfl, ?_⟩
      intro a ha
      rcases List.mem_cons.1 ha with rfl | ha
      · exact matches_next.2 (Or.inl h)
      · exact h2 a ha
    | sign h3 h4 h5 _ ih =>
      obtain ⟨l, rfl, h2⟩ := ih
      refine ⟨_ :: l, by rw [List.flatten_cons, ← List.append_assoc, ← List.cons_append], ?_⟩
      intro a ha
      rcases List.mem_cons.1 ha with rfl | ha
      · exact matches_next.2 (Or.inr (Or.inl ⟨_, _, _, rfl, h3, h4, h5⟩))
      · exact h2 a ha
    | space h3 h4 h5 _ ih =>
      obtain ⟨l, rfl, h2⟩ := ih
      refine ⟨_ :: l, by rw [List.flatten_cons, ← List.append_assoc], ?_⟩
      intro a ha
      rcases List.mem_cons.1 ha with rfl | ha
      · exact matches_next.2 (Or.inr (Or.inr ⟨_, _, rfl, h3, h4, h5⟩))
      · exact h2 a ha

end matching

/-! ## How texts start -/

/-- how a time unit starts -/
def UnitStart (b : UInt8) : Prop := Letter b ∧ lower b ≠ 97 ∧ lower b ≠ 101
instance (b : UInt8) : Decidable (UnitStart b) := by unfold UnitStart; infer_instance
/-- how a duration without sign starts -/
def BodyStart (b : UInt8) : Prop := (IsDigit b ∨ Letter b) ∧ lower b ≠ 97
instance (b : UInt8) : Decidable (BodyStart b) := by unfold BodyStart; infer_instance

theorem all_bytes {p : UInt8 → Prop} (h : ∀ n < 256, p (UInt8.ofNat n)) (b : UInt8) : p b := by
  have := h b.toNat b.toNat_lt
  rwa [UInt8.ofNat_toNat] at this

theorem unitStart_facts {b : UInt8} (h : UnitStart b) : BodyStart b ∧ ¬ (b = 46 ∨ b = 101 ∨ b = 69) ∧ ¬ IsDigit b :=
  all_bytes (p := fun b => UnitStart b → BodyStart b ∧ ¬ (b = 46 ∨ b = 101 ∨ b = 69) ∧ ¬ IsDigit b) (by decide +kernel) b h

theorem bodyStart_facts {b : UInt8} (h : BodyStart b) : ¬ PosixSpace b ∧ ¬ (b = 43 ∨ b = 45) ∧ NoA b ∧ b ≠ 46 :=
  all_bytes (p := fun b => BodyStart b → ¬ PosixSpace b ∧ ¬ (b = 43 ∨ b = 45) ∧ NoA b ∧ b ≠ 46) (by decide +kernel) b h

theorem letter_notDigit {b : UInt8} (h : Letter b) : ¬ IsDigit b := (letter_not h).2.2.1

theorem word_start {q : UInt8 → Prop} {w name : Bytes} (h : SameText w name) (hn : ∀ b, lower b ∈ (name.map lower).head? → q b) (hne : name ≠ []) :
    StartsWith q w := by
  cases w with
  | nil =>
    have : name = [] := by unfold SameText at h; simpa using h.symm
    exact absurd this hne
  | cons b w =>
    refine ⟨b, w, rfl, hn b ?_⟩
    unfold SameText at h
    rw [← h]
    rfl

theorem gnuWord_start {q : UInt8 → Prop} {table : List (List Bytes × GnuLength)} {w : Bytes} {len : GnuLength} (h : GnuWord table w len)
    (ht : ∀ p ∈ table, ∀ n ∈ p.1, n ≠ [] ∧ ∀ m < 256, lower (UInt8.ofNat m) ∈ (n.map lower).head? → q (UInt8.ofNat m)) : StartsWith q w := by
  obtain ⟨names, h1, n, h2, h3⟩ := h
  exact word_start h3 (all_bytes (p := fun b => lower b ∈ (n.map lower).head? → q b) (ht _ h1 n h2).2) (ht _ h1 n h2).1

theorem unit_start {w : Bytes} {len : GnuLength} (h : GnuWord gnuUnits w len) : StartsWith UnitStart w := gnuWord_start h (by decide +kernel)
theorem keyword_start {w : Bytes} {len : GnuLength} (h : GnuWord gnuKeywords w len) : StartsWith BodyStart w := gnuWord_start h (by decide +kernel)
theorem numeral_start {w : Bytes} {n : Int} (h : GnuNumeral w n) : StartsWith BodyStart w := by
  obtain ⟨name, h1, h2⟩ := h
  have key : ∀ p ∈ gnuNumerals, p.1 ≠ [] ∧ ∀ m < 256, lower (UInt8.ofNat m) ∈ (p.1.map lower).head? → BodyStart (UInt8.ofNat m) := by
    decide +kernel
  exact word_start h2 (all_bytes (p := fun b => lower b ∈ (name.map lower).head? → BodyStart b) (key _ h1).2) (key _ h1).1

theorem unitText_start {u : Bytes} (h : UnitText u) : StartsWith UnitStart u := by
  obtain ⟨w, len, a, rfl, h1, -⟩ := h
  exact starts_append (unit_start h1)

theorem digits_start {W : Bytes} (h : Digits W) : StartsWith IsDigit W := by
  obtain ⟨b, l, rfl⟩ := List.exists_cons_of_ne_nil h.1
  exact ⟨b, l, rfl, h.2 b (by simp)⟩

theorem digitBody_start {x : Bytes} (h : DigitBody x) : StartsWith IsDigit x := by
  cases h with
  | numberUnit h _ _ => exact starts_append (digits_start h)
  | decimalUnit h _ _ _ => exact starts_append (digits_start h)
  | decimal h _ => exact starts_append (digits_start h)
  | number h => exact digits_start h

theorem digit_bodyStart {b : UInt8} (h : IsDigit b) : BodyStart b :=
  all_bytes (p := fun b => IsDigit b → BodyStart b) (by decide +kernel) b h

theorem body_start {x : Bytes} (h : Body x) : StartsWith BodyStart x := by
  cases h with
  | keyword h => exact keyword_start h
  | numeral h _ _ _ => exact starts_append (numeral_start h)
  | unit h => exact startsWith_mono (fun b hb => (unitStart_facts hb).1) (unitText_start h)
  | digit h => exact startsWith_mono (fun b hb => digit_bodyStart hb) (digitBody_start h)

/-- how a duration starts: neither with white space nor with the letter a -/
theorem dur_start {x : Bytes} (h : Dur x) : StartsWith NoA x := by
  cases h with
  | plain h => exact startsWith_mono (fun b hb => (bodyStart_facts hb).2.2.1) (body_start h)
  | sign h _ _ => rcases h with rfl | rfl <;> exact ⟨_, _, rfl, by decide⟩

theorem not_of_start {p q : UInt8 → Prop} {s : Bytes} (h : StartsWith p s) (hpq : ∀ b, p b → ¬ q b) : ¬ StartsWith q s := by
  obtain ⟨b, l, rfl, hb⟩ := h
  rw [startsWith_cons]
  exact hpq b hb

theorem start_ne {p : UInt8 → Prop} {s : Bytes} (h : StartsWith p s) : s ≠ [] := by
  obtain ⟨b, l, rfl, -⟩ := h; simp

theorem spaces_start {sp r : Bytes} (h : sp ≠ []) (hs : AllSpaces sp) : StartsWith PosixSpace (sp ++ r) := by
  obtain ⟨b, l, rfl⟩ := List.exists_cons_of_ne_nil h
  exact ⟨b, l ++ r, rfl, hs b (by simp)⟩

theorem tail_end {n : Nat} {t : Bytes} (h : Tail n t) : t = [] ∨ StartsWith GnuEnd t := by
  cases h with
  | nil => exact Or.inl rfl
  | digit h _ => exact Or.inr (starts_append (startsWith_mono (fun b hb => Or.inr (Or.inl hb)) (digitBody_start h)))
  | sign h _ _ _ => exact Or.inr ⟨_, _, rfl, Or.inr (Or.inr h)⟩
  | space h1 h2 _ _ => exact Or.inr (startsWith_mono (fun b hb => Or.inl hb) (spaces_start h1 h2))

theorem end_not_letter {t : Bytes} (h : t = [] ∨ StartsWith GnuEnd t) : ¬ StartsWith (¬ GnuEnd ·) t := by
  rcases h with rfl | h
  · exact not_startsWith_nil
  · exact not_of_start h fun b hb g => g hb

theorem lang_start {n : Nat} {s : Bytes} (h : Lang n s) : StartsWith NoA s := by
  obtain ⟨x, t, rfl, h1, -⟩ := h
  exact starts_append (dur_start h1)

/-- what follows after the white space behind a duration -/
theorem tail_gap {n : Nat} {t : Bytes} (h : Tail n t) :
    ∃ sp rest, t = sp ++ rest ∧ GnuGap t rest ∧ (rest = [] ∨ ∃ m < n, Lang m rest) := by
  have none : ∀ {s : Bytes}, ¬ StartsWith PosixSpace s → GnuGap s s := fun h => ⟨⟨[], split_nil h⟩, id⟩
  cases h with
  | nil => exact ⟨[], [], rfl, none not_startsWith_nil, Or.inl rfl⟩
  | @digit n x t h h' =>
    exact ⟨[], _, rfl, none (not_of_start (starts_append (digitBody_start h)) fun b hb => (bodyStart_facts (digit_bodyStart hb)).1),
      Or.inr ⟨n, by omega, _, _, rfl, .plain (.digit h), h'⟩⟩
  | @sign n b sp x t h1 h2 h3 h4 =>
    refine ⟨[], _, rfl, none ?_, Or.inr ⟨n, by omega, b :: (sp ++ x), t, by simp, .sign h1 h2 h3, h4⟩⟩
    rw [startsWith_cons]
    rcases h1 with rfl | rfl <;> decide
  | @space n sp x t h1 h2 h3 h4 =>
    refine ⟨sp, x ++ t, rfl, ⟨⟨sp, rfl, h2, not_of_start (starts_append (dur_start h3)) fun b hb => hb.1⟩, fun h => ?_⟩,
      Or.inr ⟨n, by omega, x, t, rfl, h3, h4⟩⟩
    exact absurd h (start_ne (starts_append (dur_start h3)))

theorem no_ago {n : Nat} {t : Bytes} (h : Tail n t) : ¬ ∃ r, AgoAt t r := by
  rintro ⟨r, sp, r0, h1, h2, ⟨y, h3, h4⟩, -⟩
  obtain ⟨sp', rest, h5, ⟨⟨sp'', h6⟩, h7⟩, h8⟩ := tail_gap h
  obtain ⟨rfl, rfl⟩ := split_unique h1 h6
  rcases h8 with rfl | ⟨m, -, h8⟩
  · have : y = [] := (List.append_eq_nil_iff.1 h3.symm).1
    subst this
    exact absurd h4 (by decide)
  · obtain ⟨b, l, rfl, -, hb⟩ := lang_start h8
    cases y with
    | nil => exact absurd h4 (by decide)
    | cons c y =>
      cases h3
      unfold SameText at h4
      simp only [List.map_cons] at h4
      injection h4 with h5 _
      exact hb (h5.trans (by decide))

theorem ago_at {sp x t : Bytes} (h1 : sp ≠ []) (h2 : AllSpaces sp) (h3 : SameText x (b! "ago")) (h4 : t = [] ∨ StartsWith GnuEnd t) :
    AgoAt (sp ++ (x ++ t)) t := by
  refine ⟨sp, x ++ t, ⟨rfl, h2, ?_⟩, h1, ⟨x, rfl, h3⟩, h4⟩
  obtain ⟨g1, g2⟩ := Gnu.ago_letters h3
  obtain ⟨b, l, rfl⟩ := List.exists_cons_of_ne_nil g1
  rw [List.cons_append, startsWith_cons]
  exact (letter_not (g2 b (by simp))).2.1

theorem ago_end {a t : Bytes} (h : AgoText a) (ht : t = [] ∨ StartsWith GnuEnd t) : a ++ t = [] ∨ StartsWith GnuEnd (a ++ t) := by
  rcases h with rfl | ⟨sp, x, rfl, h1, h2, h3⟩
  · exact ht
  · rw [List.append_assoc]; exact Or.inr (startsWith_mono (fun b hb => Or.inl hb) (spaces_start h1 h2))

/-- a time unit in front of a tail -/
theorem unit_at {w a t : Bytes} {len : GnuLength} {n : Nat} (h : GnuWord gnuUnits w len) (ha : AgoText a) (ht : Tail n t) :
    ∃ ago y rest, GnuUnitAt (w ++ (a ++ t)) len ago rest ∧ t = y ++ rest ∧ (rest = [] ∨ ∃ m < n, Lang m rest) := by
  obtain ⟨sp, rest, h1, h2, h3⟩ := tail_gap ht
  have hw : GnuWordAt gnuUnits (w ++ (a ++ t)) len (a ++ t) :=
    ⟨w, ⟨rfl, fun b hb => (letter_not (unit_letters h b hb)).1, end_not_letter (ago_end ha (tail_end ht))⟩, h⟩
  rcases ha with rfl | ⟨sp', x, rfl, g1, g2, g3⟩
  · exact ⟨false, sp, rest, ⟨_, _, hw, .absent (no_ago ht), h2⟩, h1, h3⟩
  · rw [List.append_assoc] at hw ⊢
    exact ⟨true, sp, rest, ⟨_, _, hw, .present (ago_at g1 g2 g3 (tail_end ht)), h2⟩, h1, h3⟩

/-! ## Each text of the language is accepted, or has a wrong fraction -/

/-- the two errors about fractions -/
def FractionFault (f : Fault) : Prop :=
  f = .other (.invalidInput .fractionWithoutWhole) ∨ f = .other (.invalidInput .fractionOnlyWithSeconds)

def Outcome (s : Bytes) : Prop :=
  (∃ l, RelativeTime s l) ∨ ((∃ f, FractionFault f ∧ GnuMistake s f) ∧ GnuRegex.fraction.Search s)

theorem search_append {r : Regex} {a s : Bytes} (h : r.Search s) : r.Search (a ++ s) := by
  obtain ⟨x, y, z, rfl, h⟩ := h
  exact ⟨a ++ x, y, z, by simp, h⟩

theorem outcome_step {s a r rest : Bytes} {neg : Bool} {part : GnuPart} (h1 : GnuSign s neg r) (h2 : GnuText neg r part rest)
    (hs : s = a ++ rest) (h : rest = [] ∨ Outcome rest) : Outcome s := by
  by_cases hr : rest = []
  · subst hr; exact Or.inl ⟨_, .last h1 h2⟩
  · rcases h with h | ⟨l, h⟩ | ⟨⟨f, hf, h⟩, h'⟩
    · exact absurd h hr
    · exact Or.inl ⟨_, .more h1 h2 h⟩
    · exact Or.inr ⟨⟨f, hf, .later h1 h2 hr h⟩, by rw [hs]; exact search_append h'⟩

theorem split_digits {W r : Bytes} (h : Digits W) (hr : ¬ StartsWith IsDigit r) : Split IsDigit (W ++ r) W r := ⟨rfl, h.2, hr⟩

theorem digits_append {W V : Bytes} (h : Digits W) (h' : ∀ b ∈ V, IsDigit b) : Digits (W ++ V) :=
  ⟨by simp [h.1], fun b hb => (List.mem_append.1 hb).elim (h.2 b) (h' b)⟩

theorem unit_after {sp u : Bytes} (hsp : AllSpaces sp) (hu : StartsWith UnitStart u) :
    ¬ StartsWith IsDigit (sp ++ u) ∧ ¬ StartsWith (fun b => b = 46 ∨ b = 101 ∨ b = 69) (sp ++ u) ∧ Spaces (sp ++ u) u := by
  refine ⟨?_, ?_, sp, rfl, hsp, not_of_start hu fun b hb => (bodyStart_facts (unitStart_facts hb).1).1⟩
  · by_cases h : sp = []
    · subst h; exact not_of_start hu fun b hb => (unitStart_facts hb).2.2
    · exact not_of_start (spaces_start h hsp) Respaced.space_digit
  · by_cases h : sp = []
    · subst h; exact not_of_start hu fun b hb => (unitStart_facts hb).2.1
    · exact not_of_start (spaces_start h hsp) Respaced.space_number

theorem no_exponent {r : Bytes} (h : ¬ StartsWith (fun b => b = 46 ∨ b = 101 ∨ b = 69) r) : ¬ StartsWith (fun b => b = 101 ∨ b = 69) r :=
  fun g => h (startsWith_mono (fun _ hb => Or.inr hb) g)

/-- the digits at the start of a tail are not followed by an exponent -/
theorem tail_digits {n : Nat} {t : Bytes} (h : Tail n t) : ∀ D r, Split IsDigit t D r → ¬ StartsWith (fun b => b = 101 ∨ b = 69) r := by
  have other : ∀ {p : UInt8 → Prop} {t : Bytes}, StartsWith p t → (∀ b, p b → ¬ IsDigit b ∧ ¬ (b = 101 ∨ b = 69)) →
      ∀ D r, Split IsDigit t D r → ¬ StartsWith (fun b => b = 101 ∨ b = 69) r := by
    intro p t h hp D r hs
    obtain ⟨-, rfl⟩ := split_unique hs (split_nil (not_of_start h fun b hb => (hp b hb).1))
    exact not_of_start h fun b hb => (hp b hb).2
  induction h with
  | nil =>
    intro D r hs
    obtain ⟨-, rfl⟩ := split_unique hs (split_nil not_startsWith_nil)
    exact not_startsWith_nil
  | @digit n x t h h' ih =>
    intro D r hs
    cases h with
    | @numberUnit W sp u g1 g2 g3 =>
      rw [List.append_assoc, List.append_assoc] at hs
      have k := unit_after g2 (starts_append (r := t) (unitText_start g3))
      obtain ⟨-, rfl⟩ := split_unique hs (split_digits g1 k.1)
      exact no_exponent k.2.1
    | @decimalUnit W F sp u g1 g2 g3 g4 =>
      rw [List.append_assoc, List.cons_append] at hs
      obtain ⟨-, rfl⟩ := split_unique hs (split_digits g1 (by rw [startsWith_cons]; decide))
      rw [startsWith_cons]; decide
    | @decimal W F g1 g2 =>
      rw [List.append_assoc, List.cons_append] at hs
      obtain ⟨-, rfl⟩ := split_unique hs (split_digits g1 (by rw [startsWith_cons]; decide))
      rw [startsWith_cons]; decide
    | number g =>
      obtain ⟨D', r', k⟩ := Respaced.exists_split IsDigit t
      have k' : Split IsDigit (x ++ t) (x ++ D') r' := by
        obtain ⟨rfl, k2, k3⟩ := k
        exact ⟨by simp, (digits_append g k2).2, k3⟩
      obtain ⟨-, rfl⟩ := split_unique hs k'
      exact ih D' r k
  | sign h _ _ _ _ =>
    refine other (p := fun b => b = 43 ∨ b = 45) ⟨_, _, rfl, h⟩ ?_
    rintro b (rfl | rfl) <;> decide
  | space h1 h2 _ _ _ =>
    exact other (spaces_start h1 h2) fun b hb => ⟨Respaced.space_digit b hb, Respaced.space_exponent b hb⟩

/-- a fraction without whole number -/
theorem point_mistake {z : Bytes} (h : StartsWith IsDigit z)
    (he : ∀ D r, Split IsDigit z D r → ¬ StartsWith (fun b => b = 101 ∨ b = 69) r) : ∃ f, FractionFault f ∧ GnuMistake (46 :: z) f := by
  obtain ⟨D, r, k⟩ := Respaced.exists_split IsDigit z
  obtain ⟨sp, t, k'⟩ := Respaced.exists_split PosixSpace r
  have hp : GnuPoint (46 :: z) [] D r :=
    ⟨z, split_nil (by rw [startsWith_cons]; decide), k, Or.inr ((split_ne k).2 h)⟩
  have hsign : GnuSign (46 :: z) false (46 :: z) := .absent (by rw [startsWith_cons]; decide)
  by_cases hu : SecondsOrNothing t
  · exact ⟨_, Or.inl rfl, .part hsign (.noWhole hp (he D r k) ⟨sp, k'⟩ hu)⟩
  · unfold SecondsOrNothing at hu
    push Not at hu
    obtain ⟨len, rest, h1, h2⟩ := hu
    exact ⟨_, Or.inr rfl, .part hsign (.notSeconds hp (he D r k) ⟨sp, k'⟩ h1 h2)⟩

theorem no_unit_start {p : UInt8 → Prop} {s : Bytes} (h : StartsWith p s) (hp : ∀ b, p b → ¬ UnitStart b) :
    ¬ ∃ len r, GnuWordAt gnuUnits s len r := by
  rintro ⟨len, r, w, ⟨rfl, -⟩, h2⟩
  exact not_of_start h hp (starts_append (unit_start h2))

theorem point_no_unit {z : Bytes} : ¬ ∃ len r, GnuWordAt gnuUnits (46 :: z) len r :=
  no_unit_start (p := (· = 46)) ⟨46, z, rfl, rfl⟩ (by rintro b rfl; decide)

/-- words of different lists are different -/
theorem keyword_not_unit {w : Bytes} {len len' : GnuLength} (h : GnuWord gnuKeywords w len) (h' : GnuWord gnuUnits w len') : False := by
  obtain ⟨names, h1, n, h2, h3⟩ := h
  obtain ⟨names', h1', n', h2', h3'⟩ := h'
  have key : ∀ p ∈ gnuKeywords, ∀ n ∈ p.1, ∀ p' ∈ gnuUnits, ∀ n' ∈ p'.1, n.map lower ≠ n'.map lower := by decide
  exact key _ h1 n h2 _ h1' n' h2' (h3.symm.trans h3')

theorem numeral_not_unit {w : Bytes} {n : Int} {len : GnuLength} (h : GnuNumeral w n) (h' : GnuWord gnuUnits w len) : False := by
  obtain ⟨m, h1, h3⟩ := h
  obtain ⟨names', h1', n', h2', h3'⟩ := h'
  have key : ∀ p ∈ gnuNumerals, ∀ p' ∈ gnuUnits, ∀ n' ∈ p'.1, p.1.map lower ≠ n'.map lower := by decide
  exact key _ h1 _ h1' n' h2' (h3.symm.trans h3')

theorem no_unit_word {w r : Bytes} (hw : ∀ b ∈ w, Letter b) (hr : r = [] ∨ StartsWith GnuEnd r) (h : ∀ len, ¬ GnuWord gnuUnits w len) :
    ¬ ∃ len r', GnuWordAt gnuUnits (w ++ r) len r' := by
  rintro ⟨len, r', w', h1, h2⟩
  have : Split (¬ GnuEnd ·) (w ++ r) w r := ⟨rfl, fun b hb => (letter_not (hw b hb)).1, end_not_letter hr⟩
  obtain ⟨rfl, -⟩ := split_unique h1 this
  exact h len h2

/-- a duration which is not a time unit -/
theorem dur_no_unit {x t : Bytes} {n : Nat} (h : Dur x) (ht : Tail n t) :
    UnitText x ∨ ¬ ∃ len r, GnuWordAt gnuUnits (x ++ t) len r := by
  cases h with
  | sign h _ _ =>
    refine Or.inr (no_unit_start (p := fun b => b = 43 ∨ b = 45) ⟨_, _, rfl, h⟩ ?_)
    rintro b (rfl | rfl) <;> decide
  | plain h =>
    cases h with
    | keyword h => exact Or.inr (no_unit_word (keyword_letters h) (tail_end ht) fun len h' => keyword_not_unit h h')
    | numeral h1 h2 h3 _ =>
      rw [List.append_assoc, List.append_assoc]
      exact Or.inr (no_unit_word (numeral_word h1).2 (Or.inr (startsWith_mono (fun b hb => Or.inl hb) (spaces_start h2 h3)))
        fun len h' => numeral_not_unit h1 h')
    | unit h => exact Or.inl h
    | digit h => exact Or.inr (no_unit_start (starts_append (digitBody_start h)) fun b hb g => (unitStart_facts g).2.2 hb)

theorem fraction_search_point {a W F z : Bytes} (h1 : Digits W) (h2 : Digits F) : GnuRegex.fraction.Search (a ++ (W ++ 46 :: (F ++ 46 :: z))) := by
  refine ⟨a, W ++ 46 :: (F ++ [46]), z, by simp, W ++ 46 :: F, [46], by simp, matches_decimal.2 ⟨W, F, rfl, h1, h2⟩, Or.inl ?_⟩
  exact matches_byte.2 rfl

theorem fraction_search_unit {a W F sp w z : Bytes} {len : GnuLength} (h1 : Digits W) (h2 : Digits F) (h3 : AllSpaces sp)
    (h4 : GnuWord gnuUnits w len) (h5 : len ≠ .seconds 1) : GnuRegex.fraction.Search (a ++ (W ++ 46 :: (F ++ (sp ++ (w ++ z))))) := by
  refine ⟨a, W ++ 46 :: (F ++ (sp ++ w)), z, by simp, W ++ 46 :: F, sp ++ w, by simp, matches_decimal.2 ⟨W, F, rfl, h1, h2⟩, Or.inr ?_⟩
  exact ⟨sp, w, rfl, matches_spaces.2 h3, matches_words'.2 (other_words h4 h5)⟩

theorem noUnit_nil : NoUnit [] [] := ⟨[], ⟨[], split_nil not_startsWith_nil⟩, fun _ => rfl,
  fun ⟨_, _, w, h1, h2⟩ => gnuWord_ne h2 (by decide) (List.append_eq_nil_iff.1 h1.1.symm).1, rfl⟩

theorem noUnit_self {s : Bytes} (h1 : ¬ StartsWith PosixSpace s) (h2 : ¬ ∃ len r, GnuWordAt gnuUnits s len r) : NoUnit s s :=
  ⟨s, ⟨[], split_nil h1⟩, id, h2, rfl⟩

/-- what follows a number: nothing, more digits, a sign, white space and a time unit, or white space and something else -/
theorem tail_cases {n : Nat} {t : Bytes} (h : Tail n t) :
    (∃ m x t', n = m + 1 ∧ t = x ++ t' ∧ DigitBody x ∧ Tail m t') ∨
    (∃ m sp u t', n = m + 1 ∧ t = sp ++ (u ++ t') ∧ AllSpaces sp ∧ UnitText u ∧ Tail m t') ∨
    (¬ StartsWith IsDigit t ∧ ¬ StartsWith (fun b => b = 46 ∨ b = 101 ∨ b = 69) t ∧
      ∃ sp rest, t = sp ++ rest ∧ NoUnit t rest ∧ (rest = [] ∨ ∃ m < n, Lang m rest)) := by
  cases h with
  | nil => exact Or.inr (Or.inr ⟨not_startsWith_nil, not_startsWith_nil, [], [], rfl, noUnit_nil, Or.inl rfl⟩)
  | @digit m x t h1 h2 => exact Or.inl ⟨m, x, t, rfl, rfl, h1, h2⟩
  | @sign m b sp x t h1 h2 h3 h4 =>
    refine Or.inr (Or.inr ⟨?_, ?_, [], _, rfl, noUnit_self ?_ ?_, Or.inr ⟨m, by omega, b :: (sp ++ x), t, by simp, .sign h1 h2 h3, h4⟩⟩)
    · rw [startsWith_cons]; rcases h1 with rfl | rfl <;> decide
    · rw [startsWith_cons]; rcases h1 with rfl | rfl <;> decide
    · rw [startsWith_cons]; rcases h1 with rfl | rfl <;> decide
    · refine no_unit_start (p := fun b => b = 43 ∨ b = 45) ⟨_, _, rfl, h1⟩ ?_
      rintro b (rfl | rfl) <;> decide
  | @space m sp x t h1 h2 h3 h4 =>
    rcases dur_no_unit h3 h4 with h5 | h5
    · exact Or.inr (Or.inl ⟨m, sp, x, t, rfl, rfl, h2, h5, h4⟩)
    · have hne := start_ne (starts_append (r := t) (dur_start h3))
      exact Or.inr (Or.inr ⟨not_of_start (spaces_start h1 h2) Respaced.space_digit, not_of_start (spaces_start h1 h2) Respaced.space_number,
        sp, x ++ t, rfl, ⟨x ++ t, ⟨sp, rfl, h2, not_of_start (starts_append (dur_start h3)) fun b hb => hb.1⟩,
          fun h => absurd h hne, h5, rfl⟩, Or.inr ⟨m, by omega, x, t, rfl, h3, h4⟩⟩)

theorem number_unit {W sp u t s a : Bytes} {n : Nat} {neg : Bool} (g1 : Digits W) (g2 : AllSpaces sp) (g3 : UnitText u)
    (ht : Tail n t) (G : ∀ m < n, ∀ s, Lang m s → Outcome s) (hs : s = a ++ (W ++ (sp ++ (u ++ t))))
    (hsign : GnuSign s neg (W ++ (sp ++ (u ++ t)))) : Outcome s := by
  have k := unit_after g2 (starts_append (r := t) (unitText_start g3))
  obtain ⟨w, len, ag, rfl, k1, k2⟩ := g3
  obtain ⟨ago, y, rest, k3, k4, k5⟩ := unit_at k1 k2 ht
  rw [List.append_assoc] at k hs hsign
  refine outcome_step (a := a ++ (W ++ (sp ++ (w ++ (ag ++ y))))) hsign (.numberUnit ⟨split_digits g1 k.1, g1.1, k.2.1⟩ k.2.2 k3) ?_ ?_
  · rw [hs, k4]; simp
  · rcases k5 with k5 | ⟨m, hm, k5⟩
    · exact Or.inl k5
    · exact Or.inr (G m hm rest k5)

theorem decimal_unit {W F sp u t s a : Bytes} {n : Nat} {neg : Bool} (g1 : Digits W) (g1' : Digits F) (g2 : AllSpaces sp) (g3 : UnitText u)
    (ht : Tail n t) (G : ∀ m < n, ∀ s, Lang m s → Outcome s) (hs : s = a ++ (W ++ 46 :: (F ++ (sp ++ (u ++ t)))))
    (hsign : GnuSign s neg (W ++ 46 :: (F ++ (sp ++ (u ++ t))))) : Outcome s := by
  have k := unit_after g2 (starts_append (r := t) (unitText_start g3))
  obtain ⟨w, len, ag, rfl, k1, k2⟩ := g3
  obtain ⟨ago, y, rest, k3, k4, k5⟩ := unit_at k1 k2 ht
  rw [List.append_assoc] at k hs hsign
  have hp : Split IsDigit (W ++ 46 :: (F ++ (sp ++ (w ++ (ag ++ t))))) W (46 :: (F ++ (sp ++ (w ++ (ag ++ t))))) :=
    split_digits g1 (by rw [startsWith_cons]; decide)
  by_cases hl : len = .seconds 1
  · subst hl
    refine outcome_step (a := a ++ (W ++ 46 :: (F ++ (sp ++ (w ++ (ag ++ y)))))) hsign
      (.decimalUnit ⟨_, hp, g1.1, split_digits g1' k.1, g1'.1, no_exponent k.2.1⟩ k.2.2 k3) ?_ ?_
    · rw [hs, k4]; simp
    · rcases k5 with k5 | ⟨m, hm, k5⟩
      · exact Or.inl k5
      · exact Or.inr (G m hm rest k5)
  · obtain ⟨_, _, k3, -⟩ := k3
    refine Or.inr ⟨⟨_, Or.inr rfl, .part hsign (.notSeconds ⟨_, hp, split_digits g1' k.1, Or.inl g1.1⟩ (no_exponent k.2.1) k.2.2 k3 hl)⟩, ?_⟩
    rw [hs]
    exact fraction_search_unit g1 g1' g2 k1 hl

/-- a number with a fraction in front of another one: the second one has no whole number -/
theorem decimal_point {W F z s a : Bytes} {neg : Bool} (g1 : Digits W) (g2 : Digits F) (hz : StartsWith IsDigit z)
    (he : ∀ D r, Split IsDigit z D r → ¬ StartsWith (fun b => b = 101 ∨ b = 69) r) (hs : s = a ++ (W ++ 46 :: (F ++ 46 :: z)))
    (hsign : GnuSign s neg (W ++ 46 :: (F ++ 46 :: z))) : Outcome s := by
  obtain ⟨f, hf, hm⟩ := point_mistake hz he
  have h46 : ∀ {l : Bytes}, ¬ StartsWith IsDigit (46 :: l) := by intro l; rw [startsWith_cons]; decide
  have hd : GnuDecimal (W ++ 46 :: (F ++ 46 :: z)) W F (46 :: z) :=
    ⟨_, split_digits g1 h46, g1.1, split_digits g2 h46, g2.1, by rw [startsWith_cons]; decide⟩
  have hn : NoUnit (46 :: z) (46 :: z) := noUnit_self (by rw [startsWith_cons]; decide) point_no_unit
  exact Or.inr ⟨⟨f, hf, .later hsign (.decimal hd hn) (by simp) hm⟩, by rw [hs]; exact fraction_search_point g1 g2⟩

/-- a number in front of a tail -/
theorem digit_outcome (n : Nat) : ∀ {x t s a : Bytes} {neg : Bool}, DigitBody x → Tail n t → (∀ m < n, ∀ s, Lang m s → Outcome s) →
    s = a ++ (x ++ t) → GnuSign s neg (x ++ t) → Outcome s := by
  induction n using Nat.strong_induction_on with
  | _ n ih =>
    intro x t s a neg hx ht G hs hsign
    cases hx with
    | numberUnit g1 g2 g3 =>
      rw [List.append_assoc, List.append_assoc] at hs hsign
      exact number_unit g1 g2 g3 ht G hs hsign
    | decimalUnit g1 g1' g2 g3 =>
      rw [List.append_assoc, List.cons_append, List.append_assoc, List.append_assoc] at hs hsign
      exact decimal_unit g1 g1' g2 g3 ht G hs hsign
    | @decimal W F g1 g2 =>
      rw [List.append_assoc, List.cons_append] at hs hsign
      rcases tail_cases ht with ⟨m, y, t', rfl, rfl, hy, ht'⟩ | ⟨m, sp, u, t', rfl, rfl, h1, h2, h3⟩ | ⟨h1, h2, sp, rest, h3, h4, h5⟩
      · have G' : ∀ k < m, ∀ s, Lang k s → Outcome s := fun k hk => G k (by omega)
        cases hy with
        | @numberUnit V sp u k1 k2 k3 =>
          have e : W ++ 46 :: (F ++ ((V ++ (sp ++ u)) ++ t')) = W ++ 46 :: ((F ++ V) ++ (sp ++ (u ++ t'))) := by simp
          rw [e] at hs hsign
          exact decimal_unit g1 (digits_append g2 k1.2) k2 k3 ht' G' hs hsign
        | @decimalUnit V F' sp u k1 k2 k3 k4 =>
          have e : W ++ 46 :: (F ++ ((V ++ 46 :: (F' ++ (sp ++ u))) ++ t')) = W ++ 46 :: ((F ++ V) ++ 46 :: ((F' ++ (sp ++ u)) ++ t')) := by simp
          rw [e] at hs hsign
          have hz := Tail.digit (.numberUnit k2 k3 k4) ht'
          exact decimal_point g1 (digits_append g2 k1.2) (starts_append (starts_append (digits_start k2))) (tail_digits hz) hs hsign
        | @decimal V F' k1 k2 =>
          have e : W ++ 46 :: (F ++ ((V ++ 46 :: F') ++ t')) = W ++ 46 :: ((F ++ V) ++ 46 :: (F' ++ t')) := by simp
          rw [e] at hs hsign
          have hz := Tail.digit (.number k2) ht'
          exact decimal_point g1 (digits_append g2 k1.2) (starts_append (digits_start k2)) (tail_digits hz) hs hsign
        | number k1 =>
          have e : W ++ 46 :: (F ++ (y ++ t')) = (W ++ 46 :: (F ++ y)) ++ t' := by simp
          rw [e] at hs hsign
          exact ih m (by omega) (.decimal g1 (digits_append g2 k1.2)) ht' G' hs hsign
      · exact decimal_unit g1 g2 h1 h2 h3 (fun k hk => G k (by omega)) hs hsign
      · have hp : Split IsDigit (W ++ 46 :: (F ++ t)) W (46 :: (F ++ t)) := split_digits g1 (by rw [startsWith_cons]; decide)
        refine outcome_step (a := a ++ (W ++ 46 :: (F ++ sp))) hsign
          (.decimal ⟨_, hp, g1.1, split_digits g2 h1, g2.1, no_exponent h2⟩ h4) (by rw [hs, h3]; simp) ?_
        rcases h5 with h5 | ⟨m, hm, h5⟩
        · exact Or.inl h5
        · exact Or.inr (G m hm rest h5)
    | number g1 =>
      rcases tail_cases ht with ⟨m, y, t', rfl, rfl, hy, ht'⟩ | ⟨m, sp, u, t', rfl, rfl, h1, h2, h3⟩ | ⟨h1, h2, sp, rest, h3, h4, h5⟩
      · have G' : ∀ k < m, ∀ s, Lang k s → Outcome s := fun k hk => G k (by omega)
        have hxy : DigitBody (x ++ y) := by
          cases hy with
          | numberUnit k1 k2 k3 => rw [← List.append_assoc]; exact .numberUnit (digits_append g1 k1.2) k2 k3
          | decimalUnit k1 k2 k3 k4 => rw [← List.append_assoc]; exact .decimalUnit (digits_append g1 k1.2) k2 k3 k4
          | decimal k1 k2 => rw [← List.append_assoc]; exact .decimal (digits_append g1 k1.2) k2
          | number k1 => exact .number (digits_append g1 k1.2)
        have e : x ++ (y ++ t') = (x ++ y) ++ t' := by simp
        rw [e] at hs hsign
        exact ih m (by omega) hxy ht' G' hs hsign
      · exact number_unit g1 h1 h2 h3 (fun k hk => G k (by omega)) hs hsign
      · refine outcome_step (a := a ++ (x ++ sp)) hsign (.number ⟨split_digits g1 h1, g1.1, h2⟩ h4) (by rw [hs, h3]; simp) ?_
        rcases h5 with h5 | ⟨m, hm, h5⟩
        · exact Or.inl h5
        · exact Or.inr (G m hm rest h5)

theorem body_outcome {n : Nat} {x t s a : Bytes} {neg : Bool} (hx : Body x) (ht : Tail n t) (G : ∀ m < n, ∀ s, Lang m s → Outcome s)
    (hs : s = a ++ (x ++ t)) (hsign : GnuSign s neg (x ++ t)) : Outcome s := by
  cases hx with
  | keyword h =>
    obtain ⟨sp, rest, h1, h2, h3⟩ := tail_gap ht
    refine outcome_step (a := a ++ (x ++ sp)) hsign (.keyword ⟨x, ⟨rfl, fun b hb => (letter_not (keyword_letters h b hb)).1,
      end_not_letter (tail_end ht)⟩, h⟩ h2) (by rw [hs, h1]; simp) ?_
    rcases h3 with h3 | ⟨m, hm, h3⟩
    · exact Or.inl h3
    · exact Or.inr (G m hm rest h3)
  | @numeral w k sp u g1 g2 g3 g4 =>
    have k' := unit_after g3 (starts_append (r := t) (unitText_start g4))
    obtain ⟨v, len, ag, rfl, k1, k2⟩ := g4
    obtain ⟨ago, y, rest, k3, k4, k5⟩ := unit_at k1 k2 ht
    have e : w ++ (sp ++ (v ++ ag)) ++ t = w ++ (sp ++ (v ++ (ag ++ t))) := by simp
    rw [e] at hs hsign
    rw [List.append_assoc] at k'
    refine outcome_step (a := a ++ (w ++ (sp ++ (v ++ (ag ++ y))))) hsign (.numeral (w := w) (r := sp ++ (v ++ (ag ++ t))) ⟨rfl,
      fun b hb => (letter_not ((numeral_word g1).2 b hb)).2.1, not_of_start (spaces_start g2 g3) fun b hb g => g hb⟩ g1 k'.2.2 k3)
      (by rw [hs, k4]; simp) ?_
    rcases k5 with h3 | ⟨m, hm, h3⟩
    · exact Or.inl h3
    · exact Or.inr (G m hm rest h3)
  | unit g =>
    obtain ⟨v, len, ag, rfl, k1, k2⟩ := g
    obtain ⟨ago, y, rest, k3, k4, k5⟩ := unit_at k1 k2 ht
    rw [List.append_assoc] at hs hsign
    refine outcome_step (a := a ++ (v ++ (ag ++ y))) hsign (.unit k3) (by rw [hs, k4]; simp) ?_
    rcases k5 with h3 | ⟨m, hm, h3⟩
    · exact Or.inl h3
    · exact Or.inr (G m hm rest h3)
  | digit h => exact digit_outcome n h ht G hs hsign

theorem lang_outcome (n : Nat) : ∀ s, Lang n s → Outcome s := by
  induction n using Nat.strong_induction_on with
  | _ n ih =>
    rintro s ⟨x, t, rfl, hx, ht⟩
    cases hx with
    | plain h =>
      refine body_outcome (a := []) (neg := false) h ht ih rfl (.absent ?_)
      exact not_of_start (starts_append (body_start h)) fun b hb => (bodyStart_facts hb).2.1
    | @sign b sp x h1 h2 h3 =>
      have hsp : Spaces (sp ++ (x ++ t)) (x ++ t) :=
        ⟨sp, rfl, h2, not_of_start (starts_append (body_start h3)) fun b hb => (bodyStart_facts hb).1⟩
      rw [List.cons_append, List.append_assoc]
      rcases h1 with rfl | rfl
      · exact body_outcome (a := 43 :: sp) (neg := false) h3 ht ih rfl (.plus hsp)
      · exact body_outcome (a := 45 :: sp) (neg := true) h3 ht ih rfl (.minus hsp)

/-! ## How texts of the language end -/

/-- the text ends, and not with white space -/
def EndsWell (s : Bytes) : Prop := ∃ y b, s = y ++ [b] ∧ ¬ PosixSpace b

theorem endsWell_append {a s : Bytes} (h : EndsWell s) : EndsWell (a ++ s) := by
  obtain ⟨y, b, rfl, hb⟩ := h
  exact ⟨a ++ y, b, by simp, hb⟩

theorem endsWell_cons {a : UInt8} {s : Bytes} (h : EndsWell s) : EndsWell (a :: s) := endsWell_append (a := [a]) h

theorem endsWell_of {w : Bytes} (h1 : w ≠ []) (h2 : ∀ b ∈ w, ¬ PosixSpace b) : EndsWell w :=
  ⟨w.dropLast, w.getLast h1, (List.dropLast_append_getLast h1).symm, h2 _ (List.getLast_mem h1)⟩

theorem letters_end {w : Bytes} (h1 : w ≠ []) (h2 : ∀ b ∈ w, Letter b) : EndsWell w := endsWell_of h1 fun b hb => (letter_not (h2 b hb)).2.1

theorem digits_end {w : Bytes} (h : Digits w) : EndsWell w := endsWell_of h.1 fun b hb => (bodyStart_facts (digit_bodyStart (h.2 b hb))).1

theorem unitText_end {u : Bytes} (h : UnitText u) : EndsWell u := by
  obtain ⟨w, len, a, rfl, h1, rfl | ⟨sp, x, rfl, h2, h3, h4⟩⟩ := h
  · rw [List.append_nil]; exact letters_end (gnuWord_ne h1 (by decide)) (unit_letters h1)
  · exact endsWell_append (endsWell_append (letters_end (Gnu.ago_letters h4).1 (Gnu.ago_letters h4).2))

theorem body_end {x : Bytes} (h : Body x) : EndsWell x := by
  cases h with
  | keyword h => exact letters_end (gnuWord_ne h (by decide)) (keyword_letters h)
  | numeral _ _ _ h => exact endsWell_append (endsWell_append (unitText_end h))
  | unit h => exact unitText_end h
  | digit h =>
    cases h with
    | numberUnit _ _ h => exact endsWell_append (endsWell_append (unitText_end h))
    | decimalUnit _ _ _ h => exact endsWell_append (endsWell_cons (endsWell_append (endsWell_append (unitText_end h))))
    | decimal _ h => exact endsWell_append (endsWell_cons (digits_end h))
    | number h => exact digits_end h

theorem dur_end {x : Bytes} (h : Dur x) : EndsWell x := by
  cases h with
  | plain h => exact body_end h
  | sign _ _ h => exact endsWell_cons (endsWell_append (body_end h))

theorem tail_last {n : Nat} {t : Bytes} (h : Tail n t) : ∀ x, EndsWell x → EndsWell (x ++ t) := by
  induction h with
  | nil => intro x hx; rwa [List.append_nil]
  | digit h _ ih => exact fun x _ => endsWell_append (ih _ (body_end (.digit h)))
  | sign _ _ h _ ih => exact fun x _ => endsWell_append (endsWell_cons (endsWell_append (ih _ (body_end h))))
  | space _ _ h _ ih => exact fun x _ => endsWell_append (endsWell_append (ih _ (dur_end h)))

/-- a text of the language has no white space around it -/
theorem lang_trimmed {n : Nat} {s : Bytes} (h : Lang n s) : Trimmed s s := by
  refine ⟨[], [], by simp, by simp, by simp, ?_, ?_⟩
  · obtain ⟨b, l, rfl, hb, -⟩ := lang_start h
    intro c hc
    cases hc
    exact hb
  · obtain ⟨x, t, rfl, h1, h2⟩ := h
    obtain ⟨y, b, e, hb⟩ := tail_last h2 x (dur_end h1)
    rw [e]
    intro c hc
    rw [List.getLast?_append] at hc
    cases hc
    exact hb

/-! ## Accepted texts are in the language, or a word follows directly behind a number -/

/-- a duration is followed by the tail which starts with the next text of the language -/
theorem tail_of {n : Nat} {sp rest : Bytes} (hsp : AllSpaces sp) (h : sp ≠ [] ∨ StartsWith NextDuration rest) (hl : Lang n rest) :
    Tail (n + 1) (sp ++ rest) := by
  obtain ⟨x, t, rfl, h1, h2⟩ := hl
  by_cases hs : sp = []
  · subst hs
    have h := h.resolve_left (fun k => k rfl)
    cases h1 with
    | @sign b sp x g1 g2 g3 => rw [List.nil_append, List.cons_append, List.append_assoc]; exact .sign g1 g2 g3 h2
    | plain h3 =>
      have letter : ∀ {w r : Bytes}, w ≠ [] → (∀ b ∈ w, Letter b) → StartsWith NextDuration (w ++ r) → False := by
        intro w r g1 g2 g3
        obtain ⟨b, l, rfl⟩ := List.exists_cons_of_ne_nil g1
        rw [List.cons_append, startsWith_cons] at g3
        exact (letter_not (g2 b (by simp))).1 (Or.inr g3)
      rw [List.nil_append]
      cases h3 with
      | keyword k => exact (letter (gnuWord_ne k (by decide)) (keyword_letters k) h).elim
      | numeral k _ _ _ => rw [List.append_assoc] at h; exact (letter (numeral_word k).1 (numeral_word k).2 h).elim
      | unit k =>
        obtain ⟨w, len, a, rfl, k, -⟩ := k
        rw [List.append_assoc] at h
        exact (letter (gnuWord_ne k (by decide)) (unit_letters k) h).elim
      | digit k => exact .digit k h2
  · exact .space hs hsp h1 h2

/-- a keyword or a numeral directly behind a number -/
theorem control_search {n : Nat} {a W rest : Bytes} (hW : Digits W) (hl : Lang n rest) (h1 : ¬ StartsWith NextDuration rest)
    (h2 : ¬ ∃ len r, GnuWordAt gnuUnits rest len r) : GnuRegex.control.Search (a ++ (W ++ rest)) := by
  obtain ⟨x, t, rfl, hx, ht⟩ := hl
  have found : ∀ {y z : Bytes}, x ++ t = y ++ z → (GnuRegex.numeral.seq ((Regex.many1 GnuRegex.space).seq GnuRegex.unit)).Matches y ∨ GnuRegex.keyword.Matches y →
      GnuRegex.control.Search (a ++ (W ++ (x ++ t))) := by
    intro y z e hy
    refine ⟨a, W ++ y, z, by rw [e]; simp, W, y, rfl, Or.inl (matches_number.2 hW), y, [], by simp, hy, matches_ago.2 (Or.inl rfl)⟩
  cases hx with
  | sign h _ _ => exact absurd ⟨_, _, rfl, Or.inr h⟩ h1
  | plain h =>
    cases h with
    | keyword k => exact found rfl (Or.inr (matches_words'.2 (keyword_words.2 ⟨_, k⟩)))
    | @numeral w m sp u k1 k2 k3 k4 =>
      obtain ⟨v, len, ag, rfl, k5, -⟩ := k4
      refine found (y := w ++ (sp ++ v)) (z := ag ++ t) (by simp) (Or.inl ⟨w, sp ++ v, rfl, matches_words'.2 (numeral_words.2 ⟨m, k1⟩), sp, v, rfl,
        matches_spaces1.2 ⟨k2, k3⟩, matches_words'.2 (unit_words.2 ⟨len, k5⟩)⟩)
    | unit k =>
      obtain ⟨w, len, ag, rfl, k1, k2⟩ := k
      refine absurd ⟨len, ag ++ t, w, ⟨by simp, fun b hb => (letter_not (unit_letters k1 b hb)).1, end_not_letter (ago_end k2 (tail_end ht))⟩, k1⟩ h2
    | digit k => exact absurd (startsWith_mono (fun _ => Or.inl) (starts_append (digitBody_start k))) h1

theorem gap_next {r rest : Bytes} (h : r = [] ∨ StartsWith GnuEnd r) (hg : GnuGap r rest) :
    ∃ sp, r = sp ++ rest ∧ AllSpaces sp ∧ (rest = [] → sp = []) ∧ (rest ≠ [] → sp ≠ [] ∨ StartsWith NextDuration rest) := by
  obtain ⟨⟨sp, rfl, h2, h3⟩, h4⟩ := hg
  refine ⟨sp, rfl, h2, fun k => (List.append_eq_nil_iff.1 (h4 k)).1, fun k => ?_⟩
  by_cases hs : sp = []
  · subst hs
    rcases h with h | ⟨b, l, e, hb⟩
    · exact absurd h k
    · rw [List.nil_append] at e
      subst e
      rcases hb with hb | hb
      · exact absurd (startsWith_cons.2 hb) h3
      · exact Or.inr (startsWith_cons.2 hb)
  · exact Or.inl hs

theorem word_ends {table : List (List Bytes × GnuLength)} {s r : Bytes} {len : GnuLength} (h : GnuWordAt table s len r) :
    r = [] ∨ StartsWith GnuEnd r := by
  obtain ⟨w, ⟨-, -, h3⟩, -⟩ := h
  cases r with
  | nil => exact Or.inl rfl
  | cons b l =>
    rw [startsWith_cons, not_not] at h3
    exact Or.inr (startsWith_cons.2 h3)

/-- a time unit as text of the language, and what follows -/
theorem unitAt_text {s rest : Bytes} {len : GnuLength} {ago : Bool} (h : GnuUnitAt s len ago rest) :
    ∃ u sp, s = u ++ (sp ++ rest) ∧ UnitText u ∧ AllSpaces sp ∧ (rest = [] → sp = []) ∧ (rest ≠ [] → sp ≠ [] ∨ StartsWith NextDuration rest) := by
  obtain ⟨r, r', h1, h2, h3⟩ := h
  have he := word_ends h1
  obtain ⟨w, ⟨rfl, -⟩, hw⟩ := h1
  cases h2 with
  | absent _ =>
    obtain ⟨sp, rfl, g⟩ := gap_next he h3
    exact ⟨w, sp, rfl, ⟨w, len, [], by simp, hw, Or.inl rfl⟩, g⟩
  | present ha =>
    obtain ⟨sp, q, ⟨rfl, a2, -⟩, a3, ⟨x, rfl, a4⟩, a5⟩ := ha
    obtain ⟨sp', rfl, g⟩ := gap_next a5 h3
    exact ⟨w ++ (sp ++ x), sp', by simp, ⟨w, len, sp ++ x, rfl, hw, Or.inr ⟨sp, x, rfl, a3, a2, a4⟩⟩, g⟩

/-- one part as text of the language, and what follows -/
theorem text_body {neg : Bool} {s rest : Bytes} {part : GnuPart} (h : GnuText neg s part rest) :
    ∃ x sp, s = x ++ (sp ++ rest) ∧ Body x ∧ AllSpaces sp ∧ (rest = [] → sp = []) ∧
      (rest ≠ [] → (sp ≠ [] ∨ StartsWith NextDuration rest) ∨
        ((¬ ∃ len r, GnuWordAt gnuUnits rest len r) ∧ ∃ a W, x = a ++ W ∧ Digits W)) := by
  have nounit : ∀ {r rest : Bytes}, NoUnit r rest → ∃ sp, r = sp ++ rest ∧ AllSpaces sp ∧ (rest = [] → sp = []) ∧
      ¬ ∃ len t, GnuWordAt gnuUnits rest len t := by
    rintro r _ ⟨rest, ⟨sp, rfl, h2, -⟩, h3, h4, rfl⟩
    exact ⟨sp, rfl, h2, fun k => (List.append_eq_nil_iff.1 (h3 k)).1, h4⟩
  cases h with
  | numberUnit h1 h2 h3 =>
    obtain ⟨u, sp, rfl, g1, g2, g3, g4⟩ := unitAt_text h3
    obtain ⟨⟨rfl, hd, -⟩, hne, -⟩ := h1
    obtain ⟨sp', rfl, k, -⟩ := h2
    exact ⟨_, sp, by simp, .digit (.numberUnit ⟨hne, hd⟩ k g1), g2, g3, fun hr => Or.inl (g4 hr)⟩
  | number h1 h2 =>
    obtain ⟨sp, rfl, g1, g2, g3⟩ := nounit h2
    obtain ⟨⟨rfl, hd, -⟩, hne, -⟩ := h1
    exact ⟨_, sp, rfl, .digit (.number ⟨hne, hd⟩), g1, g2, fun hr => Or.inr ⟨g3, [], _, rfl, hne, hd⟩⟩
  | decimalUnit h1 h2 h3 =>
    obtain ⟨u, sp, rfl, g1, g2, g3, g4⟩ := unitAt_text h3
    obtain ⟨r, ⟨rfl, hd, -⟩, hne, ⟨rfl, hd', -⟩, hne', -⟩ := h1
    obtain ⟨sp', rfl, k, -⟩ := h2
    exact ⟨_, sp, by simp, .digit (.decimalUnit ⟨hne, hd⟩ ⟨hne', hd'⟩ k g1), g2, g3, fun hr => Or.inl (g4 hr)⟩
  | decimal h1 h2 =>
    rename_i W F _
    obtain ⟨sp, rfl, g1, g2, g3⟩ := nounit h2
    obtain ⟨r, ⟨rfl, hd, -⟩, hne, ⟨rfl, hd', -⟩, hne', -⟩ := h1
    exact ⟨W ++ 46 :: F, sp, by simp, .digit (.decimal ⟨hne, hd⟩ ⟨hne', hd'⟩), g1, g2, fun hr => Or.inr ⟨g3, W ++ [46], F, by simp, hne', hd'⟩⟩
  | keyword h1 h2 =>
    obtain ⟨sp, rfl, g⟩ := gap_next (word_ends h1) h2
    obtain ⟨w, ⟨rfl, -⟩, hw⟩ := h1
    exact ⟨w, sp, rfl, .keyword hw, g.1, g.2.1, fun hr => Or.inl (g.2.2 hr)⟩
  | unit h1 =>
    obtain ⟨u, sp, rfl, g1, g2, g3, g4⟩ := unitAt_text h1
    exact ⟨u, sp, rfl, .unit g1, g2, g3, fun hr => Or.inl (g4 hr)⟩
  | numeral h1 h2 h3 h4 =>
    obtain ⟨u, sp, rfl, g1, g2, g3, g4⟩ := unitAt_text h4
    obtain ⟨rfl, k1, k2⟩ := h1
    obtain ⟨sp', rfl, k, -⟩ := h3
    have hne : sp' ≠ [] := by
      rintro rfl
      have hu := starts_append (r := sp ++ rest) (unitText_start g1)
      rw [List.nil_append] at k2
      exact k2 (startsWith_mono (fun b hb => (bodyStart_facts (unitStart_facts hb).1).1) hu)
    exact ⟨_, sp, by simp, .numeral h2 hne k g1, g2, g3, fun hr => Or.inl (g4 hr)⟩

theorem sign_dur {s r x z : Bytes} {neg : Bool} (h : GnuSign s neg r) (hr : r = x ++ z) (hx : Body x) : ∃ a, s = a ++ z ∧ Dur a ∧ ∃ c, a = c ++ x := by
  subst hr
  cases h with
  | absent _ => exact ⟨x, rfl, .plain hx, [], rfl⟩
  | plus h =>
    obtain ⟨sp, rfl, h2, -⟩ := h
    exact ⟨43 :: (sp ++ x), by simp, .sign (Or.inl rfl) h2 hx, 43 :: sp, rfl⟩
  | minus h =>
    obtain ⟨sp, rfl, h2, -⟩ := h
    exact ⟨45 :: (sp ++ x), by simp, .sign (Or.inr rfl) h2 hx, 45 :: sp, rfl⟩

theorem relative_lang {s : Bytes} {l : List GnuPart} (h : RelativeTime s l) : (∃ n, Lang n s) ∨ GnuRegex.control.Search s := by
  induction h with
  | last h1 h2 =>
    obtain ⟨x, sp, e, g1, g2, g3, -⟩ := text_body h2
    rw [g3 rfl] at e
    obtain ⟨a, rfl, ha, -⟩ := sign_dur h1 e g1
    exact Or.inl ⟨0, a, [], rfl, ha, .nil⟩
  | @more s neg r part rest l h1 h2 h3 ih =>
    obtain ⟨x, sp, e, g1, g2, g3, g4⟩ := text_body h2
    obtain ⟨a, rfl, ha, c, hc⟩ := sign_dur h1 e g1
    rcases ih with ⟨n, ih⟩ | ih
    · rcases g4 (GnuConcat.relative_ne h3) with g | ⟨g, b, W, rfl, hW⟩
      · exact Or.inl ⟨n + 1, a, sp ++ rest, rfl, ha, tail_of g2 g ih⟩
      · by_cases hn : sp ≠ [] ∨ StartsWith NextDuration rest
        · exact Or.inl ⟨n + 1, a, sp ++ rest, rfl, ha, tail_of g2 hn ih⟩
        · rw [not_or, not_not] at hn
          obtain ⟨rfl, hn⟩ := hn
          refine Or.inr ?_
          rw [hc, List.nil_append, ← List.append_assoc, List.append_assoc]
          exact control_search hW ih hn g
    · exact Or.inr (search_append (search_append ih))

end Fundu.GnuRegexProof
