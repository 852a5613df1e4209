import Verif.Spec.GnuSentence
import Verif.Proofs.GnuLoop
/-! # Relative times as one writes them -/
namespace Fundu.Gnu
open Fundu Fundu.Spec Fundu.Props

/-- a byte which is not white space is in front -/
def Solid (s : Bytes) : Prop := ∃ b l, s = b :: l ∧ ¬ PosixSpace b

theorem not_space_of_solid {s : Bytes} (h : Solid s) : ¬ StartsWith PosixSpace s := by
  obtain ⟨b, l, rfl, h⟩ := h
  rw [startsWith_cons]; exact h

theorem solid_word {w r : Bytes} (hw : w ≠ []) (hl : ∀ b ∈ w, Letter b) : Solid (w ++ r) := by
  cases w with
  | nil => exact absurd rfl hw
  | cons b w => exact ⟨b, _, rfl, (letter_not (hl b (by simp))).2.1⟩

theorem digit_not_space {b : UInt8} (h : IsDigit b) : ¬ PosixSpace b ∧ GnuEnd b := by
  have key : ∀ n < 256, IsDigit (UInt8.ofNat n) → ¬ PosixSpace (UInt8.ofNat n) ∧ GnuEnd (UInt8.ofNat n) := by decide +kernel
  have := key b.toNat b.toNat_lt
  rw [UInt8.ofNat_toNat] at this
  exact this h

theorem space_not {b : UInt8} (h : PosixSpace b) : GnuEnd b ∧ ¬ IsDigit b ∧ b ≠ 46 ∧ b ≠ 101 ∧ b ≠ 69 := by
  have key : ∀ n < 256, PosixSpace (UInt8.ofNat n) → GnuEnd (UInt8.ofNat n) ∧ ¬ IsDigit (UInt8.ofNat n) ∧
      UInt8.ofNat n ≠ 46 ∧ UInt8.ofNat n ≠ 101 ∧ UInt8.ofNat n ≠ 69 := by decide +kernel
  have := key b.toNat b.toNat_lt
  rw [UInt8.ofNat_toNat] at this
  exact this h

/-- what may follow a part -/
inductive Follow : Bytes → Bytes → Prop
  | nothing : Follow [] []
  | gap {sp r} : IsSpaces sp → sp ≠ [] → Solid r →
      (¬ ∃ t, AfterWord (b! "ago") r t ∧ (t = [] ∨ StartsWith GnuEnd t)) → Follow (sp ++ r) r

theorem spaces_of {sp r : Bytes} (h : IsSpaces sp) (hr : ¬ StartsWith PosixSpace r) : Split PosixSpace (sp ++ r) sp r :=
  ⟨rfl, h, hr⟩

theorem follow_head {s r : Bytes} (h : Follow s r) : s = [] ∨ ∃ b l, s = b :: l ∧ PosixSpace b := by
  cases h with
  | nothing => exact Or.inl rfl
  | @gap sp r h1 h2 =>
    cases sp with
    | nil => exact absurd rfl h2
    | cons b sp => exact Or.inr ⟨b, _, rfl, h1 b (by simp)⟩

theorem follow_end {s r : Bytes} (h : Follow s r) : s = [] ∨ StartsWith GnuEnd s := by
  rcases follow_head h with h | ⟨b, l, rfl, h'⟩
  · exact Or.inl h
  · right; rw [startsWith_cons]; exact (space_not h').1

theorem follow_gap {s r : Bytes} (h : Follow s r) : GnuGap s r := by
  cases h with
  | nothing => exact ⟨⟨[], rfl, by simp, by rintro ⟨b, l, h, -⟩; cases h⟩, fun h => h⟩
  | gap h1 h2 h3 h4 =>
    refine ⟨⟨_, spaces_of h1 (not_space_of_solid h3)⟩, ?_⟩
    rintro rfl
    obtain ⟨b, l, h, -⟩ := h3
    cases h

theorem word_split {w s : Bytes} (hl : ∀ b ∈ w, Letter b) (h : s = [] ∨ StartsWith GnuEnd s) : Split (¬ GnuEnd ·) (w ++ s) w s := by
  refine ⟨rfl, fun b hb => (letter_not (hl b hb)).1, ?_⟩
  rintro ⟨b, l, rfl, hb⟩
  rcases h with h | h
  · cases h
  · rw [startsWith_cons] at h; exact hb h

theorem follow_noAgo {s r : Bytes} (h : Follow s r) : ¬ ∃ rest, AgoAt s rest := by
  rintro ⟨rest, sp, t, h1, h2, h3, h4⟩
  cases h with
  | nothing =>
    have := h1.1
    simp at this
    exact h2 this.1
  | gap k1 k2 k3 k4 =>
    obtain ⟨rfl, rfl⟩ := split_unique h1 (spaces_of k1 (not_space_of_solid k3))
    exact k4 ⟨rest, h3, h4⟩

theorem ago_letters {a : Bytes} (h : SameText a (b! "ago")) : a ≠ [] ∧ ∀ b ∈ a, Letter b := by
  refine ⟨?_, letters_of h (by decide)⟩
  rintro rfl
  exact absurd h (by decide)

/-- a unit phrase, whatever follows it -/
theorem unit_at {u : Bytes} {len : GnuLength} {ago : Bool} (h : UnitPhrase u len ago) {s r : Bytes} (hf : Follow s r) :
    GnuUnitAt (u ++ s) len ago r := by
  cases h with
  | unit h1 =>
    exact ⟨s, s, ⟨u, word_split (unit_letters h1) (follow_end hf), h1⟩, .absent (follow_noAgo hf), follow_gap hf⟩
  | @ago w _ sp a h1 h2 h3 h4 =>
    obtain ⟨g1, g2⟩ := ago_letters h4
    have hsp : sp ++ (a ++ s) = [] ∨ StartsWith GnuEnd (sp ++ (a ++ s)) := by
      cases sp with
      | nil => exact absurd rfl h3
      | cons b sp => right; rw [List.cons_append, startsWith_cons]; exact (space_not (h2 b (by simp))).1
    rw [List.append_assoc, List.append_assoc]
    refine ⟨sp ++ (a ++ s), s, ⟨w, word_split (unit_letters h1) hsp, h1⟩, .present ?_, follow_gap hf⟩
    exact ⟨sp, a ++ s, spaces_of h2 (not_space_of_solid (solid_word g1 g2)), h3, ⟨a, rfl, h4⟩, follow_end hf⟩

theorem unitPhrase_word {u : Bytes} {len : GnuLength} {ago : Bool} (h : UnitPhrase u len ago) :
    ∃ w r, u = w ++ r ∧ GnuWord gnuUnits w len ∧ (r = [] ∨ StartsWith GnuEnd r) := by
  cases h with
  | unit h => exact ⟨u, [], by simp, h, Or.inl rfl⟩
  | @ago w _ sp a h1 h2 h3 h4 =>
    refine ⟨w, _, rfl, h1, ?_⟩
    cases sp with
    | nil => exact absurd rfl h3
    | cons b sp => right; rw [List.cons_append, startsWith_cons]; exact (space_not (h2 b (by simp))).1

theorem unitPhrase_solid {u : Bytes} {len : GnuLength} {ago : Bool} (h : UnitPhrase u len ago) (s : Bytes) :
    Solid (u ++ s) ∧ ∃ b l, u ++ s = b :: l ∧ Letter b ∧ b ≠ 101 ∧ b ≠ 69 := by
  obtain ⟨w, r, rfl, h1, -⟩ := unitPhrase_word h
  have hw := gnuWord_ne h1 (by decide)
  rw [List.append_assoc]
  refine ⟨solid_word hw (unit_letters h1), ?_⟩
  obtain ⟨names, k1, n, k2, k3⟩ := h1
  cases w with
  | nil => exact absurd rfl hw
  | cons b w =>
    refine ⟨b, _, rfl, letters_of k3 ?_ b (by simp), ?_⟩
    · have : ∀ p ∈ gnuUnits, ∀ n ∈ p.1, ∀ b ∈ n.map lower, 97 ≤ b.toNat ∧ b.toNat ≤ 122 := by decide
      exact this _ k1 n k2
    · have key : ∀ p ∈ gnuUnits, ∀ n ∈ p.1, (n.map lower).head? ≠ some 101 := by decide
      have k4 := key _ k1 n k2
      unfold SameText at k3
      rw [← k3] at k4
      simp only [List.map_cons, List.head?_cons, ne_eq, Option.some.injEq] at k4
      constructor
      · rintro rfl; exact k4 (by decide)
      · rintro rfl; exact k4 (by decide)

/-- a unit phrase after optional white space -/
theorem spaces_unit {sp u : Bytes} {len : GnuLength} {ago : Bool} (h1 : IsSpaces sp) (h2 : UnitPhrase u len ago) (s : Bytes) :
    Spaces (sp ++ (u ++ s)) (u ++ s) ∧
      ¬ StartsWith IsDigit (sp ++ (u ++ s)) ∧ ¬ StartsWith (fun b => b = 46 ∨ b = 101 ∨ b = 69) (sp ++ (u ++ s)) := by
  obtain ⟨g1, b, l, g2, g3, g4, g5⟩ := unitPhrase_solid h2 s
  refine ⟨⟨sp, spaces_of h1 (not_space_of_solid g1)⟩, ?_⟩
  cases sp with
  | nil =>
    rw [List.nil_append, g2, startsWith_cons, startsWith_cons]
    have := letter_not g3
    exact ⟨this.2.2.1, by rintro (h | h | h); exacts [this.2.2.2 h, g4 h, g5 h]⟩
  | cons c sp =>
    rw [List.cons_append, startsWith_cons, startsWith_cons]
    have := space_not (h1 c (by simp))
    exact ⟨this.2.1, by rintro (h | h | h); exacts [this.2.2.1 h, this.2.2.2.1 h, this.2.2.2.2 h]⟩

theorem phrase_text {neg : Bool} {p : Bytes} {part : GnuPart} (h : Phrase neg p part) {s r : Bytes} (hf : Follow s r) :
    GnuText neg (p ++ s) part r := by
  cases h with
  | @count W sp u len ago h1 h2 h3 h4 =>
    rw [List.append_assoc, List.append_assoc]
    obtain ⟨g1, g2, g3⟩ := spaces_unit h3 h4 s
    exact .numberUnit ⟨⟨rfl, h2, g2⟩, h1, g3⟩ g1 (unit_at h4 hf)
  | @numeral w n sp u len ago h1 h2 h3 h4 =>
    rw [List.append_assoc, List.append_assoc]
    obtain ⟨g1, -, -⟩ := spaces_unit h2 h4 s
    obtain ⟨k1, k2⟩ := numeral_word h1
    refine .numeral ⟨rfl, fun b hb => (letter_not (k2 b hb)).2.1, ?_⟩ h1 g1 (unit_at h4 hf)
    cases sp with
    | nil => exact absurd rfl h3
    | cons c sp => rw [List.cons_append, startsWith_cons]; exact fun hn => hn (h2 c (by simp))
  | one h1 => exact .unit (unit_at h1 hf)
  | keyword h1 => exact .keyword ⟨p, word_split (keyword_letters h1) (follow_end hf), h1⟩ (follow_gap hf)
  | @seconds W F sp u ago h1 h2 h3 h4 h5 h6 =>
    have e : W ++ (46 :: (F ++ (sp ++ u))) ++ s = W ++ (46 :: (F ++ (sp ++ (u ++ s)))) := by simp
    rw [e]
    obtain ⟨g1, g2, g3⟩ := spaces_unit h5 h6 s
    refine .decimalUnit ⟨F ++ (sp ++ (u ++ s)), ⟨rfl, h2, ?_⟩, h1, ⟨rfl, h4, g2⟩, h3, ?_⟩ g1 (unit_at h6 hf)
    · rw [startsWith_cons]; decide
    · rintro ⟨b, l, h, hb⟩; exact g3 ⟨b, l, h, Or.inr hb⟩

theorem phrase_solid {neg : Bool} {p : Bytes} {part : GnuPart} (h : Phrase neg p part) (s : Bytes) :
    Solid (p ++ s) ∧ ¬ StartsWith (fun b => b = 43 ∨ b = 45) (p ++ s) := by
  have letter : ∀ {b : UInt8} {l : Bytes}, Letter b → Solid (b :: l) ∧ ¬ StartsWith (fun b => b = 43 ∨ b = 45) (b :: l) := by
    intro b l h
    refine ⟨⟨b, l, rfl, (letter_not h).2.1⟩, ?_⟩
    rw [startsWith_cons]
    rintro (rfl | rfl) <;> exact absurd h (by decide)
  have digit : ∀ {b : UInt8} {l : Bytes}, IsDigit b → Solid (b :: l) ∧ ¬ StartsWith (fun b => b = 43 ∨ b = 45) (b :: l) := by
    intro b l h
    refine ⟨⟨b, l, rfl, (digit_not_space h).1⟩, ?_⟩
    rw [startsWith_cons]
    rintro (rfl | rfl) <;> exact absurd h (by decide)
  have word : ∀ {w r : Bytes}, w ≠ [] → (∀ b ∈ w, Letter b) → Solid (w ++ r) ∧ ¬ StartsWith (fun b => b = 43 ∨ b = 45) (w ++ r) := by
    intro w r h1 h2
    cases w with
    | nil => exact absurd rfl h1
    | cons b w => exact letter (h2 b (by simp))
  have number : ∀ {w r : Bytes}, w ≠ [] → (∀ b ∈ w, IsDigit b) → Solid (w ++ r) ∧ ¬ StartsWith (fun b => b = 43 ∨ b = 45) (w ++ r) := by
    intro w r h1 h2
    cases w with
    | nil => exact absurd rfl h1
    | cons b w => exact digit (h2 b (by simp))
  cases h with
  | count h1 h2 h3 h4 => rw [List.append_assoc]; exact number h1 h2
  | numeral h1 h2 h3 h4 => rw [List.append_assoc]; exact word (numeral_word h1).1 (numeral_word h1).2
  | one h1 =>
    obtain ⟨-, b, l, g2, g3, -⟩ := unitPhrase_solid h1 s
    rw [g2]; exact letter g3
  | keyword h1 => exact word (gnuWord_ne h1 (by decide)) (keyword_letters h1)
  | seconds h1 h2 h3 h4 h5 h6 => rw [List.append_assoc]; exact number h1 h2

theorem phrase_noAgo {neg : Bool} {p : Bytes} {part : GnuPart} (h : Phrase neg p part) {s r : Bytes} (hf : Follow s r) :
    ¬ ∃ t, AfterWord (b! "ago") (p ++ s) t ∧ (t = [] ∨ StartsWith GnuEnd t) := by
  rintro ⟨t, ⟨x, h1, h2⟩, h3⟩
  obtain ⟨hx, hl⟩ := ago_letters h2
  have hsplit : Split (¬ GnuEnd ·) (p ++ s) x t := by rw [h1]; exact word_split hl h3
  have number : ∀ {w r : Bytes}, w ≠ [] → (∀ b ∈ w, IsDigit b) → w ++ r = x ++ t → False := by
    intro w r k1 k2 k3
    cases w with
    | nil => exact k1 rfl
    | cons b w =>
      cases x with
      | nil => exact hx rfl
      | cons c x =>
        obtain ⟨rfl, -⟩ := List.cons.inj k3
        exact (letter_not (hl b (by simp))).2.2.1 (k2 b (by simp))
  have word : ∀ {w r : Bytes}, p ++ s = w ++ r → (∀ b ∈ w, Letter b) → (r = [] ∨ StartsWith GnuEnd r) →
      ¬ SameText w (b! "ago") → False := by
    intro w r k1 k2 k3 k4
    have := word_split k2 k3
    rw [← k1] at this
    obtain ⟨rfl, -⟩ := split_unique hsplit this
    exact k4 h2
  have noWord : ∀ {table : List (List Bytes × GnuLength)} {w : Bytes} {len : GnuLength},
      (∀ p ∈ table, ∀ n ∈ p.1, ¬ SameText n (b! "ago")) → GnuWord table w len → ¬ SameText w (b! "ago") := by
    rintro table w len ht ⟨names, k1, n, k2, k3⟩ k4
    exact ht _ k1 n k2 (Eq.trans (Eq.symm k3) k4)
  have spEnd : ∀ {sp r : Bytes}, IsSpaces sp → sp ≠ [] → (sp ++ r = [] ∨ StartsWith GnuEnd (sp ++ r)) := by
    intro sp r k1 k2
    cases sp with
    | nil => exact absurd rfl k2
    | cons b sp => right; rw [List.cons_append, startsWith_cons]; exact (space_not (k1 b (by simp))).1
  cases h with
  | count g1 g2 g3 g4 => rw [List.append_assoc] at h1; exact number g1 g2 h1
  | @numeral w n sp u len ago g1 g2 g3 g4 =>
    refine word (w := w) (r := sp ++ u ++ s) (by simp) (numeral_word g1).2 (by rw [List.append_assoc]; exact spEnd g2 g3) ?_
    obtain ⟨name, k1, k2⟩ := g1
    have k3 : ∀ p ∈ gnuNumerals, ¬ SameText p.1 (b! "ago") := by decide
    exact fun k4 => k3 _ k1 (Eq.trans (Eq.symm k2) k4)
  | one g1 =>
    cases g1 with
    | unit g1 => exact word rfl (unit_letters g1) (follow_end hf) (noWord (by decide) g1)
    | @ago w _ sp a g1 g2 g3 g4 =>
      exact word (w := w) (r := sp ++ a ++ s) (by simp) (unit_letters g1) (by rw [List.append_assoc]; exact spEnd g2 g3)
        (noWord (by decide) g1)
  | keyword g1 => exact word rfl (keyword_letters g1) (follow_end hf) (noWord (by decide) g1)
  | seconds g1 g2 g3 g4 g5 g6 => rw [List.append_assoc] at h1; exact number g1 g2 h1

theorem sign_text {sg : Bytes} {neg : Bool} (h : GnuSignText sg neg) {p : Bytes} (h1 : Solid p)
    (h2 : ¬ StartsWith (fun b => b = 43 ∨ b = 45) p) : GnuSign (sg ++ p) neg p := by
  cases h with
  | none => exact .absent h2
  | plus h => exact .plus ⟨_, spaces_of h (not_space_of_solid h1)⟩
  | minus h => exact .minus ⟨_, spaces_of h (not_space_of_solid h1)⟩

theorem sign_noAgo {sg : Bytes} {neg : Bool} (h : GnuSignText sg neg) {p : Bytes}
    (h1 : ¬ ∃ t, AfterWord (b! "ago") p t ∧ (t = [] ∨ StartsWith GnuEnd t)) :
    ¬ ∃ t, AfterWord (b! "ago") (sg ++ p) t ∧ (t = [] ∨ StartsWith GnuEnd t) := by
  have key : ∀ {c : UInt8} {l : Bytes}, ¬ Letter c → ¬ ∃ t, AfterWord (b! "ago") (c :: l) t ∧ (t = [] ∨ StartsWith GnuEnd t) := by
    rintro c l hc ⟨t, ⟨x, g1, g2⟩, -⟩
    obtain ⟨hx, hl⟩ := ago_letters g2
    cases x with
    | nil => exact hx rfl
    | cons b x => cases g1; exact hc (hl c (by simp))
  cases h with
  | none => exact h1
  | plus h => exact key (by decide)
  | minus h => exact key (by decide)

theorem sign_solid {sg : Bytes} {neg : Bool} (h : GnuSignText sg neg) {p : Bytes} (h1 : Solid p) : Solid (sg ++ p) := by
  cases h with
  | none => exact h1
  | plus h => exact ⟨43, _, rfl, by decide⟩
  | minus h => exact ⟨45, _, rfl, by decide⟩

theorem sentence_relative {s : Bytes} {l : List GnuPart} (h : Sentence s l) :
    RelativeTime s l ∧ Solid s ∧ ¬ ∃ t, AfterWord (b! "ago") s t ∧ (t = [] ∨ StartsWith GnuEnd t) := by
  induction h with
  | @last sg neg p part h1 h2 =>
    have ht := phrase_text h2 .nothing
    have hs := phrase_solid h2 []
    have ha := phrase_noAgo h2 .nothing
    rw [List.append_nil] at ht hs ha
    exact ⟨.last (sign_text h1 hs.1 hs.2) ht, sign_solid h1 hs.1, sign_noAgo h1 ha⟩
  | @more sg neg p part sp s l h1 h2 h3 h4 h5 ih =>
    have hf : Follow (sp ++ s) s := .gap h3 h4 ih.2.1 ih.2.2
    have hs := phrase_solid h2 (sp ++ s)
    exact ⟨.more (sign_text h1 hs.1 hs.2) (phrase_text h2 hf) ih.1, sign_solid h1 hs.1, sign_noAgo h1 (phrase_noAgo h2 hf)⟩

theorem letter_ascii {b : UInt8} (h : Letter b) : b.toNat < 128 := by
  have key : ∀ n < 256, Letter (UInt8.ofNat n) → (UInt8.ofNat n).toNat < 128 := by decide +kernel
  have := key b.toNat b.toNat_lt
  rw [UInt8.ofNat_toNat] at this
  exact this h

/-- ASCII characters only -/
def Ascii (s : Bytes) : Prop := ∀ b ∈ s, b.toNat < 128

theorem Ascii.append {s t : Bytes} (h : Ascii s) (h' : Ascii t) : Ascii (s ++ t) := by
  intro b hb
  rcases List.mem_append.1 hb with h1 | h1
  exacts [h b h1, h' b h1]

theorem Ascii.cons {b : UInt8} {s : Bytes} (hb : b.toNat < 128) (h : Ascii s) : Ascii (b :: s) := by
  intro c hc
  rcases List.mem_cons.1 hc with rfl | h1
  exacts [hb, h c h1]

theorem ascii_spaces {s : Bytes} (h : IsSpaces s) : Ascii s := fun b hb => posixSpace_ascii (h b hb)
theorem ascii_digits {s : Bytes} (h : ∀ b ∈ s, IsDigit b) : Ascii s := fun b hb => by have := (h b hb).2; omega
theorem ascii_letters {s : Bytes} (h : ∀ b ∈ s, Letter b) : Ascii s := fun b hb => letter_ascii (h b hb)

theorem unitPhrase_ascii {u : Bytes} {len : GnuLength} {ago : Bool} (h : UnitPhrase u len ago) : Ascii u := by
  cases h with
  | unit h => exact ascii_letters (unit_letters h)
  | ago h1 h2 h3 h4 => exact (ascii_letters (unit_letters h1)).append ((ascii_spaces h2).append (ascii_letters (ago_letters h4).2))

theorem phrase_ascii {neg : Bool} {p : Bytes} {part : GnuPart} (h : Phrase neg p part) : Ascii p := by
  cases h with
  | count _ h1 h2 h => exact (ascii_digits h1).append ((ascii_spaces h2).append (unitPhrase_ascii h))
  | numeral h1 h2 _ h => exact (ascii_letters (numeral_word h1).2).append ((ascii_spaces h2).append (unitPhrase_ascii h))
  | one h => exact unitPhrase_ascii h
  | keyword h => exact ascii_letters (keyword_letters h)
  | seconds _ h1 _ h2 h3 h =>
    exact (ascii_digits h1).append (.cons (by decide) ((ascii_digits h2).append ((ascii_spaces h3).append (unitPhrase_ascii h))))

theorem sign_ascii {sg : Bytes} {neg : Bool} (h : GnuSignText sg neg) : Ascii sg := by
  cases h with
  | none => intro b hb; cases hb
  | plus h => exact .cons (by decide) (ascii_spaces h)
  | minus h => exact .cons (by decide) (ascii_spaces h)

theorem sentence_ascii {s : Bytes} {l : List GnuPart} (h : Sentence s l) : Ascii s := by
  induction h with
  | last h1 h2 => exact (sign_ascii h1).append (phrase_ascii h2)
  | more h1 h2 h3 h4 h5 ih => exact (sign_ascii h1).append ((phrase_ascii h2).append ((ascii_spaces h3).append ih))

/-- the last bytes are letters -/
def EndsLetter (s : Bytes) : Prop := ∃ x w, s = x ++ w ∧ w ≠ [] ∧ ∀ b ∈ w, Letter b

theorem EndsLetter.prepend {s : Bytes} (h : EndsLetter s) (y : Bytes) : EndsLetter (y ++ s) := by
  obtain ⟨x, w, rfl, h1, h2⟩ := h
  exact ⟨y ++ x, w, by simp, h1, h2⟩

theorem unitPhrase_ends {u : Bytes} {len : GnuLength} {ago : Bool} (h : UnitPhrase u len ago) : EndsLetter u := by
  cases h with
  | unit h => exact ⟨[], u, rfl, gnuWord_ne h (by decide), unit_letters h⟩
  | @ago w _ sp a h1 h2 h3 h4 => exact ⟨w ++ sp, a, by simp, (ago_letters h4).1, (ago_letters h4).2⟩

theorem phrase_ends {neg : Bool} {p : Bytes} {part : GnuPart} (h : Phrase neg p part) : EndsLetter p := by
  cases h with
  | count _ _ _ h => exact ((unitPhrase_ends h).prepend _).prepend _
  | numeral _ _ _ h => exact ((unitPhrase_ends h).prepend _).prepend _
  | one h => exact unitPhrase_ends h
  | keyword h => exact ⟨[], p, rfl, gnuWord_ne h (by decide), keyword_letters h⟩
  | @seconds W F _ _ _ _ _ _ _ _ h => exact (((unitPhrase_ends h).prepend _).prepend (46 :: F)).prepend _

theorem sentence_ends {s : Bytes} {l : List GnuPart} (h : Sentence s l) : EndsLetter s := by
  induction h with
  | last h1 h2 => exact (phrase_ends h2).prepend _
  | more h1 h2 h3 h4 h5 ih => exact ((ih.prepend _).prepend _).prepend _

theorem sentence_trimmed {s : Bytes} {l : List GnuPart} (h : Sentence s l) {pre post : Bytes} (h1 : IsSpaces pre)
    (h2 : IsSpaces post) : Trimmed (pre ++ (s ++ post)) s := by
  refine ⟨pre, post, rfl, h1, h2, ?_, ?_⟩
  · obtain ⟨b, l, rfl, hb⟩ := (sentence_relative h).2.1
    intro c hc
    cases hc
    exact hb
  · obtain ⟨x, w, rfl, hw, hl⟩ := sentence_ends h
    intro c hc
    rw [List.getLast?_append_of_ne_nil _ hw] at hc
    exact (letter_not (hl c (List.mem_of_getLast? hc))).2.1

end Fundu.Gnu
