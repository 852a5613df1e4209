import Verif.Spec.GnuDefaultUnit
import Verif.Props.GnuTexts
import Verif.Props.Permuted
/-! # C100 for fundu-gnu: writing out the seconds -/
namespace Fundu.Props
open Fundu Fundu.Spec Fundu.Gnu

namespace GnuDefaultUnit

/-- without white space around it, starting with a digit or a sign -/
structure Plain (t : Bytes) : Prop where
  ascii : Ascii t
  trimmed : Trimmed t t
  noUnit : ¬ ∃ len r, GnuWordAt gnuUnits t len r

theorem no_unit {b : UInt8} {l : Bytes} (hb : GnuEnd b) : ¬ ∃ len r, GnuWordAt gnuUnits (b :: l) len r := by
  rintro ⟨len, r, w, h1, h2⟩
  have hw := gnuWord_ne h2 (by decide)
  cases w with
  | nil => exact hw rfl
  | cons c w =>
    have e : b :: l = c :: (w ++ r) := h1.1
    cases e
    exact h1.2.1 b (List.mem_cons_self) hb

theorem sign_head {sg p : Bytes} {neg : Bool} (h : GnuSignText sg neg) (hp : StartsWith IsDigit p) :
    ∃ b l, sg ++ p = b :: l ∧ GnuEnd b ∧ ¬ PosixSpace b := by
  obtain ⟨b, l, rfl, hb⟩ := hp
  cases h with
  | none => exact ⟨b, l, rfl, (digit_not_space hb).2, (digit_not_space hb).1⟩
  | plus h => exact ⟨43, _, rfl, by decide, by decide⟩
  | minus h => exact ⟨45, _, rfl, by decide, by decide⟩

theorem plain_of {sg p x N : Bytes} {neg : Bool} (h : GnuSignText sg neg) (hp : StartsWith IsDigit p) (hx : p = x ++ N) (hN : N ≠ [])
    (hd : ∀ b ∈ N, ¬ PosixSpace b) (ha : Ascii p) : Plain (sg ++ p) := by
  obtain ⟨b, l, e, h1, h2⟩ := sign_head h hp
  refine ⟨(sign_ascii h).append ha, ⟨[], [], by simp, by simp, by simp, ?_, ?_⟩, ?_⟩
  · rw [e]; intro c hc; cases hc; exact h2
  · rw [hx, ← List.append_assoc, List.getLast?_append_of_ne_nil _ hN]
    intro c hc
    exact hd c (List.mem_of_getLast? hc)
  · rw [e]; exact no_unit h1

theorem digits_head {W r : Bytes} (hW : W ≠ []) (hd : ∀ b ∈ W, IsDigit b) : StartsWith IsDigit (W ++ r) := by
  cases W with
  | nil => exact absurd rfl hW
  | cons b W => exact ⟨b, W ++ r, rfl, hd b List.mem_cons_self⟩

theorem word_end {id : Bytes} {len : GnuLength} (h : GnuWord gnuUnits id len) : id ≠ [] ∧ (∀ b ∈ id, ¬ PosixSpace b) ∧ Ascii id :=
  ⟨gnuWord_ne h (by decide), fun b hb => (letter_not (unit_letters h b hb)).2.1, ascii_letters (unit_letters h)⟩

theorem solid_of {p : Bytes} (h : StartsWith IsDigit p) : Solid p ∧ ¬ StartsWith (fun b => b = 43 ∨ b = 45) p := by
  obtain ⟨b, l, rfl, hb⟩ := h
  refine ⟨⟨b, l, rfl, (digit_not_space hb).1⟩, ?_⟩
  rw [startsWith_cons]
  rintro (rfl | rfl)
  · exact absurd hb (by decide)
  · exact absurd hb (by decide)

theorem noUnit_nil : NoUnit [] [] := by
  refine ⟨[], ⟨[], split_self (by simp)⟩, fun _ => rfl, ?_, rfl⟩
  rintro ⟨len, r, w, h1, h2⟩
  have hw := gnuWord_ne h2 (by decide)
  have : w = [] := (List.append_eq_nil_iff.1 h1.1.symm).1
  exact hw this

/-- the number and the number with the time unit are the same part -/
theorem written_part {t t' : Bytes} (h : GnuWrittenOut t t') :
    ∃ part, RelativeTime t [part] ∧ RelativeTime t' [part] ∧ Plain t ∧ Plain t' := by
  obtain ⟨hb, gap, id, rfl, hg, hid⟩ := h
  obtain ⟨i1, i2, i3⟩ := word_end hid
  cases hb with
  | @whole sg neg W h1 h2 h3 =>
    have hs : StartsWith IsDigit W := by have := digits_head (r := []) h2 h3; rwa [List.append_nil] at this
    have ss := solid_of hs
    refine ⟨_, .last (sign_text h1 ss.1 ss.2) (.number ⟨split_self h3, h2, not_startsWith_nil⟩ noUnit_nil), ?_,
      plain_of (x := []) h1 hs rfl h2 (fun b hb => (digit_not_space (h3 b hb)).1) (ascii_digits h3), ?_⟩
    · rw [List.append_assoc]
      exact (sentence_relative (.last h1 (.count h2 h3 hg (.unit hid)))).1
    · rw [List.append_assoc]
      exact plain_of (x := W ++ gap) h1 (digits_head h2 h3) (by simp) i1 i2 ((ascii_digits h3).append ((ascii_spaces hg).append i3))
  | @decimal sg neg W F h1 h2 h3 h4 h5 =>
    have hs : StartsWith IsDigit (W ++ (46 :: F)) := digits_head h2 h3
    have ss := solid_of hs
    have point : ¬ StartsWith IsDigit (46 :: F) := by rw [startsWith_cons]; decide
    refine ⟨_, .last (sign_text h1 ss.1 ss.2) (.decimal ⟨F, split_of h3 point, h2, split_self h5, h4, not_startsWith_nil⟩ noUnit_nil), ?_,
      plain_of (x := W ++ [46]) h1 hs (by simp) h4 (fun b hb => (digit_not_space (h5 b hb)).1)
        ((ascii_digits h3).append (.cons (by decide) (ascii_digits h5))), ?_⟩
    · have := (sentence_relative (.last h1 (.seconds h2 h3 h4 h5 hg (.unit hid)))).1
      rwa [List.append_assoc, List.append_assoc, List.cons_append]
    · rw [List.append_assoc, List.append_assoc, List.cons_append]
      exact plain_of (x := W ++ (46 :: (F ++ gap))) h1 (digits_head h2 h3) (by simp) i1 i2
        ((ascii_digits h3).append (.cons (by decide) ((ascii_digits h5).append ((ascii_spaces hg).append i3))))

/-- a part of the text has parts of its own -/
def HasParts (t : Bytes) (ps : List GnuPart) : Prop :=
  ∃ m, Trimmed t m ∧ RelativeTime m ps ∧ ¬ ∃ len r, GnuWordAt gnuUnits m len r

theorem hasParts_unique {t : Bytes} {ps ps' : List GnuPart} (h : HasParts t ps) (h' : HasParts t ps') : ps = ps' := by
  obtain ⟨m, h1, h2, -⟩ := h
  obtain ⟨m', h1', h2', -⟩ := h'
  obtain rfl := trimmed_unique h1 h1'
  exact relative_unique h2 h2'

theorem forall₂_mem {R : Bytes → Bytes → Prop} {l l' : List Bytes} (h : List.Forall₂ R l l') :
    (∀ t ∈ l, ∃ t', R t t') ∧ ∀ t' ∈ l', ∃ t, R t t' := by
  induction h with
  | nil => exact ⟨(fun t ht => by cases ht), (fun t ht => by cases ht)⟩
  | cons g _ ih =>
    refine ⟨fun t ht => ?_, fun t ht => ?_⟩
    · rcases List.mem_cons.1 ht with rfl | ht
      · exact ⟨_, g⟩
      · exact ih.1 t ht
    · rcases List.mem_cons.1 ht with rfl | ht
      · exact ⟨_, g⟩
      · exact ih.2 t ht

end GnuDefaultUnit

open GnuDefaultUnit in
/-- C100, fundu-gnu: writing a word for seconds behind any of the numbers without a time unit does not change the years, the months or
the duration. The other parts are relative times which are accepted on their own and do not start with a time unit. -/
theorem C100_gnu (l l' : List Bytes) (s s' : Bytes)
    (h : List.Forall₂ (fun t t' => GnuWrittenOut t t' ∨ (t' = t ∧ OwnPart (fun t => ∃ x, Gnu.parseFuzzy t = .ok x) t)) l l')
    (hs : Joined PosixSpace l s) (hs' : Joined PosixSpace l' s') :
    ∃ y mo d d', Gnu.parseFuzzy s = .ok (y, mo, d) ∧ Gnu.parseFuzzy s' = .ok (y, mo, d') ∧ d.WF ∧ d'.WF ∧ nanos d' = nanos d := by
  classical
  have key : ∃ D : Bytes → List GnuPart, (∀ t ∈ l ++ l', IsText t ∧ HasParts t (D t)) ∧ l'.flatMap D = l.flatMap D := by
    have each : ∀ t t', (GnuWrittenOut t t' ∨ (t' = t ∧ OwnPart (fun t => ∃ x, Gnu.parseFuzzy t = .ok x) t)) →
        ∃ ps, IsText t ∧ IsText t' ∧ HasParts t ps ∧ HasParts t' ps := by
      rintro t t' (h | ⟨rfl, h1, ⟨⟨y, m, d⟩, h2⟩, h3⟩)
      · obtain ⟨part, g1, g2, g3, g4⟩ := written_part h
        exact ⟨_, isText_ascii g3.ascii, isText_ascii g4.ascii, ⟨t, g3.trimmed, g1, g3.noUnit⟩, ⟨t', g4.trimmed, g2, g4.noUnit⟩⟩
      · rcases parseFuzzy_result t' h1 with ⟨m, ps, d, g1, g2, -⟩ | ⟨-, e, g2, -⟩
        · exact ⟨ps, h1, h1, ⟨m, g1, g2, h3 m g1⟩, ⟨m, g1, g2, h3 m g1⟩⟩
        · rw [g2] at h2; cases h2
    let D : Bytes → List GnuPart := fun t => if g : ∃ ps, HasParts t ps then g.choose else []
    have hD : ∀ {t ps}, HasParts t ps → HasParts t (D t) ∧ D t = ps := by
      intro t ps g
      have ex : ∃ ps, HasParts t ps := ⟨ps, g⟩
      have e : D t = ex.choose := dif_pos ex
      rw [e]
      exact ⟨ex.choose_spec, hasParts_unique ex.choose_spec g⟩
    refine ⟨D, ?_, ?_⟩
    · intro t ht
      rcases List.mem_append.1 ht with ht | ht
      · obtain ⟨t', g⟩ := (forall₂_mem h).1 t ht
        obtain ⟨ps, g1, g2, g3, g4⟩ := each t t' g
        exact ⟨g1, (hD g3).1⟩
      · obtain ⟨t', g⟩ := (forall₂_mem h).2 t ht
        obtain ⟨ps, g1, g2, g3, g4⟩ := each t' t g
        exact ⟨g2, (hD g4).1⟩
    · clear hs hs'
      induction h with
      | nil => rfl
      | cons g _ ih =>
        obtain ⟨ps, g1, g2, g3, g4⟩ := each _ _ g
        rw [List.flatMap_cons, List.flatMap_cons, ih, (hD g3).2, (hD g4).2]
  obtain ⟨D, hD, e⟩ := key
  have ascii : ∀ b, PosixSpace b → b.toNat < 128 := fun b hb => posixSpace_ascii hb
  obtain ⟨m, h1, h2⟩ := joined_relative D hs fun t ht => (hD t (List.mem_append_left _ ht)).2
  obtain ⟨m', h1', h2'⟩ := joined_relative D hs' fun t ht => (hD t (List.mem_append_right _ ht)).2
  obtain ⟨d, d1, d2, d3⟩ := (C60_parse_fuzzy s (joined_isText ascii hs fun t ht => (hD t (List.mem_append_left _ ht)).1) _ _ _).2
    ⟨m, _, h1, h2, rfl⟩
  obtain ⟨d', d1', d2', d3'⟩ := (C60_parse_fuzzy s' (joined_isText ascii hs' fun t ht => (hD t (List.mem_append_right _ ht)).1) _ _ _).2
    ⟨m', _, h1', h2', rfl⟩
  rw [e] at d1' d3'
  exact ⟨_, _, d, d', d1, d1', d2, d2', d3'.trans d3.symm⟩

example : ∃ y mo d d', Gnu.parseFuzzy (b! "2 months -1.5  3 days ago") = .ok (y, mo, d) ∧
    Gnu.parseFuzzy (b! "2 months -1.5 Seconds 3 days ago") = .ok (y, mo, d') ∧ d.WF ∧ d'.WF ∧ nanos d' = nanos d := by
  have own : ∀ b l x, GnuEnd b → (∀ c ∈ b :: l, c.toNat < 128) → ¬ PosixSpace b → Gnu.parseFuzzy (b :: l) = .ok x →
      OwnPart (fun t => ∃ x, Gnu.parseFuzzy t = .ok x) (b :: l) := by
    intro b l x hb ha hsp hx
    refine ⟨isText_ascii ha, ⟨x, hx⟩, ?_⟩
    rintro m ⟨pre, post, e, h1, h2, h3, h4⟩
    cases pre with
    | cons c pre => cases e; exact absurd (h1 b List.mem_cons_self) hsp
    | nil =>
      cases m with
      | nil =>
        rintro ⟨len, r, w, g1, g2⟩
        exact gnuWord_ne g2 (by decide) (List.append_eq_nil_iff.1 g1.1.symm).1
      | cons c m => cases e; exact GnuDefaultUnit.no_unit hb
  refine C100_gnu [b! "2 months", b! "-1.5", b! "3 days ago"] [b! "2 months", b! "-1.5 Seconds", b! "3 days ago"] _ _
    (.cons (Or.inr ⟨rfl, own _ _ (0, 2, ⟨false, ⟨0, 0⟩⟩) (by decide) (by decide) (by decide) (by decide +kernel)⟩)
    (.cons (Or.inl ⟨.decimal (sg := b! "-") (W := b! "1") (F := b! "5") (.minus (sp := []) (by intro b hb; cases hb)) (by decide) (by decide)
        (by decide) (by decide), b! " ", b! "Seconds", rfl, by unfold IsSpaces; decide, [b! "seconds", b! "second", b! "secs", b! "sec"],
        by decide, b! "seconds", by decide, by unfold SameText; decide⟩)
    (.cons (Or.inr ⟨rfl, own _ _ (0, 0, ⟨true, ⟨259200, 0⟩⟩) (by decide) (by decide) (by decide) (by decide +kernel)⟩) .nil)))
    (.snoc (l := [b! "2 months", b! "-1.5"]) (gap := b! "  ") (.snoc (l := [b! "2 months"]) (gap := b! " ") .one (by decide) (by decide))
      (by decide) (by decide))
    (.snoc (l := [b! "2 months", b! "-1.5 Seconds"]) (gap := b! " ") (.snoc (l := [b! "2 months"]) (gap := b! " ") .one (by decide) (by decide))
      (by decide) (by decide))

end Fundu.Props
