import Verif.Props.Gnu
import Verif.Proofs.GnuSentence
import Verif.Proofs.GnuCase
/-! # gnu relative times as one writes them: C61, C62 -/
namespace Fundu.Props
open Fundu Fundu.Spec Fundu.Gnu

/-! ## C61 -/

/-- C61: whoever strings together signs, numbers, numerals, keywords, time units and `ago` with white space between the
parts gets the sum of the parts. -/
theorem C61_sentence (s : Bytes) (l : List GnuPart) (h : Sentence s l) (pre post : Bytes) (h1 : IsSpaces pre)
    (h2 : IsSpaces post) :
    ∃ d, Gnu.parseFuzzy (pre ++ (s ++ post)) = .ok ((gnuTotal l).years, (gnuTotal l).months, d) ∧ d.WF ∧
      nanos d = (gnuTotal l).nanoseconds :=
  (C60_parse_fuzzy _ (isText_ascii ((ascii_spaces h1).append ((sentence_ascii h).append (ascii_spaces h2)))) _ _ _).2
    ⟨s, l, sentence_trimmed h h1 h2, (sentence_relative h).1, rfl⟩

/-- C61: a whole number of a time unit, with sign and `ago`, whatever the size of the number -/
theorem C61_number (neg : Bool) (W w : Bytes) (len : GnuLength) (hW : W ≠ []) (hd : ∀ b ∈ W, IsDigit b)
    (hw : GnuWord gnuUnits w len) :
    (∃ d, Gnu.parseFuzzy ((if neg then b! "-" else []) ++ (W ++ (b! " " ++ w))) =
      .ok ((gnuTotal [timesLength (signedBy neg false (decimal W)) len]).years,
        (gnuTotal [timesLength (signedBy neg false (decimal W)) len]).months, d) ∧
      d.WF ∧ nanos d = (gnuTotal [timesLength (signedBy neg false (decimal W)) len]).nanoseconds) ∧
    ∃ d, Gnu.parseFuzzy ((if neg then b! "-" else []) ++ (W ++ (b! " " ++ (w ++ b! " ago")))) =
      .ok ((gnuTotal [timesLength (signedBy neg true (decimal W)) len]).years,
        (gnuTotal [timesLength (signedBy neg true (decimal W)) len]).months, d) ∧
      d.WF ∧ nanos d = (gnuTotal [timesLength (signedBy neg true (decimal W)) len]).nanoseconds := by
  have hsp : IsSpaces (b! " ") := by
    intro b hb
    simp at hb
    subst hb
    decide
  have hsg : GnuSignText (if neg then b! "-" else []) neg := by
    cases neg
    · exact .none
    · exact .minus (sp := []) (by intro b hb; cases hb)
  have hnil : IsSpaces [] := by intro b hb; cases hb
  constructor
  · have := C61_sentence _ _ (.last hsg (.count hW hd hsp (.unit hw))) [] [] hnil hnil
    simpa using this
  · have := C61_sentence _ _ (.last hsg (.count hW hd hsp (.ago (sp := b! " ") hw hsp (by simp) (a := b! "ago") rfl))) [] [] hnil hnil
    simpa using this

/-- C61: days of 86400 seconds: `W days` is `W * 86400` seconds, or the largest duration -/
example (W : Bytes) (hW : W ≠ []) (hd : ∀ b ∈ W, IsDigit b) :
    ∃ d, Gnu.parseFuzzy (W ++ b! " days") = .ok (0, 0, d) ∧ nanos d = clamp (0 + clamp (decimal W * 86400 * 10 ^ 9)) := by
  obtain ⟨d, h1, -, h3⟩ := (C61_number false W (b! "days") (.seconds 86400) hW hd
    ⟨[b! "days", b! "day"], by decide, b! "days", by decide, by decide⟩).1
  refine ⟨d, ?_, h3⟩
  have e : W ++ b! " days" = (if false then b! "-" else []) ++ (W ++ (b! " " ++ b! "days")) := by simp
  rw [e]
  exact h1

/-- a sentence with all kinds of parts -/
example : Sentence (b! "+ 2weeks ago -next  MONTH year tomorrow 0.5 sec")
    [.exact (-1209600000000000), .months (-1), .years 1, .exact 86400000000000, .exact 500000000] := by
  have sp : IsSpaces (b! " ") := by unfold IsSpaces; decide
  have sp2 : IsSpaces (b! "  ") := by unfold IsSpaces; decide
  have hd : decimalNanos (b! "0") (b! "5") = 500000000 := by
    have e : ((decimal (b! "0") : ℚ) + (decimal (b! "5") : ℚ) / 10 ^ (b! "5").length) * 10 ^ 9 = ((500000000 : Int) : ℚ) := by
      have h0 : decimal (b! "0") = 0 := by decide
      have h5 : decimal (b! "5") = 5 := by decide
      rw [h0, h5]
      norm_num
    unfold decimalNanos
    rw [e, Int.floor_intCast]
  have w1 : GnuWord gnuUnits (b! "weeks") (.seconds (7 * 86400)) := ⟨[b! "weeks", b! "week"], by decide, b! "weeks", by decide, rfl⟩
  have w2 : GnuWord gnuUnits (b! "MONTH") .months := ⟨[b! "months", b! "month"], by decide, b! "month", by decide, by decide⟩
  have w3 : GnuWord gnuUnits (b! "year") .years := ⟨[b! "years", b! "year"], by decide, b! "year", by decide, rfl⟩
  have w4 : GnuWord gnuKeywords (b! "tomorrow") (.seconds 86400) := ⟨[b! "tomorrow"], by decide, b! "tomorrow", by decide, rfl⟩
  have w5 : GnuWord gnuUnits (b! "sec") (.seconds 1) :=
    ⟨[b! "seconds", b! "second", b! "secs", b! "sec"], by decide, b! "sec", by decide, rfl⟩
  have n1 : GnuNumeral (b! "next") 1 := ⟨b! "next", by decide, rfl⟩
  have p5 := Phrase.seconds (neg := false) (W := b! "0") (F := b! "5") (sp := b! " ") (by decide) (by decide) (by decide) (by decide) sp (.unit w5)
  rw [hd] at p5
  exact .more (sg := b! "+ ") (.plus sp)
    (.count (W := b! "2") (sp := []) (by decide) (by decide) (by unfold IsSpaces; decide)
      (.ago (sp := b! " ") (a := b! "ago") w1 sp (by decide) (by decide))) sp (by decide)
    (.more (sg := b! "-") (.minus (sp := []) (by unfold IsSpaces; decide)) (.numeral n1 sp2 (by decide) (.unit w2)) sp (by decide)
      (.more (sg := []) .none (.one (.unit w3)) sp (by decide)
        (.more (sg := []) .none (.keyword w4) sp (by decide) (.last (sg := []) .none p5))))

/-- C61: a fraction with any other time unit than seconds is an error, whatever follows. -/
theorem C61_fraction_only_with_seconds (s W F w sp rest : Bytes) (len : GnuLength) (hs : IsText s)
    (ht : Trimmed s (W ++ (46 :: (F ++ (sp ++ (w ++ rest)))))) (hW : ∀ b ∈ W, IsDigit b)
    (hF : ∀ b ∈ F, IsDigit b) (hsp : IsSpaces sp) (hw : GnuWord gnuUnits w len) (hlen : len ≠ .seconds 1)
    (hr : rest = [] ∨ StartsWith GnuEnd rest) : ∃ e, Gnu.parseFuzzy s = fail e := by
  rcases parseFuzzy_result _ hs with ⟨t, l, d, h1, h2, -⟩ | ⟨-, e, h2, -⟩
  · exfalso
    obtain rfl := trimmed_unique h1 ht
    obtain ⟨part, r, ⟨neg, q, g1, g2⟩, -⟩ := relative_iff.1 h2
    have hne := gnuWord_ne hw (by decide)
    have hl := unit_letters hw
    have hsolid := solid_word (r := rest) hne hl
    have hword : GnuWordAt gnuUnits (w ++ rest) len rest := ⟨w, word_split hl hr, hw⟩
    have hF' : ¬ StartsWith IsDigit (sp ++ (w ++ rest)) := by
      cases sp with
      | nil =>
        cases w with
        | nil => exact absurd rfl hne
        | cons b w => rw [List.nil_append, List.cons_append, startsWith_cons]; exact (letter_not (hl b (by simp))).2.2.1
      | cons b sp => rw [List.cons_append, startsWith_cons]; exact (space_not (hsp b (by simp))).2.1
    have sW : Split IsDigit (W ++ (46 :: (F ++ (sp ++ (w ++ rest))))) W (46 :: (F ++ (sp ++ (w ++ rest)))) :=
      ⟨rfl, hW, by rw [startsWith_cons]; decide⟩
    have sF : Split IsDigit (F ++ (sp ++ (w ++ rest))) F (sp ++ (w ++ rest)) := ⟨rfl, hF, hF'⟩
    have sS : Split PosixSpace (sp ++ (w ++ rest)) sp (w ++ rest) := spaces_of hsp (not_space_of_solid hsolid)
    -- the text starts with a digit or a point
    have hhead : ∃ b l, W ++ (46 :: (F ++ (sp ++ (w ++ rest)))) = b :: l ∧ ¬ Letter b ∧ b ≠ 43 ∧ b ≠ 45 := by
      cases W with
      | nil => exact ⟨46, _, rfl, by decide, by decide, by decide⟩
      | cons b W =>
        have hb := hW b (by simp)
        refine ⟨b, _, rfl, fun h => (letter_not h).2.2.1 hb, ?_, ?_⟩
        · rintro rfl; exact absurd hb (by decide)
        · rintro rfl; exact absurd hb (by decide)
    have noWord : ∀ {v r : Bytes} {p : UInt8 → Prop}, Split p (W ++ (46 :: (F ++ (sp ++ (w ++ rest))))) v r → v ≠ [] →
        ¬ ∀ b ∈ v, Letter b := by
      rintro v r p k1 k2 k3
      obtain ⟨b, l, e, hb, -⟩ := hhead
      rw [e] at k1
      cases v with
      | nil => exact k2 rfl
      | cons c v =>
        have := k1.1
        rw [List.cons_append] at this
        obtain ⟨rfl, -⟩ := List.cons.inj this
        exact hb (k3 b (by simp))
    obtain ⟨b, l', e, -, e1, e2⟩ := hhead
    have hq : q = W ++ (46 :: (F ++ (sp ++ (w ++ rest)))) := by
      rw [e] at g1 ⊢
      cases g1 with
      | absent => rfl
      | plus => exact absurd rfl e1
      | minus => exact absurd rfl e2
    subst hq
    cases g2 with
    | numberUnit k1 _ _ =>
      obtain ⟨rfl, rfl⟩ := split_unique k1.1 sW
      exact k1.2.2 ⟨46, _, rfl, Or.inl rfl⟩
    | number k1 _ =>
      obtain ⟨rfl, rfl⟩ := split_unique k1.1 sW
      exact k1.2.2 ⟨46, _, rfl, Or.inl rfl⟩
    | decimalUnit k1 k2 k3 =>
      obtain ⟨r1, m1, -, m2, -⟩ := k1
      obtain ⟨rfl, m3⟩ := split_unique m1 sW
      cases m3
      obtain ⟨rfl, rfl⟩ := split_unique m2 sF
      obtain ⟨sp', k2⟩ := k2
      obtain ⟨rfl, rfl⟩ := split_unique k2 sS
      obtain ⟨_, _, ⟨w', n1, n2⟩, -⟩ := k3
      obtain ⟨rfl, rfl⟩ := split_unique n1 (word_split hl hr)
      refine hlen ((C41_unambiguous w').1 _ _ ?_ ?_)
      · obtain ⟨names, p1, p2⟩ := hw
        exact ⟨names, List.mem_append_left _ p1, p2⟩
      · obtain ⟨names, p1, p2⟩ := n2
        exact ⟨names, List.mem_append_left _ p1, p2⟩
    | decimal k1 k2 =>
      obtain ⟨r1, m1, -, m2, -⟩ := k1
      obtain ⟨rfl, m3⟩ := split_unique m1 sW
      cases m3
      obtain ⟨rfl, rfl⟩ := split_unique m2 sF
      obtain ⟨r2, ⟨sp', n1⟩, -, n2, -⟩ := k2
      obtain ⟨rfl, rfl⟩ := split_unique n1 sS
      exact n2 ⟨_, _, hword⟩
    | keyword k1 _ =>
      obtain ⟨v, m1, m2⟩ := k1
      exact noWord m1 (gnuWord_ne m2 (by decide)) (keyword_letters m2)
    | unit k1 =>
      obtain ⟨_, _, ⟨v, m1, m2⟩, -⟩ := k1
      exact noWord m1 (gnuWord_ne m2 (by decide)) (unit_letters m2)
    | numeral k1 k2 _ _ => exact noWord k1 (numeral_word k2).1 (numeral_word k2).2
  · exact ⟨e, h2⟩

example : Trimmed (b! " 1.5 days\n") (b! "1" ++ (46 :: (b! "5" ++ (b! " " ++ (b! "days" ++ []))))) ∧
    GnuWord gnuUnits (b! "days") (.seconds 86400) ∧
    Gnu.parseFuzzy (b! " 1.5 days\n") = fail (.invalidInput .fractionOnlyWithSeconds) :=
  ⟨⟨b! " ", b! "\n", rfl, by decide, by decide, by decide, by decide⟩,
    ⟨[b! "days", b! "day"], by decide, b! "days", by decide, rfl⟩, by decide +kernel⟩

/-! ## C62 -/

/-- C62: the case of letters does not matter: texts which differ only in the case of ASCII letters have the same
result, or are both rejected. -/
theorem C62_case (s s' : Bytes) (hs : IsText s) (hs' : IsText s') (h : SameText s s') (y m : Int) (x : Int) :
    (∃ d, Gnu.parseFuzzy s = .ok (y, m, d) ∧ d.WF ∧ nanos d = x) ↔
      ∃ d, Gnu.parseFuzzy s' = .ok (y, m, d) ∧ d.WF ∧ nanos d = x := by
  rw [C60_parse_fuzzy s hs, C60_parse_fuzzy s' hs']
  constructor
  · rintro ⟨t, l, h1, h2, h3⟩
    obtain ⟨t', g1, g2⟩ := same_trimmed h1 h
    exact ⟨t', l, g1, same_relative h2 g2, h3⟩
  · rintro ⟨t, l, h1, h2, h3⟩
    obtain ⟨t', g1, g2⟩ := same_trimmed h1 (same_symm h)
    exact ⟨t', l, g1, same_relative h2 g2, h3⟩

/-- what `parse_with_date` gives depends only on what `parse_fuzzy` gives -/
theorem with_date_of_fuzzy {s s' : Bytes} (hs : IsText s) (hs' : IsText s')
    (h : ∀ y m x, (∃ d, Gnu.parseFuzzy s = .ok (y, m, d) ∧ d.WF ∧ nanos d = x) →
      ∃ d, Gnu.parseFuzzy s' = .ok (y, m, d) ∧ d.WF ∧ nanos d = x)
    {now : DateTime} {date : Option DateTime} (hd : DateTimeOk (date.getD now)) {x : Int}
    (hx : ∃ d, Gnu.parseWithDate now s date = .ok d ∧ d.WF ∧ nanos d = x) :
    ∃ d, Gnu.parseWithDate now s' date = .ok d ∧ d.WF ∧ nanos d = x := by
  rcases parseFuzzy_result s hs with ⟨t, l, d, -, -, hw, -, h5⟩ | ⟨-, e, h2, -⟩
  · obtain ⟨d', h6, hw', he⟩ := h _ _ _ ⟨d, h5, hw, rfl⟩
    by_cases hz : (gnuTotal l).years = 0 ∧ (gnuTotal l).months = 0
    · rw [hz.1, hz.2] at h5 h6
      obtain ⟨d0, g1, g2, g3⟩ := hx
      rw [(C42_date_irrelevant s d h5 now date).1] at g1
      cases g1
      exact ⟨d', (C42_date_irrelevant s' d' h6 now date).1, hw', he.trans g3⟩
    · rw [C43_relative_date s hs now date hd _ _ d h5 hz, ← he] at hx
      exact (C43_relative_date s' hs' now date hd _ _ d' h6 hz x).2 hx
  · obtain ⟨d0, g1, -⟩ := hx
    rw [parseWithDate_fail h2] at g1
    cases g1

/-- C62 with a date: also the results of `parse_with_date` and `parse` (with the date which is now) are the same. -/
theorem C62_with_date (s s' : Bytes) (hs : IsText s) (hs' : IsText s') (h : SameText s s') (now : DateTime)
    (date : Option DateTime) (hd : DateTimeOk (date.getD now)) (x : Int) :
    (∃ d, Gnu.parseWithDate now s date = .ok d ∧ d.WF ∧ nanos d = x) ↔
      ∃ d, Gnu.parseWithDate now s' date = .ok d ∧ d.WF ∧ nanos d = x :=
  ⟨with_date_of_fuzzy hs hs' (fun y m x => (C62_case s s' hs hs' h y m x).1) hd,
    with_date_of_fuzzy hs' hs (fun y m x => (C62_case s s' hs hs' h y m x).2) hd⟩

example : SameText (b! "NEXT WEEK 2 Hours AGO") (b! "next week 2 hours ago") ∧
    Gnu.parseFuzzy (b! "NEXT WEEK 2 Hours AGO") = .ok (0, 0, ⟨false, ⟨597600, 0⟩⟩) ∧
    Gnu.parseFuzzy (b! "next week 2 hours ago") = .ok (0, 0, ⟨false, ⟨597600, 0⟩⟩) := by decide +kernel

end Fundu.Props
