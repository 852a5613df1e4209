import Verif.Proofs.GnuRegex
import Verif.Props.GnuMistakes
/-!
# Property C84: the regular expressions of the fuzz target of fundu-gnu

The specification is `Verif/Spec/GnuRegex.lean`.
-/
namespace Fundu.Props
open Fundu Fundu.Spec Fundu.GnuRegexProof

/-- C84: a text which matches the main regular expression is accepted, or has one of two errors about fractions; then
the regular expression of wrong fractions matches somewhere in it. -/
theorem C84_matches_accepted (s : Bytes) (hs : IsText s) (h : GnuRegex.main.Matches s) :
    (∃ y m d, Gnu.parseFuzzy s = .ok (y, m, d)) ∨
    ((Gnu.parseFuzzy s = fail (.invalidInput .fractionWithoutWhole) ∨ Gnu.parseFuzzy s = fail (.invalidInput .fractionOnlyWithSeconds)) ∧
      GnuRegex.fraction.Search s) := by
  obtain ⟨n, h⟩ := matches_main.1 h
  have ht := lang_trimmed h
  rcases lang_outcome n s h with ⟨l, hl⟩ | ⟨⟨f, hf, hm⟩, h2⟩
  · obtain ⟨d, hd, -⟩ := (C60_parse_fuzzy s hs (gnuTotal l).years (gnuTotal l).months (gnuTotal l).nanoseconds).2 ⟨s, l, ht, hl, rfl⟩
    exact Or.inl ⟨_, _, d, hd⟩
  · have := (C75_parse_fuzzy s s (f.error s) hs ht).2 ⟨f, hm, rfl⟩
    rcases hf with rfl | rfl
    · exact Or.inr ⟨Or.inl this, h2⟩
    · exact Or.inr ⟨Or.inr this, h2⟩

/-- C84: a text which is accepted matches the main regular expression, or starts or ends with white space, or has a
keyword or numeral directly behind a number. -/
theorem C84_accepted_matches (s : Bytes) (hs : IsText s) (y m : Int) (d : Duration) (h : Gnu.parseFuzzy s = .ok (y, m, d)) :
    GnuRegex.main.Matches s ∨ StartsWith PosixSpace s ∨ (∃ a b, s = a ++ [b] ∧ PosixSpace b) ∨ GnuRegex.control.Search s := by
  have hd : d.WF := by
    rcases parseFuzzy_result s hs with ⟨t, l, d', g1, g2, g3, g4, g5⟩ | ⟨g1, e, g2, -⟩
    · rw [g5] at h; cases h; exact g3
    · rw [g2] at h; cases h
  obtain ⟨t, l, ⟨pre, post, rfl, h1, h2, -⟩, h3, -⟩ := (C60_parse_fuzzy s hs y m (nanos d)).1 ⟨d, h, hd, rfl⟩
  by_cases hpre : pre = []
  · by_cases hpost : post = []
    · subst hpre hpost
      rw [List.append_nil, List.nil_append]
      rcases relative_lang h3 with g | g
      · exact Or.inl (matches_main.2 g)
      · exact Or.inr (Or.inr (Or.inr g))
    · refine Or.inr (Or.inr (Or.inl ⟨pre ++ (t ++ post.dropLast), post.getLast hpost, ?_, h2 _ (List.getLast_mem hpost)⟩))
      rw [List.append_assoc, List.append_assoc, List.dropLast_append_getLast]
  · exact Or.inr (Or.inl (spaces_start hpre h1))

/-- C84: the same for `parse` and `parse_with_date`, which have one more error. -/
theorem C84_parse (now : DateTime) (s : Bytes) (date : Option DateTime) (hs : IsText s) (h : GnuRegex.main.Matches s) (e : ParseError)
    (he : Gnu.parseWithDate now s date = fail e) :
    e = .overflow ∨ ((e = .invalidInput .fractionWithoutWhole ∨ e = .invalidInput .fractionOnlyWithSeconds) ∧ GnuRegex.fraction.Search s) := by
  obtain ⟨n, h'⟩ := matches_main.1 h
  have ht := lang_trimmed h'
  rcases (C75_parse_with_date now s s date e hs ht).1 he with h1 | ⟨h1, -⟩
  · have h2 := (C75_parse_fuzzy s s e hs ht).2 h1
    rcases C84_matches_accepted s hs h with ⟨y, m, d, g⟩ | ⟨g, g'⟩
    · rw [g] at h2; cases h2
    · refine Or.inr ⟨?_, g'⟩
      rcases g with g | g
      · rw [g] at h2; cases h2; exact Or.inl rfl
      · rw [g] at h2; cases h2; exact Or.inr rfl
  · exact Or.inl h1

/-- C84: a text without white space around it and without a keyword or numeral directly behind a number is accepted iff it matches
the main regular expression and has no wrong fractions. -/
theorem C84_iff (s : Bytes) (hs : IsText s) (h1 : ¬ StartsWith PosixSpace s) (h2 : ¬ ∃ a b, s = a ++ [b] ∧ PosixSpace b)
    (h3 : ¬ GnuRegex.control.Search s) (h4 : ¬ GnuRegex.fraction.Search s) :
    (∃ y m d, Gnu.parseFuzzy s = .ok (y, m, d)) ↔ GnuRegex.main.Matches s := by
  constructor
  · rintro ⟨y, m, d, h⟩
    rcases C84_accepted_matches s hs y m d h with h | h | h | h
    · exact h
    · exact absurd h h1
    · exact absurd h h2
    · exact absurd h h3
  · intro h
    rcases C84_matches_accepted s hs h with h | ⟨-, h⟩
    · exact h
    · exact absurd h h4

/-! ## Concrete cases -/

/-- `-1.5 sec ago+2weeks next YEAR3` matches -/
theorem example_matches : GnuRegex.main.Matches (b! "-1.5 sec ago+2weeks next YEAR3") := by
  have u : ∀ {w : Bytes} {len}, GnuWord gnuUnits w len → ∀ {a}, AgoText a → UnitText (w ++ a) := fun h _ h' => ⟨_, _, _, rfl, h, h'⟩
  have d1 : ∀ c : UInt8, IsDigit c → Digits [c] := fun c hc => ⟨by simp, by simpa using hc⟩
  have sp : AllSpaces [32] := by intro b hb; simp at hb; subst hb; decide
  have sp0 : AllSpaces [] := by intro b hb; cases hb
  have t1 : GnuRegexProof.Tail 1 (b! "3") := .digit (x := b! "3") (.number (d1 51 (by decide))) .nil
  have t2 : GnuRegexProof.Tail 2 (b! " next YEAR3") := .space (sp := [32]) (x := b! "next YEAR") (by simp) sp
    (.plain (.numeral (w := b! "next") (n := 1) (sp := [32]) (u := b! "YEAR") ⟨b! "next", by decide, by decide⟩ (by simp) sp
      (u (w := b! "YEAR") (len := .years) ⟨[b! "years", b! "year"], by decide, b! "year", by decide, by decide⟩ (Or.inl rfl)))) t1
  have t3 : GnuRegexProof.Tail 3 (b! "+2weeks next YEAR3") := .sign (b := 43) (sp := []) (x := b! "2weeks") (Or.inl rfl) sp0
    (.digit (.numberUnit (W := b! "2") (sp := []) (d1 50 (by decide)) sp0
      (u (w := b! "weeks") (len := .seconds (7 * 86400)) ⟨[b! "weeks", b! "week"], by decide, b! "weeks", by decide, by decide⟩ (Or.inl rfl)))) t2
  refine matches_main.2 ⟨3, b! "-1.5 sec ago", b! "+2weeks next YEAR3", rfl, .sign (b := 45) (sp := []) (x := b! "1.5 sec ago") (Or.inr rfl) sp0
    (.digit (.decimalUnit (W := b! "1") (F := b! "5") (sp := [32]) (u := b! "sec ago") (d1 49 (by decide)) (d1 53 (by decide)) sp
      (u (w := b! "sec") (len := .seconds 1) (a := b! " ago") ⟨[b! "seconds", b! "second", b! "secs", b! "sec"], by decide, b! "sec", by decide, by decide⟩
        (Or.inr ⟨[32], b! "ago", rfl, by simp, sp, by decide⟩)))), t3⟩

/-- it is accepted -/
example : Gnu.parseFuzzy (b! "-1.5 sec ago+2weeks next YEAR3") = .ok (1, 0, ⟨false, ⟨1209604, 500000000⟩⟩) := by decide +kernel

/-- the exceptions occur: each of the two errors, and a keyword behind a number -/
example : Gnu.parseFuzzy (b! "1.23.4") = fail (.invalidInput .fractionWithoutWhole) ∧
    Gnu.parseFuzzy (b! "1.5 day") = fail (.invalidInput .fractionOnlyWithSeconds) ∧
    Gnu.parseFuzzy (b! "1tomorrow") = .ok (0, 0, ⟨false, ⟨86401, 0⟩⟩) := by decide +kernel

end Fundu.Props
