import Verif.Proofs.LaterMistakes
import Verif.Proofs.GnuNegated
import Verif.Props.GnuConcat
import Verif.Props.GnuMistakes
import Verif.Props.LaterMistakes
/-!
# Property C115 for fundu-gnu
-/
namespace Fundu.Props
open Fundu Fundu.Spec

theorem gnuPart_within {s : Bytes} {f : Fault} (h : GnuPartMistake s f) : Later.Within s f := by
  have point : ∀ {W F r : Bytes}, GnuPoint s W F r → r <:+ s := by
    rintro W F r ⟨r', h1, h2, -⟩
    exact (Negated.split_suffix h2).trans ((List.suffix_cons _ _).trans (Negated.split_suffix h1))
  cases h with
  | point => exact List.suffix_refl _
  | exponent h => exact Negated.split_suffix h
  | exponentPoint h => exact point h
  | noUnit h h' =>
    obtain ⟨n, h, -⟩ := h
    exact (GnuNegated.spaces_suffix h').trans (Negated.split_suffix h)
  | noWhole => exact fun _ => rfl
  | noFraction => exact fun _ => rfl
  | notSeconds => exact fun _ => rfl
  | noWord => exact fun _ => rfl

theorem gnu_within {s : Bytes} {f : Fault} (h : GnuMistake s f) : Later.Within s f := by
  induction h with
  | empty => exact fun _ => rfl
  | sign => exact List.nil_suffix
  | part h1 h => exact Later.within_mono (GnuNegated.sign_suffix h1) (gnuPart_within h)
  | later h1 h2 _ _ ih => exact Later.within_mono ((GnuNegated.text_suffix h2).trans (GnuNegated.sign_suffix h1)) ih

theorem gnu_append {s sp t : Bytes} {l : List GnuPart} {f : Fault} (hf : GnuConcat.Follows sp t) (h : RelativeTime s l)
    (h' : GnuMistake t f) : GnuMistake (s ++ (sp ++ t)) f := by
  induction h with
  | last h1 h2 =>
    have := GnuConcat.text hf h2
    rw [GnuConcat.rest_nil] at this
    exact .later (GnuConcat.sign hf h1 (GnuConcat.text_ne h2)) this hf.nonempty h'
  | @more s neg r part rest l h1 h2 h3 ih =>
    have := GnuConcat.text hf h2
    rw [GnuConcat.rest_ne (GnuConcat.relative_ne h3)] at this
    exact .later (GnuConcat.sign hf h1 (GnuConcat.text_ne h2)) this (by simp [GnuConcat.relative_ne h3]) ih

/-- C115 for fundu-gnu: a text which starts neither with a time unit nor with `ago` behind an accepted one, with white
space between and around them. Whatever the value of the first text is, the errors for both are those for the second one,
moved by the length of what is in front of it. -/
theorem C115_gnu (pre s sp t post : Bytes) (r : Int × Int × Duration) (e : ParseError) (hs : IsText s) (ht : IsText t)
    (hpre : ∀ b ∈ pre, PosixSpace b) (hsp : ∀ b ∈ sp, PosixSpace b) (hne : sp ≠ []) (hpost : ∀ b ∈ post, PosixSpace b)
    (hts : Trimmed s s) (htt : Trimmed t t) (htne : t ≠ []) (hago : ∀ r, ¬ AfterWord (b! "ago") t r)
    (hu : ¬ ∃ len r, GnuWordAt gnuUnits t len r) (h : Gnu.parseFuzzy s = .ok r) :
    Gnu.parseFuzzy (pre ++ (s ++ (sp ++ t) ++ post)) = fail e ↔
      ∃ e', Gnu.parseFuzzy t = fail e' ∧ e = movedBy (s.length + sp.length) e' := by
  have hspc : ∀ {l : Bytes}, (∀ b ∈ l, PosixSpace b) → IsText l := fun h => isText_ascii fun b hb => posixSpace_ascii (h b hb)
  obtain ⟨l, hl⟩ : ∃ l, RelativeTime s l := by
    rcases parseFuzzy_result s hs with ⟨m, l, d, g1, g2, -⟩ | ⟨-, e, g, -⟩
    · obtain rfl := trimmed_unique g1 hts; exact ⟨l, g2⟩
    · rw [g] at h; cases h
  have hs0 := GnuConcat.relative_ne hl
  have hf : GnuConcat.Follows sp t := by
    refine ⟨hsp, hne, htne, ?_, hago, hu⟩
    rintro ⟨b, x, rfl, hb⟩
    obtain ⟨-, -, -, -, -, b3, -⟩ := htt
    exact b3 b rfl hb
  have htrim : Trimmed (pre ++ (s ++ (sp ++ t) ++ post)) (s ++ (sp ++ t)) := by
    obtain ⟨-, -, -, -, -, a3, -⟩ := hts
    obtain ⟨-, -, -, -, -, -, b4⟩ := htt
    refine ⟨pre, post, rfl, hpre, hpost, fun b hb => a3 b ?_, fun b hb => b4 b ?_⟩
    · obtain ⟨c, l, rfl⟩ := List.exists_cons_of_ne_nil hs0
      exact hb
    · rw [← List.append_assoc, List.getLast?_append_of_ne_nil _ htne] at hb
      exact hb
  have hj : IsText (pre ++ (s ++ (sp ++ t) ++ post)) :=
    text_joined (hspc hpre) (text_joined (text_joined hs (text_joined (hspc hsp) ht)) (hspc hpost))
  have moved : ∀ {f : Fault}, GnuMistake t f → f.error (s ++ (sp ++ t)) = movedBy (s.length + sp.length) (f.error t) := by
    intro f hm
    rw [← List.append_assoc, Later.error_moved (gnu_within hm), List.length_append]
  constructor
  · intro h'
    have hno : ¬ ∃ l', RelativeTime t l' := by
      rintro ⟨l', hl'⟩
      have hr := GnuConcat.relative hf hl hl'
      rcases parseFuzzy_result _ hj with ⟨m, l, d, -, -, -, -, g⟩ | ⟨g, -⟩
      · rw [g] at h'; cases h'
      · exact g ⟨_, _, htrim, hr⟩
    obtain ⟨f, hm⟩ := (C75_relative_or_mistake t t ht htt).2 hno
    refine ⟨f.error t, parseFuzzy_mistake ht htt hm, ?_⟩
    have := parseFuzzy_mistake hj htrim (gnu_append hf hl hm)
    rw [this] at h'
    injection h' with h'
    injection h' with h'
    rw [← h', moved hm]
  · rintro ⟨e', h', rfl⟩
    obtain ⟨f, hm, rfl⟩ := (C75_parse_fuzzy t t e' ht htt).1 h'
    rw [← moved hm]
    exact parseFuzzy_mistake hj htrim (gnu_append hf hl hm)

/-! ## Concrete cases -/

/-- the number of years is as large as possible, and the mistake behind it is reported -/
example : Gnu.parseFuzzy (b! " 9999999999999999999999 years\t2 days 3e1 ") = fail (.syntax 37 .noExponentAllowed) := by
  refine (C115_gnu (b! " ") (b! "9999999999999999999999 years") (b! "\t") (b! "2 days 3e1") (b! " ") (9223372036854775807, 0, Duration.ZERO)
    _ (isText_ascii (by decide)) (isText_ascii (by decide)) (by decide) (by decide) (by decide) (by decide)
    ⟨[], [], rfl, by decide, by decide, by decide, by decide⟩ ⟨[], [], rfl, by decide, by decide, by decide, by decide⟩ (by decide)
    ?_ (not_unit_start ⟨50, b! " days 3e1", rfl, by left; decide⟩) (by decide +kernel)).2
    ⟨.syntax 8 .noExponentAllowed, by decide +kernel, rfl⟩
  rintro r ⟨x, hx, hs⟩
  cases x with
  | nil => cases hs
  | cons c x =>
    obtain rfl : (50 : UInt8) = c := (List.cons.inj hx).1
    revert hs
    unfold SameText
    simp only [List.map_cons]
    intro hs
    injection hs with h1 _
    exact absurd h1 (by decide)

end Fundu.Props
