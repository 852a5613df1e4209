import Verif.Proofs.GnuConcat
import Verif.Props.Concat
import Verif.Props.GnuTexts
/-!
# Property C82: relative times written one after the other add up

The specification is `Verif/Spec/GnuConcat.lean`.
-/
namespace Fundu.Props
open Fundu Fundu.Spec Fundu.GnuConcat

/-- C82: a relative time, white space and a relative time which does not start with a time unit are a relative time with the
parts of both. -/
theorem C82_parts (s sp t m m' : Bytes) (l l' : List GnuPart) (h1 : Trimmed s m) (h2 : RelativeTime m l) (h1' : Trimmed t m')
    (h2' : RelativeTime m' l') (hsp : ∀ b ∈ sp, PosixSpace b) (hne : sp ≠ []) (hu : ¬ ∃ len r, GnuWordAt gnuUnits m' len r) :
    ∃ j, Trimmed (s ++ (sp ++ t)) j ∧ RelativeTime j (l ++ l') := by
  obtain ⟨pre, post, rfl, a1, a2, a3, a4⟩ := h1
  obtain ⟨pre', post', rfl, b1, b2, b3, b4⟩ := h1'
  have hmid : ∀ b ∈ post ++ (sp ++ pre'), PosixSpace b := Respaced.all_append a2 (Respaced.all_append hsp b1)
  have hmne : post ++ (sp ++ pre') ≠ [] := by simp [hne]
  have hm := relative_ne h2
  have hm' := relative_ne h2'
  refine ⟨m ++ ((post ++ (sp ++ pre')) ++ m'), ⟨pre, post', by simp [List.append_assoc], a1, b2, fun b hb => a3 b ?_,
    fun b hb => b4 b ?_⟩, relative (follows hmid hmne h2' hu) h2 h2'⟩
  · obtain ⟨c, l, rfl⟩ := List.exists_cons_of_ne_nil hm
    exact hb
  · rw [← List.append_assoc, List.getLast?_append_of_ne_nil _ hm'] at hb
    exact hb

/-- C82: two accepted texts with white space between them, the second one not starting with a time unit, are accepted. The years,
months and nanoseconds of the result are those of the first text to which the parts of the second one are added from left
to right with saturation. -/
theorem C82_joined (s sp t m' : Bytes) (l' : List GnuPart) (hs : IsText s) (ht : IsText t) (y m : Int) (d : Duration)
    (h : Gnu.parseFuzzy s = .ok (y, m, d)) (h1' : Trimmed t m') (h2' : RelativeTime m' l') (hsp : ∀ b ∈ sp, PosixSpace b)
    (hne : sp ≠ []) (hu : ¬ ∃ len r, GnuWordAt gnuUnits m' len r) :
    ∃ d', Gnu.parseFuzzy (s ++ (sp ++ t)) = .ok ((l'.foldl GnuTotal.add ⟨y, m, nanos d⟩).years,
        (l'.foldl GnuTotal.add ⟨y, m, nanos d⟩).months, d') ∧ d'.WF ∧
      nanos d' = (l'.foldl GnuTotal.add ⟨y, m, nanos d⟩).nanoseconds := by
  have hw : d.WF := by
    rcases parseFuzzy_result s hs with ⟨t, l, d', g1, g2, g3, g4, g5⟩ | ⟨g1, e, g2, -⟩
    · rw [g5] at h; cases h; exact g3
    · rw [g2] at h; cases h
  obtain ⟨t', l, g1, g2, g3⟩ := (C60_parse_fuzzy s hs y m (nanos d)).1 ⟨d, h, hw, rfl⟩
  obtain ⟨j, k1, k2⟩ := C82_parts s sp t t' m' l l' g1 g2 h1' h2' hsp hne hu
  refine (C60_parse_fuzzy (s ++ (sp ++ t))
    (text_joined hs (text_joined (isText_ascii fun b hb => posixSpace_ascii (hsp b hb)) ht)) _ _ _).2 ⟨j, l ++ l', k1, k2, ?_⟩
  unfold gnuTotal at *
  rw [List.foldl_append, g3]

/-- C82: if no partial sum leaves the range, the years, months and nanoseconds of a text are the exact sums of those of its
parts. -/
theorem C82_exact (s m : Bytes) (l : List GnuPart) (hs : IsText s) (h1 : Trimmed s m) (h2 : RelativeTime m l)
    (hr : ∀ k, k ≤ l.length → (exactTotal (l.take k)).InRange) :
    ∃ d, Gnu.parseFuzzy s = .ok ((l.map (·.total.years)).sum, (l.map (·.total.months)).sum, d) ∧ d.WF ∧
      nanos d = (l.map (·.total.nanoseconds)).sum :=
  (C60_parse_fuzzy s hs _ _ _).2 ⟨m, l, h1, h2, total_exact l hr⟩

/-- C82: without saturation the result of two texts written one after the other is the sum of their results. -/
theorem C82_sum (s sp t m m' : Bytes) (l l' : List GnuPart) (hs : IsText s) (ht : IsText t) (h1 : Trimmed s m) (h2 : RelativeTime m l)
    (h1' : Trimmed t m') (h2' : RelativeTime m' l') (hsp : ∀ b ∈ sp, PosixSpace b) (hne : sp ≠ [])
    (hu : ¬ ∃ len r, GnuWordAt gnuUnits m' len r)
    (hr : ∀ k, k ≤ (l ++ l').length → (exactTotal ((l ++ l').take k)).InRange)
    (hr' : ∀ k, k ≤ l'.length → (exactTotal (l'.take k)).InRange) :
    ∃ y mo d y' mo' d' e, Gnu.parseFuzzy s = .ok (y, mo, d) ∧ Gnu.parseFuzzy t = .ok (y', mo', d') ∧
      Gnu.parseFuzzy (s ++ (sp ++ t)) = .ok (y + y', mo + mo', e) ∧ e.WF ∧ nanos e = nanos d + nanos d' := by
  obtain ⟨d, g1, -, g3⟩ := C82_exact s m l hs h1 h2 fun k hk => by
    have := hr k (by simp; omega)
    rwa [List.take_append_of_le_length hk] at this
  obtain ⟨d', g1', -, g3'⟩ := C82_exact t m' l' ht h1' h2' hr'
  obtain ⟨j, k1, k2⟩ := C82_parts s sp t m m' l l' h1 h2 h1' h2' hsp hne hu
  obtain ⟨e, q1, q2, q3⟩ := C82_exact (s ++ (sp ++ t)) j (l ++ l')
    (text_joined hs (text_joined (isText_ascii fun b hb => posixSpace_ascii (hsp b hb)) ht)) k1 k2 hr
  refine ⟨_, _, d, _, _, d', e, g1, g1', ?_, q2, ?_⟩
  · rw [q1]; simp only [List.map_append, List.sum_append]
  · rw [q3, g3, g3', List.map_append, List.sum_append]

/-! ## Concrete cases -/

theorem not_unit_start {m : Bytes} (h : StartsWith NextDuration m) : ¬ ∃ len r, GnuWordAt gnuUnits m len r := by
  rintro ⟨len, r, w, ⟨rfl, h2, -⟩, h3⟩
  obtain ⟨b, l, h4, h5⟩ := h
  cases w with
  | nil => exact Gnu.gnuWord_ne h3 (by decide) rfl
  | cons c w => cases h4; exact h2 b (by simp) (Or.inr h5)

example : ∃ d', Gnu.parseFuzzy (b! " 2 months 5" ++ (b! "\t" ++ b! "-3 days ")) = .ok (0, 2, d') ∧ d'.WF ∧
    nanos d' = -259195000000000 := by
  have := C82_joined (b! " 2 months 5") (b! "\t") (b! "-3 days ") (b! "-3 days") [.exact (-259200000000000)]
    (isText_ascii (by decide)) (isText_ascii (by decide)) 0 2 ⟨false, ⟨5, 0⟩⟩ (by decide +kernel)
    ⟨[], b! " ", rfl, by decide, by decide, by decide, by decide⟩
    (.last (.minus ⟨[], split_nil (by rw [show b! "3 days" = 51 :: b! " days" from rfl, startsWith_cons]; decide)⟩)
      (.numberUnit (W := b! "3") (r := b! " days") (r' := b! "days") (len := .seconds 86400) (ago := false)
        ⟨⟨rfl, by decide, by rw [show b! " days" = 32 :: b! "days" from rfl, startsWith_cons]; decide⟩, by decide,
          by rw [show b! " days" = 32 :: b! "days" from rfl, startsWith_cons]; decide⟩
        ⟨b! " ", rfl, by decide, by rw [show b! "days" = 100 :: b! "ays" from rfl, startsWith_cons]; decide⟩
        ⟨[], [], ⟨b! "days", ⟨rfl, by decide, not_startsWith_nil⟩, [b! "days", b! "day"], by decide, b! "days", by decide, rfl⟩,
          .absent (by
            rintro ⟨r, sp, r', ⟨g1, -⟩, g2, -⟩
            exact g2 (List.append_eq_nil_iff.1 g1.symm).1),
          ⟨[], split_nil not_startsWith_nil⟩, fun _ => rfl⟩))
    (by decide) (by decide) (not_unit_start ⟨45, b! "3 days", rfl, Or.inr (Or.inr rfl)⟩)
  exact this

/-- the condition is necessary: a number and a time unit are read together -/
example : Gnu.parseFuzzy (b! "2") = .ok (0, 0, ⟨false, ⟨2, 0⟩⟩) ∧ Gnu.parseFuzzy (b! "day") = .ok (0, 0, ⟨false, ⟨86400, 0⟩⟩) ∧
    Gnu.parseFuzzy (b! "2 day") = .ok (0, 0, ⟨false, ⟨172800, 0⟩⟩) := by decide +kernel

end Fundu.Props
