import Verif.Proofs.GnuMistakes
import Verif.Props.Gnu
/-!
# Property C75: the error of `fundu-gnu` for each text which is not a relative time

The specification is `Verif/Spec/GnuMistakes.lean`.
-/
namespace Fundu.Props
open Fundu Fundu.Spec Fundu.Gnu

theorem trimmed_tidy {s m : Bytes} (h : Trimmed s m) : Tidy m := by
  obtain ⟨pre, post, -, -, -, -, h⟩ := h
  exact h

/-- `parse_fuzzy` is the loop on the text without white space around it -/
theorem parseFuzzy_loop {s m : Bytes} (hs : IsText s) (hm : Trimmed s m) : utf8Valid m = true ∧
    Gnu.parseFuzzy s = (fuzzyLoop plain (m.length + 1) ⟨0, 0, Duration.ZERO⟩ (Cursor.new m) >>= fun t =>
      pure (t.years, t.months, t.duration)) := by
  obtain ⟨t, h1, h2, h3⟩ := C39_trim s hs
  cases (h3 m).1 hm
  refine ⟨(isText_iff m).1 h2, ?_⟩
  unfold Gnu.parseFuzzy RelativeTimeParser.parseFuzzy
  rw [h1, ok_bind]
  have e : fuzzyLoop (env CONFIG) (m.length + 1) ⟨0, 0, Duration.ZERO⟩ (Cursor.new m) =
      fuzzyLoop plain (m.length + 1) ⟨0, 0, Duration.ZERO⟩ (Cursor.new m) :=
    fuzzyLoop_sim (e := env CONFIG) (Or.inl fun b h => h) _ _ (Cursor.new m) (fun p w n h => by cases h)
  show (fuzzyLoop (env CONFIG) (m.length + 1) ⟨0, 0, Duration.ZERO⟩ (Cursor.new m) >>= _) = _
  rw [e]

theorem parseFuzzy_mistake {s m : Bytes} {f : Fault} (hs : IsText s) (hm : Trimmed s m) (hf : GnuMistake m f) :
    Gnu.parseFuzzy s = fail (f.error m) := by
  obtain ⟨h1, h2⟩ := parseFuzzy_loop hs hm
  rw [h2]
  exact Fails.bind (fuzzy_fails (m.length + 1) (T := ⟨0, 0, 0⟩) ⟨rfl, rfl, by decide, rfl⟩ (trimmed_tidy hm)
    ⟨Inv.new h1, Cursor.rest_new m, Nat.zero_le _⟩ (by show _ < 0 + _; omega) hf) _

/-- C75: Each text without white space around it is a relative time or has a mistake, and never both. -/
theorem C75_relative_or_mistake (s m : Bytes) (hs : IsText s) (hm : Trimmed s m) :
    (∃ f, GnuMistake m f) ↔ ¬ ∃ l, RelativeTime m l := by
  constructor
  · rintro ⟨f, hf⟩ hl
    have h1 := parseFuzzy_mistake hs hm hf
    rcases parseFuzzy_result s hs with ⟨t, l', d, -, -, -, -, h5⟩ | ⟨h2, -⟩
    · rw [h5] at h1; cases h1
    · exact h2 ⟨m, hl.choose, hm, hl.choose_spec⟩
  · intro h
    exact (relative_or_mistake m.length m (Nat.le_refl _) (trimmed_tidy hm)).resolve_left h

/-- C75: `parse_fuzzy` returns an error iff the text without the white space around it has a mistake, and the error is the
one of this mistake: its kind, its reason, and its position, counted from the end of the white space in front. -/
theorem C75_parse_fuzzy (s m : Bytes) (e : ParseError) (hs : IsText s) (hm : Trimmed s m) :
    Gnu.parseFuzzy s = fail e ↔ ∃ f, GnuMistake m f ∧ e = f.error m := by
  constructor
  · intro h
    have hno : ¬ ∃ l, RelativeTime m l := by
      rintro ⟨l, hl⟩
      rcases parseFuzzy_result s hs with ⟨t, l', d, -, -, -, -, h5⟩ | ⟨h2, -⟩
      · rw [h5] at h; cases h
      · exact h2 ⟨m, l, hm, hl⟩
    obtain ⟨f, hf⟩ := (C75_relative_or_mistake s m hs hm).2 hno
    have := parseFuzzy_mistake hs hm hf
    rw [h] at this
    exact ⟨f, hf, by injection this with h; injection h⟩
  · rintro ⟨f, hf, rfl⟩
    exact parseFuzzy_mistake hs hm hf

/-- C75: there is one error for a text: two mistakes which the specification finds amount to the same error -/
theorem C75_unique (s m : Bytes) (f f' : Fault) (hs : IsText s) (hm : Trimmed s m) (h : GnuMistake m f)
    (h' : GnuMistake m f') : f.error m = f'.error m := by
  have a := parseFuzzy_mistake hs hm h
  rw [parseFuzzy_mistake hs hm h'] at a
  injection a with a
  injection a with a
  exact a.symm

/-- C75: `parse_with_date` and `parse` return the same errors, and `Overflow` if the text has years or months and the
date cannot be computed -/
theorem C75_parse_with_date (now : DateTime) (s m : Bytes) (date : Option DateTime) (e : ParseError) (hs : IsText s)
    (hm : Trimmed s m) : Gnu.parseWithDate now s date = fail e ↔
      (∃ f, GnuMistake m f ∧ e = f.error m) ∨
      (e = .overflow ∧ ∃ y mo d, Gnu.parseFuzzy s = .ok (y, mo, d) ∧ ¬ (y = 0 ∧ mo = 0) ∧
        RelativeTimeParser.relativeTo (date.getD now) y mo d = .ok none) := by
  rw [← C75_parse_fuzzy s m e hs hm]
  rcases C59_parse_fuzzy s hs with ⟨⟨y, mo, d⟩, h⟩ | ⟨e', h, -⟩
  · rw [parseWithDate_eq h, h]
    constructor
    · intro hh
      right
      by_cases hz : y = 0 ∧ mo = 0
      · rw [if_pos hz] at hh; cases hh
      · rw [if_neg hz] at hh
        cases hr : RelativeTimeParser.relativeTo (date.getD now) y mo d with
        | error p => rw [hr] at hh; cases hh
        | ok o =>
          rw [hr, liftP_ok, ok_bind] at hh
          cases o with
          | some d' => cases hh
          | none =>
            have hh : (fail .overflow : R Duration) = fail e := hh
            injection hh with hh
            injection hh with hh
            exact ⟨hh.symm, y, mo, d, rfl, hz, hr⟩
    · rintro (hh | ⟨rfl, y', mo', d', h1, h2, h3⟩)
      · cases hh
      · cases h1
        rw [if_neg h2, h3, liftP_ok, ok_bind]
  · rw [parseWithDate_fail h, h]
    constructor
    · intro hh
      left
      injection hh with hh
      injection hh with hh
      rw [hh]
    · rintro (hh | ⟨-, y', mo', d', h1, -⟩)
      · injection hh with hh
        injection hh with hh
        rw [hh]
      · cases h1

/-! ## Consequences -/

/-- C75: the kinds of errors, and the reasons -/
theorem C75_reasons (s : Bytes) (e : ParseError) (hs : IsText s) (h : Gnu.parseFuzzy s = fail e) :
    e = .empty ∨ (∃ pos, e = .syntax pos .signWithoutNumber) ∨ (∃ pos, e = .syntax pos .wholeOrFractionMustBePresent) ∨
    (∃ pos, e = .syntax pos .noExponentAllowed) ∨ e = .invalidInput .fractionWithoutWhole ∨
    e = .invalidInput .fractionWithoutFraction ∨ e = .invalidInput .fractionOnlyWithSeconds ∨
    (∃ pos w n, GnuNumeral w n ∧ e = .timeUnit pos (.numeralWithoutTimeUnit w)) ∨ ∃ t, e = .invalidInput (.text t) := by
  obtain ⟨m, h1, h2, h3⟩ := C39_trim s hs
  obtain ⟨f, hf, rfl⟩ := (C75_parse_fuzzy s m e hs ((h3 m).2 rfl)).1 h
  clear h h1 h3 hs
  have key : ∀ m' f, GnuMistake m' f → ∀ m,
      f.error m = .empty ∨ (∃ pos, f.error m = .syntax pos .signWithoutNumber) ∨
      (∃ pos, f.error m = .syntax pos .wholeOrFractionMustBePresent) ∨
      (∃ pos, f.error m = .syntax pos .noExponentAllowed) ∨ f.error m = .invalidInput .fractionWithoutWhole ∨
      f.error m = .invalidInput .fractionWithoutFraction ∨ f.error m = .invalidInput .fractionOnlyWithSeconds ∨
      (∃ pos w n, GnuNumeral w n ∧ f.error m = .timeUnit pos (.numeralWithoutTimeUnit w)) ∨
      ∃ t, f.error m = .invalidInput (.text t) := by
    intro m' f hf
    induction hf with
    | empty => intro m; exact Or.inl rfl
    | sign _ => intro m; exact Or.inr (Or.inl ⟨_, rfl⟩)
    | part _ h =>
      intro m
      cases h with
      | point _ => exact Or.inr (Or.inr (Or.inl ⟨_, rfl⟩))
      | exponent _ _ _ => exact Or.inr (Or.inr (Or.inr (Or.inl ⟨_, rfl⟩)))
      | exponentPoint _ _ => exact Or.inr (Or.inr (Or.inr (Or.inl ⟨_, rfl⟩)))
      | noWhole _ _ _ _ => exact Or.inr (Or.inr (Or.inr (Or.inr (Or.inl rfl))))
      | noFraction _ _ _ _ => exact Or.inr (Or.inr (Or.inr (Or.inr (Or.inr (Or.inl rfl)))))
      | notSeconds _ _ _ _ _ => exact Or.inr (Or.inr (Or.inr (Or.inr (Or.inr (Or.inr (Or.inl rfl))))))
      | noUnit h _ _ =>
        obtain ⟨n, -, h, -⟩ := h
        exact Or.inr (Or.inr (Or.inr (Or.inr (Or.inr (Or.inr (Or.inr (Or.inl ⟨_, _, n, h, rfl⟩)))))))
      | noWord _ _ _ _ _ _ => exact Or.inr (Or.inr (Or.inr (Or.inr (Or.inr (Or.inr (Or.inr (Or.inr ⟨_, rfl⟩)))))))
    | later _ _ _ _ ih => exact ih
  exact key m f hf m

/-- C75: `Empty` is the error of texts of white space only -/
theorem C75_empty (s : Bytes) (hs : IsText s) : Gnu.parseFuzzy s = fail .empty ↔ ∀ b ∈ s, PosixSpace b := by
  obtain ⟨m, h1, h2, h3⟩ := C39_trim s hs
  have hm : Trimmed s m := (h3 m).2 rfl
  rw [C75_parse_fuzzy s m .empty hs hm]
  have key : ∀ m f, GnuMistake m f → ∀ t, ParseError.empty = f.error t → m = [] := by
    intro m f hf
    induction hf with
    | empty => intro t _; rfl
    | sign _ => intro t h; cases h
    | part _ h => intro t h'; cases h <;> cases h'
    | later _ _ h _ ih => intro t h'; exact absurd (ih t h') h
  constructor
  · rintro ⟨f, hf, h⟩
    have := key m f hf m h
    subst this
    obtain ⟨pre, post, rfl, k1, k2, -⟩ := hm
    intro b hb
    simp only [List.nil_append, List.mem_append] at hb
    exact hb.elim (k1 b) (k2 b)
  · intro h
    have : m = [] := by
      obtain ⟨pre, post, rfl, -, -, k, -⟩ := hm
      cases m with
      | nil => rfl
      | cons b l => exact absurd (h b (by simp)) (k b rfl)
    subst this
    exact ⟨_, .empty, rfl⟩

/-- C75: A fraction with another unit than seconds in the first part -/
theorem C75_only_seconds (s m : Bytes) (hs : IsText s) (hm : Trimmed s m) {neg : Bool} {p W F r t rest : Bytes}
    {len : GnuLength} (h1 : GnuSign m neg p) (h2 : GnuPoint p W F r) (h3 : Spaces r t)
    (h4 : GnuWordAt gnuUnits t len rest) (h5 : len ≠ .seconds 1) (h6 : ¬ StartsWith ExponentLetter r) :
    Gnu.parseFuzzy s = fail (.invalidInput .fractionOnlyWithSeconds) :=
  parseFuzzy_mistake hs hm (.part h1 (.notSeconds h2 h6 h3 h4 h5))

/-- the mistakes are found, with positions counted without the white space in front -/
example : Gnu.parseFuzzy (b! "  -") = fail (.syntax 1 .signWithoutNumber) ∧
    Gnu.parseFuzzy (b! " 1 day .") = fail (.syntax 6 .wholeOrFractionMustBePresent) ∧
    Gnu.parseFuzzy (b! "1 day\t2.5e3") = fail (.syntax 9 .noExponentAllowed) ∧
    Gnu.parseFuzzy (b! "day .5") = fail (.invalidInput .fractionWithoutWhole) ∧
    Gnu.parseFuzzy (b! "day 5. sec ago") = fail (.invalidInput .fractionWithoutFraction) ∧
    Gnu.parseFuzzy (b! ".5 days") = fail (.invalidInput .fractionOnlyWithSeconds) ∧
    Gnu.parseFuzzy (b! "1 month next 2 days") = fail (.timeUnit 13 (.numeralWithoutTimeUnit (b! "next"))) ∧
    Gnu.parseFuzzy (b! "1 month next\n") = fail (.invalidInput (.text (b! "next"))) ∧
    Gnu.parseFuzzy (b! "1 day and 2 days") = fail (.invalidInput (.text (b! "and 2 days"))) := by
  refine ⟨?_, ?_, ?_, ?_, ?_, ?_, ?_, ?_, ?_⟩ <;> decide +kernel

/-- the specification says so too: the numeral in the second part -/
example : GnuMistake (b! "day next 2 days") (.timeUnit (b! "2 days") (.numeralWithoutTimeUnit (b! "next"))) := by
  have hw : GnuText false (b! "day next 2 days") (timesLength (signedBy false false 1) (.seconds 86400)) (b! "next 2 days") := by
    refine .unit ⟨b! " next 2 days", b! " next 2 days", ⟨b! "day", ⟨rfl, by decide, ?_⟩, ?_⟩, .absent ?_, ⟨b! " ", rfl, by decide, ?_⟩, ?_⟩
    · rw [startsWith_cons]; decide
    · exact ⟨[b! "days", b! "day"], by decide, b! "day", by decide, rfl⟩
    · rintro ⟨rest, sp, r, h1, -, ⟨x, h2, h3⟩, -⟩
      have h4 : Split PosixSpace (b! " next 2 days") (b! " ") (b! "next 2 days") :=
        ⟨rfl, by decide, by rw [show (b! "next 2 days") = 110 :: b! "ext 2 days" from rfl, startsWith_cons]; decide⟩
      obtain ⟨-, rfl⟩ := split_unique h4 h1
      have : (x ++ rest).take 3 = x := by
        have : x.length = 3 := by have := congrArg List.length h3; simpa using this
        rw [← this, List.take_left]
      rw [← h2] at this
      rw [← this] at h3
      exact absurd h3 (by decide)
    · rw [startsWith_cons]; decide
    · intro h; cases h
  refine .later (.absent (by rw [startsWith_cons]; decide)) hw (by decide) ?_
  refine .part (.absent (by rw [startsWith_cons]; decide)) (.noUnit (r := b! " 2 days") ?_ ⟨b! " ", rfl, by decide, ?_⟩ ?_)
  · exact ⟨1, ⟨rfl, by decide, by rw [startsWith_cons]; decide⟩, ⟨b! "next", by decide, rfl⟩, by decide⟩
  · rw [startsWith_cons]; decide
  · rintro ⟨len, rest, w, h1, h2⟩
    have : w = [] := by
      by_contra hw
      have := (split_ne h1).1 hw
      rw [show (b! "2 days") = 50 :: b! " days" from rfl, startsWith_cons] at this
      exact this (by decide)
    exact gnuWord_ne h2 (by decide) this

end Fundu.Props
