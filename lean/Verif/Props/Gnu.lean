import Verif.Proofs.GnuDate
import Verif.Props.GnuWords
import Verif.Props.Trim
/-! # gnu relative times: C39, C42, C43, C59, C60 -/
namespace Fundu.Props
open Fundu Fundu.Spec Fundu.Gnu

/-! ## C39 -/

/-- C39 (gnu): white space in front and behind does not change the result. -/
theorem C39_gnu (pre s post : Bytes) (h1 : ∀ b ∈ pre, PosixSpace b) (h2 : ∀ b ∈ post, PosixSpace b)
    (now : DateTime) (date : Option DateTime) :
    Gnu.parse now (pre ++ (s ++ post)) = Gnu.parse now s ∧
    Gnu.parseWithDate now (pre ++ (s ++ post)) date = Gnu.parseWithDate now s date ∧
    Gnu.parseFuzzy (pre ++ (s ++ post)) = Gnu.parseFuzzy s := by
  simp only [Gnu.parse, Gnu.parseWithDate, Gnu.parseFuzzy, RelativeTimeParser.parse, RelativeTimeParser.parseWithDate,
    RelativeTimeParser.parseFuzzy, C39_trim_surround pre s post h1 h2, and_self]

example : Gnu.parseFuzzy (b! " \t" ++ (b! "next year" ++ b! "\n")) = .ok (1, 0, Duration.ZERO) ∧
    Gnu.parseFuzzy (b! "next year") = .ok (1, 0, Duration.ZERO) := by decide +kernel

/-! ## C60 -/

/-- the result of `parse_fuzzy` -/
theorem parseFuzzy_result (s : Bytes) (hs : IsText s) :
    (∃ t l d, Trimmed s t ∧ RelativeTime t l ∧ d.WF ∧ nanos d = (gnuTotal l).nanoseconds ∧
      Gnu.parseFuzzy s = .ok ((gnuTotal l).years, (gnuTotal l).months, d)) ∨
    ((¬ ∃ t l, Trimmed s t ∧ RelativeTime t l) ∧ ∃ e, Gnu.parseFuzzy s = fail e ∧
      (e = .empty ∧ Trimmed s [] ∨ ErrOk s.length e)) := by
  obtain ⟨t, h1, h2, h3⟩ := C39_trim s hs
  have ht : Trimmed s t := (h3 t).2 rfl
  have hlen : t.length ≤ s.length := by
    obtain ⟨pre, post, rfl, -⟩ := ht
    simp only [List.length_append]; omega
  unfold Gnu.parseFuzzy RelativeTimeParser.parseFuzzy
  rw [h1, ok_bind]
  by_cases hne : t = []
  · subst hne
    right
    constructor
    · rintro ⟨t', l, g1, g2⟩
      rw [(h3 t').1 g1] at g2
      exact relative_ne g2 rfl
    · exact ⟨.empty, rfl, Or.inl ⟨rfl, ht⟩⟩
  · rcases fuzzy_result ((isText_iff t).1 h2) hne with ⟨l, r, g1, g2, g3⟩ | ⟨g1, e, g2, g3⟩
    · left
      refine ⟨t, l, r.duration, ht, g1, g3.2.2.1, g3.2.2.2, ?_⟩
      show (fuzzyLoop (env CONFIG) (t.length + 1) ⟨0, 0, Duration.ZERO⟩ (Cursor.new t) >>= _) = _
      rw [g2, ok_bind, g3.1, g3.2.1]
      rfl
    · right
      constructor
      · rintro ⟨t', l, k1, k2⟩
        rw [(h3 t').1 k1] at k2
        exact g1 ⟨l, k2⟩
      · refine ⟨e, ?_, Or.inr ?_⟩
        · show (fuzzyLoop (env CONFIG) (t.length + 1) ⟨0, 0, Duration.ZERO⟩ (Cursor.new t) >>= _) = _
          rw [g2]
          rfl
        · revert g3
          cases e <;> simp only [ErrOk, false_implies, implies_true] <;> (intro; omega)

/-- C60: `parse_fuzzy` accepts exactly the texts which, without white space at both ends, are relative times as
specified, and returns the years, months and nanoseconds of their parts, added up from left to right with
saturation. -/
theorem C60_parse_fuzzy (s : Bytes) (hs : IsText s) (y m x : Int) :
    (∃ d, Gnu.parseFuzzy s = .ok (y, m, d) ∧ d.WF ∧ nanos d = x) ↔
      ∃ t l, Trimmed s t ∧ RelativeTime t l ∧ gnuTotal l = ⟨y, m, x⟩ := by
  rcases parseFuzzy_result s hs with ⟨t, l, d, h1, h2, h3, h4, h5⟩ | ⟨h1, e, h2, -⟩
  · rw [h5]
    constructor
    · rintro ⟨d', g1, g2, g3⟩
      cases g1
      exact ⟨t, l, h1, h2, by rw [← g3, h4]⟩
    · rintro ⟨t', l', g1, g2, g3⟩
      cases trimmed_unique h1 g1
      cases relative_unique h2 g2
      rw [g3] at h4 ⊢
      exact ⟨d, rfl, h3, h4⟩
  · rw [h2]
    constructor
    · rintro ⟨d', g1, -⟩; cases g1
    · rintro ⟨t, l, g1, g2, -⟩; exact absurd ⟨t, l, g1, g2⟩ h1

/-- C60: a text has at most one reading as relative time. -/
theorem C60_unambiguous (s t t' : Bytes) (l l' : List GnuPart) (h1 : Trimmed s t) (h2 : RelativeTime t l)
    (h1' : Trimmed s t') (h2' : RelativeTime t' l') : l = l' := by
  cases trimmed_unique h1 h1'
  exact relative_unique h2 h2'

/-- C60: the parts of the sum are all counted (years, months and nanoseconds are `i64`, `i64` and the range of
durations). -/
theorem C60_range (l : List GnuPart) :
    IsI64 (gnuTotal l).years ∧ IsI64 (gnuTotal l).months ∧ Representable (gnuTotal l).nanoseconds := by
  have hc : ∀ x : Int, Representable (clamp x) := by
    intro x
    have hM : maxNanos = 18446744073709551615999999999 := by decide
    unfold Representable clamp
    rw [hM]; omega
  have key : ∀ (l : List GnuPart) (T : GnuTotal), IsI64 T.years ∧ IsI64 T.months ∧ Representable T.nanoseconds →
      IsI64 (l.foldl GnuTotal.add T).years ∧ IsI64 (l.foldl GnuTotal.add T).months ∧
        Representable (l.foldl GnuTotal.add T).nanoseconds := by
    intro l
    induction l with
    | nil => intro T h; exact h
    | cons p l ih =>
      intro T h
      refine ih _ ?_
      cases p with
      | exact x => exact ⟨h.1, h.2.1, hc _⟩
      | months n => exact ⟨h.1, clampI64_isI64 _, h.2.2⟩
      | years n => exact ⟨clampI64_isI64 _, h.2.1, h.2.2⟩
  exact key l _ ⟨by decide, by decide, by unfold Representable; decide⟩

/-- a text with a reading, and what the parser makes of it: minus two weeks and 1.5 seconds and a month -/
example : Gnu.parseFuzzy (b! " 2 weeks ago\t+1MONTH -1.5secs\n") = .ok (0, 1, ⟨true, ⟨1209601, 500000000⟩⟩) ∧
    IsText (b! " 2 weeks ago\t+1MONTH -1.5secs\n") := by
  refine ⟨by decide +kernel, isText_ascii (by decide +kernel)⟩

/-- hence by `C60_parse_fuzzy` there is such a reading -/
example : ∃ t l, Trimmed (b! " 2 weeks ago\t+1MONTH -1.5secs\n") t ∧ RelativeTime t l ∧
    gnuTotal l = ⟨0, 1, -1209601500000000⟩ :=
  (C60_parse_fuzzy _ (isText_ascii (by decide +kernel)) 0 1 _).1
    ⟨⟨true, ⟨1209601, 500000000⟩⟩, by decide +kernel, by decide, by decide⟩

/-- texts which have none -/
example : (∃ e, Gnu.parseFuzzy (b! "1.5 days") = fail e) ∧ (∃ e, Gnu.parseFuzzy (b! "1. sec") = fail e) ∧
    (∃ e, Gnu.parseFuzzy (b! "next") = fail e) ∧ (∃ e, Gnu.parseFuzzy (b! "1e1 sec") = fail e) ∧
    Gnu.parseFuzzy (b! " ") = fail .empty :=
  ⟨⟨.invalidInput .fractionOnlyWithSeconds, by decide +kernel⟩, ⟨.invalidInput .fractionWithoutFraction, by decide +kernel⟩,
    ⟨.invalidInput (.text (b! "next")), by decide +kernel⟩, ⟨.syntax 1 .noExponentAllowed, by decide +kernel⟩, by decide +kernel⟩

/-! ## C59 -/

/-- C59: `parse_fuzzy` does not panic: it yields a value or an error, whatever the text is; the position of an error lies
in the text. `Empty` is the error of a text of white space only. -/
theorem C59_parse_fuzzy (s : Bytes) (hs : IsText s) :
    (∃ r, Gnu.parseFuzzy s = .ok r) ∨ (∃ e, Gnu.parseFuzzy s = fail e ∧ (e = .empty ∧ Trimmed s [] ∨ ErrOk s.length e)) := by
  rcases parseFuzzy_result s hs with ⟨t, l, d, h1, h2, h3, h4, h5⟩ | ⟨h1, h2⟩
  · exact Or.inl ⟨_, h5⟩
  · exact Or.inr h2

/-- what `parse_with_date` does with the result of `parse_fuzzy` -/
theorem parseWithDate_eq {now : DateTime} {s : Bytes} {date : Option DateTime} {y m : Int} {d : Duration}
    (h : Gnu.parseFuzzy s = .ok (y, m, d)) : Gnu.parseWithDate now s date =
      if y = 0 ∧ m = 0 then .ok d else liftP (RelativeTimeParser.relativeTo (date.getD now) y m d) >>= fun o =>
        match o with
        | some d => .ok d
        | none => fail .overflow := by
  unfold Gnu.parseWithDate RelativeTimeParser.parseWithDate
  unfold Gnu.parseFuzzy at h
  rw [h, ok_bind]
  rfl

theorem parseWithDate_fail {now : DateTime} {s : Bytes} {date : Option DateTime} {e : ParseError}
    (h : Gnu.parseFuzzy s = fail e) : Gnu.parseWithDate now s date = fail e := by
  unfold Gnu.parseWithDate RelativeTimeParser.parseWithDate
  unfold Gnu.parseFuzzy at h
  rw [h]
  rfl

/-! ## C42 -/

/-- C42: without years and months the date does not matter: the result is the parsed duration, for every date and
whatever the time is now. -/
theorem C42_date_irrelevant (s : Bytes) (d : Duration) (h : Gnu.parseFuzzy s = .ok (0, 0, d))
    (now : DateTime) (date : Option DateTime) :
    Gnu.parseWithDate now s date = .ok d ∧ Gnu.parse now s = .ok d := by
  have key : ∀ date, Gnu.parseWithDate now s date = .ok d := by
    intro date
    rw [parseWithDate_eq h]
    rfl
  exact ⟨key date, key none⟩

/-- C42: a text in which no part is made of months or years -/
theorem C42_exact_parts (s t : Bytes) (hs : IsText s) (l : List Int) (h1 : Trimmed s t)
    (h2 : RelativeTime t (l.map .exact)) (now : DateTime) (date : Option DateTime) :
    ∃ d, Gnu.parseWithDate now s date = .ok d ∧ d.WF ∧ nanos d = l.foldl (fun a x => clamp (a + x)) 0 := by
  have key : ∀ (l : List Int) (T : GnuTotal), (l.map GnuPart.exact).foldl GnuTotal.add T =
      ⟨T.years, T.months, l.foldl (fun a x => clamp (a + x)) T.nanoseconds⟩ := by
    intro l
    induction l with
    | nil => intro T; rfl
    | cons p l ih => intro T; exact ih _
  obtain ⟨d, g1, g2, g3⟩ := (C60_parse_fuzzy s hs 0 0 _).2 ⟨t, _, h1, h2, key l _⟩
  exact ⟨d, (C42_date_irrelevant s d g1 now date).1, g2, g3⟩

/-- C42: an error of `parse_fuzzy` is the error of `parse` and `parse_with_date`. -/
theorem C42_errors (s : Bytes) (e : ParseError) (h : Gnu.parseFuzzy s = fail e) (now : DateTime) (date : Option DateTime) :
    Gnu.parseWithDate now s date = fail e ∧ Gnu.parse now s = fail e :=
  ⟨parseWithDate_fail h, parseWithDate_fail h⟩

example : Gnu.parseFuzzy (b! "yesterday +1year last year") = .ok (0, 0, ⟨true, ⟨86400, 0⟩⟩) ∧
    (∃ e, Gnu.parseFuzzy (b! "1 parsec") = fail e) :=
  ⟨by decide +kernel, .invalidInput (.text (b! "parsec")), by decide +kernel⟩

/-! ## C43 -/

/-- C43: with years or months the result is `Ok(x)` exactly if `x` is the exact distance between the date and the date
moved by the relative time, provided that the day reached by the exact part can be converted to a calendar date.
The date is the given one or the current one. -/
theorem C43_relative_date (s : Bytes) (hs : IsText s) (now : DateTime) (date : Option DateTime)
    (hd : DateTimeOk (date.getD now)) (y m : Int) (d : Duration) (h : Gnu.parseFuzzy s = .ok (y, m, d))
    (hym : ¬ (y = 0 ∧ m = 0)) (x : Int) :
    (∃ d', Gnu.parseWithDate now s date = .ok d' ∧ d'.WF ∧ nanos d' = x) ↔
      CalendarDay ((instant (date.getD now) + nanos d) / dayNanos) ∧
        RelativeDate (date.getD now) ⟨y, m, nanos d⟩ x ∧ Representable x := by
  obtain ⟨t, l, d0, -, -, hw, -, h5⟩ : ∃ t l d, Trimmed s t ∧ RelativeTime t l ∧ d.WF ∧ nanos d = (gnuTotal l).nanoseconds ∧
      Gnu.parseFuzzy s = .ok ((gnuTotal l).years, (gnuTotal l).months, d) := by
    rcases parseFuzzy_result s hs with h' | ⟨-, e, h2, -⟩
    · exact h'
    · rw [h2] at h; cases h
  have hr := C60_range l
  rw [h5] at h
  cases h
  rw [parseWithDate_eq h5, if_neg hym]
  by_cases hc : CalendarDay ((instant (date.getD now) + nanos d) / dayNanos)
  · obtain ⟨x', g1, g2, g3⟩ := relativeTo_ok hd hr.1 hr.2.1 hw hc
    by_cases hx : Representable x'
    · obtain ⟨d', k1, k2, k3⟩ := g2 hx
      rw [k1]
      constructor
      · rintro ⟨d2, q1, q2, rfl⟩
        cases q1
        rw [k3]
        exact ⟨hc, g1, hx⟩
      · rintro ⟨-, q1, -⟩
        exact ⟨d', rfl, k2, by rw [k3]; exact relativeDate_unique g1 q1⟩
    · rw [g3 hx]
      constructor
      · rintro ⟨d2, q1, -⟩; cases q1
      · rintro ⟨-, q1, q2⟩
        rw [relativeDate_unique q1 g1] at q2
        exact absurd q2 hx
  · have hn := relativeTo_none (y := (gnuTotal l).years) (m := (gnuTotal l).months) hd hw hc
    constructor
    · rintro ⟨d2, q1, -⟩
      by_cases hp : (instant (date.getD now) + nanos d) / dayNanos = -92233720366826639
      · obtain ⟨p, hp⟩ := hn.2 hp
        rw [hp] at q1; cases q1
      · rw [hn.1 hp] at q1; cases q1
    · rintro ⟨q1, -⟩; exact absurd q1 hc

/-- C43: and otherwise the result is `Err(Overflow)`: never a wrong duration. The day `-92233720366826639` is the one for
which the conversion to a calendar date panics (see `C46_to_gregorian`). -/
theorem C43_otherwise_overflow (s : Bytes) (hs : IsText s) (now : DateTime) (date : Option DateTime)
    (hd : DateTimeOk (date.getD now)) (y m : Int) (d : Duration) (h : Gnu.parseFuzzy s = .ok (y, m, d))
    (hym : ¬ (y = 0 ∧ m = 0)) :
    ((instant (date.getD now) + nanos d) / dayNanos ≠ -92233720366826639 →
      (∃ d', Gnu.parseWithDate now s date = .ok d' ∧ d'.WF) ∨ Gnu.parseWithDate now s date = fail .overflow) ∧
    ((instant (date.getD now) + nanos d) / dayNanos = -92233720366826639 →
      ∃ p, Gnu.parseWithDate now s date = panic p) := by
  obtain ⟨t, l, d0, -, -, hw, -, h5⟩ : ∃ t l d, Trimmed s t ∧ RelativeTime t l ∧ d.WF ∧ nanos d = (gnuTotal l).nanoseconds ∧
      Gnu.parseFuzzy s = .ok ((gnuTotal l).years, (gnuTotal l).months, d) := by
    rcases parseFuzzy_result s hs with h' | ⟨-, e, h2, -⟩
    · exact h'
    · rw [h2] at h; cases h
  have hr := C60_range l
  rw [h5] at h
  cases h
  rw [parseWithDate_eq h5, if_neg hym]
  by_cases hc : CalendarDay ((instant (date.getD now) + nanos d) / dayNanos)
  · obtain ⟨x', g1, g2, g3⟩ := relativeTo_ok hd hr.1 hr.2.1 hw hc
    refine ⟨fun _ => ?_, fun hp => ?_⟩
    · by_cases hx : Representable x'
      · obtain ⟨d', k1, k2, k3⟩ := g2 hx
        rw [k1]
        exact Or.inl ⟨d', rfl, k2⟩
      · rw [g3 hx]; exact Or.inr rfl
    · rw [hp] at hc
      exact absurd hc (by decide)
  · have hn := relativeTo_none (y := (gnuTotal l).years) (m := (gnuTotal l).months) hd hw hc
    refine ⟨fun hp => ?_, fun hp => ?_⟩
    · rw [hn.1 hp]; exact Or.inr rfl
    · obtain ⟨p, hp⟩ := hn.2 hp
      rw [hp]
      exact ⟨p, rfl⟩

/-- C43: moving the date back and forth: the date which is `x` after the given date exists and is the one the relative
time stands for. -/
theorem C43_reached (date : DateTime) (hd : DateTimeOk date) (t : GnuTotal) (d : Duration) (hw : d.WF)
    (hc : CalendarDay ((instant date + t.nanoseconds) / dayNanos)) (ht : Representable t.nanoseconds)
    (h : RelativeDate date t (nanos d)) :
    ∃ date', date.checkedAddDuration d = .ok (some date') ∧ DateTimeOk date' ∧
      ∃ (Y : Int) (M D : Nat) (Y' : Int) (M' : Nat), ValidDate Y M D ∧
        dayNumber Y M D = (instant date + t.nanoseconds) / dayNanos ∧ 1 ≤ M' ∧ M' ≤ 12 ∧
        12 * Y' + M' = 12 * Y + M + (12 * t.years + t.months) ∧ date'.days = dayNumber Y' M' D ∧
        (date'.time : Int) = (instant date + t.nanoseconds) % dayNanos := by
  obtain ⟨Y, M, D, Y', M', h1, h2, h3, h4, h5, h6⟩ := h
  have hM : maxNanos = 18446744073709551615999999999 := by decide
  have hr := nanos_representable d hw
  unfold Representable at hr ht
  rw [hM] at hr ht
  unfold CalendarDay at hc
  have hi : IsI64 (dayNumber Y' M' D) := by
    rw [isI64_iff]
    rw [dayNanos_eq] at *
    generalize dayNumber Y' M' D = n at *
    omega
  have hpos : 0 ≤ (instant date + t.nanoseconds) % dayNanos ∧ (instant date + t.nanoseconds) % dayNanos < dayNanos := by
    rw [dayNanos_eq]; omega
  let date' : DateTime := ⟨dayNumber Y' M' D, ((instant date + t.nanoseconds) % dayNanos).toNat⟩
  have htm : (date'.time : Int) = (instant date + t.nanoseconds) % dayNanos := Int.toNat_of_nonneg hpos.1
  have hok : DateTimeOk date' := ⟨hi, by rw [htm]; exact hpos.2⟩
  have hinst : instant date' = instant date + nanos d := by
    rw [h6]
    show dayNumber Y' M' D * dayNanos + (date'.time : Int) = _
    rw [htm]
  refine ⟨date', ?_, hok, Y, M, D, Y', M', h1, h2, h3, h4, h5, rfl, htm⟩
  rw [checkedAddDuration_eq date d hd hw, (ofInstant_iff _ date').2 ⟨hok, hinst⟩]

/-- from 2000-01-31 (day 2451575): ten months later there is no day 31, it is 2000-12-01 -/
example : Gnu.parseFuzzy (b! "1 year 2 month ago") = .ok (1, -2, Duration.ZERO) ∧
    DateTimeOk ⟨2451575, 5⟩ ∧ CalendarDay ((instant ⟨2451575, 5⟩ + 0) / dayNanos) ∧
    Gnu.parseWithDate DateTime.UNIX_EPOCH (b! "1 year 2 month ago") (some ⟨2451575, 5⟩) = .ok ⟨false, ⟨305 * 86400, 0⟩⟩ ∧
    Gnu.parse ⟨2451575, 5⟩ (b! "1 year 2 month ago") = .ok ⟨false, ⟨305 * 86400, 0⟩⟩ ∧
    dayNumber 2000 11 31 = 2451575 + 305 := by
  refine ⟨by decide +kernel, by decide, by decide, by decide +kernel, by decide +kernel, by decide +kernel⟩

/-- an overflow, and the panic -/
example : Gnu.parseWithDate DateTime.UNIX_EPOCH (b! "99999999999999999999 months") none = fail .overflow ∧
    ∃ p, Gnu.parseWithDate DateTime.UNIX_EPOCH (b! "1 month") (some ⟨-92233720366826639, 0⟩) = panic p :=
  ⟨by decide +kernel, .overflow, by decide +kernel⟩

/-- C59: `parse` and `parse_with_date` do not panic for dates with a day number of at least `-92000000000000000`, which
is in the year -251885760171152; that includes all dates of `time` and `chrono` (see `C53_from_civil`). -/
theorem C59_parse_with_date (s : Bytes) (hs : IsText s) (now : DateTime) (date : Option DateTime)
    (hd : DateTimeOk (date.getD now)) (hb : -92000000000000000 ≤ (date.getD now).days) :
    (∃ d, Gnu.parseWithDate now s date = .ok d ∧ d.WF) ∨ ∃ e, Gnu.parseWithDate now s date = fail e := by
  rcases parseFuzzy_result s hs with ⟨t, l, d, h1, h2, h3, h4, h5⟩ | ⟨h1, e, h2, -⟩
  · by_cases hym : (gnuTotal l).years = 0 ∧ (gnuTotal l).months = 0
    · rw [parseWithDate_eq h5, if_pos hym]
      exact Or.inl ⟨d, rfl, h3⟩
    · have hne : (instant (date.getD now) + nanos d) / dayNanos ≠ -92233720366826639 := by
        have hM : maxNanos = 18446744073709551615999999999 := by decide
        have hr := nanos_representable d h3
        unfold Representable at hr
        rw [hM] at hr
        have ht := hd.2
        unfold instant
        rw [dayNanos_eq] at *
        omega
      rcases (C43_otherwise_overflow s hs now date hd _ _ d h5 hym).1 hne with h | h
      · exact Or.inl h
      · exact Or.inr ⟨_, h⟩
  · exact Or.inr ⟨e, parseWithDate_fail h2⟩

end Fundu.Props
