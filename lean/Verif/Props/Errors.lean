import Verif.Spec.Errors
import Verif.Proofs.GnuErrors
import Verif.Props.Systemd
import Verif.Props.Gnu
import Verif.Props.Gate
/-!
# Property C66: errors tell the truth about the text
-/
namespace Fundu.Props
open Fundu Fundu.Spec

/-- C66: Whatever error a parser returns, what the error says about the text is true: the position splits the text, at
the border of a character, and the reason describes how the remainder behind the position starts or how the part in
front of it ends. -/
theorem C66_errors (cfg : Config) (units : TimeUnitsLike) (keywords : Option TimeUnitsLike) (numerals : Option NumbersLike)
    (s : Bytes) (e : ParseError) (hs : IsText s) (hc : CfgText cfg) (h : parse cfg units keywords numerals s = fail e) :
    Claim cfg units numerals s e :=
  parseWith_diag ((isText_iff s).mp hs) (envOk_of_text hc units keywords numerals) (scanOk_buffered rfl) e h

/-- C66 for the parser with the standard time units -/
theorem C66_standard (p : DurationParser) (s : Bytes) (e : ParseError) (hs : IsText s) (hc : CfgText p.config)
    (h : p.parse s = fail e) : Claim p.config p.timeUnits.like none s e :=
  C66_errors _ _ _ _ _ _ hs hc h

/-- C66 for the parser with custom time units -/
theorem C66_custom (p : CustomDurationParser) (s : Bytes) (e : ParseError) (hs : IsText s) (hc : CfgText p.config)
    (h : p.parse s = fail e) :
    Claim p.config p.timeUnits.like (if !p.numerals.isEmpty then some (numeralsGet p.numerals) else none) s e := by
  unfold CustomDurationParser.parse at h
  exact C66_errors _ _ _ _ _ _ hs hc h

theorem systemd_errors {p : Systemd.TimeSpanParser} {units : TimeUnitsLike} {s : Bytes} {max : Duration} {e : ParseError}
    (hs : IsText s) (hc : CfgText p.config)
    (h : (do liftP (assert (Systemd.isPositive max)); let trimmed ← trimWhitespace s; p.parseTrimmed units trimmed max) = fail e) :
    ∃ t, Trimmed s t ∧ Claim p.config units none t e := by
  obtain ⟨t, h1, h2, h3⟩ := C39_trim s hs
  rw [h1] at h
  cases ha : assert (Systemd.isPositive max) with
  | error q => rw [ha] at h; cases h
  | ok _ =>
    rw [ha] at h
    have h : p.parseTrimmed units t max = fail e := h
    refine ⟨t, (h3 t).2 rfl, ?_⟩
    unfold Systemd.TimeSpanParser.parseTrimmed at h
    cases hi : Systemd.TimeSpanParser.parseInfinity t max with
    | some d => rw [hi] at h; cases h
    | none =>
      rw [hi] at h
      cases hp : Fundu.parse p.config units none none t with
      | ok d => rw [hp] at h; cases h
      | error q =>
        rw [hp] at h
        have hq : q = .err e := by simpa [Except.map, fail] using h
        subst hq
        exact C66_errors _ _ _ _ _ _ h2 hc hp

/-- C66 for `fundu_systemd`: the errors tell the truth about the text without the white space around it. -/
theorem C66_systemd (u : TimeUnit) (s : Bytes) (max : Duration) (e : ParseError) (hs : IsText s)
    (h : (Systemd.TimeSpanParser.withDefaultUnit u).parseWithMax s max = fail e) :
    ∃ t, Trimmed s t ∧ Claim (Systemd.TimeSpanParser.withDefaultUnit u).config Systemd.TIME_UNITS none t e :=
  systemd_errors hs (systemd_cfgText u) h

/-- C66 for the functions of `fundu_systemd` which know nanoseconds -/
theorem C66_systemd_nanos (u : TimeUnit) (s : Bytes) (max : Duration) (e : ParseError) (hs : IsText s)
    (h : (Systemd.TimeSpanParser.withDefaultUnit u).parseNanosWithMax s max = fail e) :
    ∃ t, Trimmed s t ∧ Claim (Systemd.TimeSpanParser.withDefaultUnit u).config Systemd.TIME_UNITS_WITH_NANOS none t e :=
  systemd_errors hs (systemd_cfgText u) h

/-- C66 for `fundu_gnu::parse_fuzzy`: the errors tell the truth about the text without the white space around it. -/
theorem C66_gnu_fuzzy (s : Bytes) (e : ParseError) (hs : IsText s) (h : Gnu.parseFuzzy s = fail e) :
    ∃ t, Trimmed s t ∧ (Claim Gnu.CONFIG Gnu.TIME_UNITS (some Gnu.NUMERALS) t e ∨
      ∃ reason, e = .invalidInput reason ∧ FractionClaim t reason) := by
  obtain ⟨t, h1, h2, h3⟩ := C39_trim s hs
  refine ⟨t, (h3 t).2 rfl, ?_⟩
  unfold Gnu.parseFuzzy Gnu.RelativeTimeParser.parseFuzzy at h
  rw [h1] at h
  have hd := Gnu.fuzzy_diag ((isText_iff t).mp h2) e
  simp only [ok_bind] at h
  cases hp : Gnu.fuzzyLoop (Gnu.env Gnu.CONFIG) (t.length + 1) ⟨0, 0, Duration.ZERO⟩ (Cursor.new t) with
  | ok d =>
    have h : (Gnu.fuzzyLoop (Gnu.env Gnu.CONFIG) (t.length + 1) ⟨0, 0, Duration.ZERO⟩ (Cursor.new t) >>= fun t =>
      (pure (t.years, t.months, t.duration) : R _)) = fail e := h
    rw [hp] at h; cases h
  | error q =>
    have h : (Gnu.fuzzyLoop (Gnu.env Gnu.CONFIG) (t.length + 1) ⟨0, 0, Duration.ZERO⟩ (Cursor.new t) >>= fun t =>
      (pure (t.years, t.months, t.duration) : R _)) = fail e := h
    rw [hp] at h
    have hq : q = .err e := by simpa [fail] using h
    subst hq
    exact hd hp

/-- C66 for `fundu_gnu::parse` and `parse_with_date`: an error other than `Overflow` is an error of `parse_fuzzy` and
tells the truth. `Overflow` is only returned for texts which `parse_fuzzy` accepts with years or months. -/
theorem C66_gnu (now : DateTime) (s : Bytes) (date : Option DateTime) (e : ParseError) (hs : IsText s)
    (h : Gnu.parseWithDate now s date = fail e) :
    (e = .overflow ∧ ∃ y m d, Gnu.parseFuzzy s = .ok (y, m, d) ∧ (y ≠ 0 ∨ m ≠ 0)) ∨
    ∃ t, Trimmed s t ∧ (Claim Gnu.CONFIG Gnu.TIME_UNITS (some Gnu.NUMERALS) t e ∨
      ∃ reason, e = .invalidInput reason ∧ FractionClaim t reason) := by
  cases hp : Gnu.parseFuzzy s with
  | error q =>
    cases q with
    | err e' =>
      rw [parseWithDate_fail hp] at h
      have : e' = e := by simpa [fail] using h
      subst this
      exact Or.inr (C66_gnu_fuzzy s e' hs hp)
    | panic q =>
      unfold Gnu.parseWithDate Gnu.RelativeTimeParser.parseWithDate at h
      unfold Gnu.parseFuzzy at hp
      rw [hp] at h
      cases h
  | ok x =>
    obtain ⟨y, m, d⟩ := x
    left
    unfold Gnu.parseWithDate Gnu.RelativeTimeParser.parseWithDate at h
    have hp' := hp
    unfold Gnu.parseFuzzy at hp'
    rw [hp'] at h
    simp only [ok_bind] at h
    by_cases hz : y = 0 ∧ m = 0
    · rw [if_pos hz] at h; cases h
    · rw [if_neg hz] at h
      refine ⟨?_, y, m, d, rfl, by omega⟩
      cases hr : liftP (Gnu.RelativeTimeParser.relativeTo (date.getD now) y m d) with
      | error q =>
        rw [hr] at h
        cases hq : Gnu.RelativeTimeParser.relativeTo (date.getD now) y m d with
        | ok o => rw [hq] at hr; cases hr
        | error p =>
          rw [hq] at hr
          have : q = .panic p := by simpa [liftP] using hr.symm
          subst this
          cases h
      | ok o =>
        rw [hr] at h
        cases o with
        | some d => cases h
        | none =>
          simp only [ok_bind] at h
          have : ParseError.overflow = e := by simpa [fail] using h
          exact this.symm

/-! Texts with the errors of each kind. -/

example :
    DurationParser.new.parse [] = fail .empty ∧
    DurationParser.new.parse (b! "1x") = fail (.timeUnit 1 (.invalidTimeUnit (b! "x"))) ∧
    DurationParser.new.parse (b! "1e") = fail (.syntax 2 .unexpectedEnd) ∧
    DurationParser.new.parse (b! "1e-") = fail (.syntax 3 .expectedExponent) ∧
    DurationParser.new.parse (b! "1e-x") = fail (.syntax 3 .exponentWithoutDigit) ∧
    DurationParser.new.parse (b! "1e32768") = fail .positiveExponentOverflow ∧
    DurationParser.new.parse (b! "1e-32769") = fail .negativeExponentOverflow ∧
    DurationParser.new.parse (b! "+") = fail (.syntax 1 .signWithoutNumber) ∧
    DurationParser.new.parse (b! "-1") = fail .negativeNumber ∧
    DurationParser.new.parse (b! ".") = fail (.syntax 0 .wholeOrFractionMustBePresent) ∧
    DurationParser.new.parse (b! "inX") = fail (.invalidInput (.text (b! "inX"))) ∧
    DurationParser.new.parse (b! "infX") = fail (.syntax 3 (.infinityInvalidCharacter 88)) ∧
    DurationParser.new.parse (b! "infini") = fail (.syntax 6 .infinityPrematureEnd) ∧
    DurationParser.new.parse (b! "infinityx") = fail (.syntax 8 (.expectedEndOfInput (b! "x"))) ∧
    DurationParser.withoutTimeUnits.parse (b! "1s") = fail (.timeUnit 1 (.noTimeUnitsAllowed (b! "s"))) ∧
    (DurationParser.new.disableFraction true).parse (b! "1.0") = fail (.syntax 1 .noFractionAllowed) ∧
    (DurationParser.new.disableExponent true).parse (b! "1e0") = fail (.syntax 1 .noExponentAllowed) := by
  decide +kernel

example :
    (DurationParser.new.parseMultiple true (some [b! "and"])).parse (b! "1s and") = fail (.syntax 3 (.conjunctionAtEnd (b! "and"))) ∧
    (DurationParser.new.parseMultiple true (some [b! "and"])).parse (b! "1s and ") = fail (.syntax 6 .delimiterAtEnd) ∧
    (DurationParser.new.parseMultiple true (some [b! "and"])).parse (b! "1s andx") = fail (.syntax 6 (.conjunctionNotSeparated 120)) ∧
    (DurationParser.new.parseMultiple true none).parse (b! "infin") = fail (.syntax 0 (.infinityInvalidIdentifier (b! "in"))) ∧
    (DurationParser.new.parseMultiple true none).parse (b! "infin 1") = fail (.syntax 5 (.infinityInvalidCharacter 32)) ∧
    (DurationParser.new.parseMultiple true none).parse (b! "infinityx") = fail (.syntax 8 (.infinityExpectedDelimiter 120)) := by
  decide +kernel

example : CfgText (DurationParser.new.parseMultiple true (some [b! "and"])).config :=
  ⟨defaultConfig_text.inner, defaultConfig_text.outer, by
    intro ws h w hw
    have : ws = [b! "and"] := by simpa [DurationParser.parseMultiple] using h.symm
    subst this
    obtain rfl : w = b! "and" := by simpa using hw
    exact isText_ascii (by decide)⟩

example :
    Gnu.parseFuzzy (b! " .5 s") = fail (.invalidInput .fractionWithoutWhole) ∧
    Gnu.parseFuzzy (b! "5. s") = fail (.invalidInput .fractionWithoutFraction) ∧
    Gnu.parseFuzzy (b! "5.1 min") = fail (.invalidInput .fractionOnlyWithSeconds) ∧
    Gnu.parseFuzzy (b! " next x") = fail (.timeUnit 5 (.numeralWithoutTimeUnit (b! "next"))) ∧
    Gnu.parseFuzzy (b! "1 day x ") = fail (.invalidInput (.text (b! "x"))) ∧
    Gnu.parseWithDate ⟨0, 0⟩ (b! "9223372036854775807 years") none = fail .overflow := by decide +kernel

end Fundu.Props
