import Verif.Model.Defaults
import Verif.Props.Builder
import Verif.Props.Standard
/-!
# Property C35: default values and empty builders
-/
namespace Fundu.Props
open Fundu Fundu.Spec

/-- C35: the defaults of the parsers and the parsers of empty builders. An empty builder of `DurationParser` has no time units, unlike
the default parser; with the default time units chosen it builds the default parser. -/
theorem C35_defaults :
    DurationParser.default = DurationParser.new ∧
    DurationParser.builder.build = DurationParser.withoutTimeUnits ∧
    DurationParser.builder.defaultTimeUnits.build = DurationParser.default ∧
    DurationParser.builder.allTimeUnits.build = DurationParser.withAllTimeUnits ∧
    DurationParserBuilder.default = DurationParser.builder ∧
    DurationParser.default.timeUnits = TimeUnits.default ∧
    CustomDurationParser.default = CustomDurationParser.new ∧
    CustomDurationParser.builder.build = CustomDurationParser.new ∧
    CustomDurationParserBuilder.default = CustomDurationParser.builder ∧
    CustomDurationParser.withTimeUnits [] = CustomDurationParser.new ∧
    Config.builder.build = Config.default ∧ parserNew = parserWithConfig Config.default ∧
    DurationParser.default.config = Config.default ∧ CustomDurationParser.default.config = Config.default :=
  ⟨rfl, rfl, rfl, rfl, rfl, rfl, rfl, rfl, rfl, rfl, rfl, rfl, rfl, rfl⟩

/-- C35: the default parsers of fundu-systemd and fundu-gnu: the default unit of a time span is the second, and they give the same results as the
functions of these crates. -/
theorem C35_crates (now : DateTime) (s : Bytes) (date : Option DateTime) (max : Duration) :
    Systemd.TimeSpanParser.default = Systemd.TimeSpanParser.withDefaultUnit .second ∧
    Systemd.TimeSpanParser.default.parse s = Systemd.parse s none none ∧
    Systemd.TimeSpanParser.default.parseWithMax s max = Systemd.parse s none (some max) ∧
    Systemd.TimeSpanParser.default.parseNanos s = Systemd.parseNanos s none none ∧
    Gnu.RelativeTimeParser.default.parse now s = Gnu.parse now s ∧
    Gnu.RelativeTimeParser.default.parseWithDate now s date = Gnu.parseWithDate now s date ∧
    Gnu.RelativeTimeParser.default.parseFuzzy s = Gnu.parseFuzzy s :=
  ⟨rfl, rfl, rfl, rfl, rfl, rfl, rfl⟩

/-- C35: the documented defaults of the settings. -/
theorem C35_default_config :
    Config.default.defaultUnit = TimeUnit.default ∧ TimeUnit.default.multiplier = ⟨1, 0⟩ ∧ Config.default.defaultMultiplier = ⟨1, 0⟩ ∧
    Config.default.allowTimeUnitDelimiter = false ∧ Config.default.allowSignDelimiter = false ∧ Config.default.allowNegative = false ∧
    Config.default.allowAgo = false ∧ Config.default.disableExponent = false ∧ Config.default.disableFraction = false ∧
    Config.default.disableInfinity = false ∧ Config.default.numberIsOptional = false ∧ Config.default.allowMultiple = false ∧
    Config.default.conjunctions = none ∧
    (∀ b, Config.default.innerDelimiter b = true ↔ b = 32 ∨ b = 9 ∨ b = 10 ∨ b = 12 ∨ b = 13) ∧
    (∀ b, Config.default.outerDelimiter b = true ↔ b = 32 ∨ b = 9 ∨ b = 10 ∨ b = 12 ∨ b = 13) := by
  have h : ∀ b, isAsciiWhitespace b = true ↔ b = 32 ∨ b = 9 ∨ b = 10 ∨ b = 12 ∨ b = 13 := by
    intro b
    unfold isAsciiWhitespace
    simp [or_assoc]
  exact ⟨rfl, rfl, rfl, rfl, rfl, rfl, rfl, rfl, rfl, rfl, rfl, rfl, rfl, h, h⟩

/-- C35: the default parser knows exactly the documented default identifiers: those of all time units but month and year. -/
theorem C35_default_units (id : Bytes) (p : TimeUnit × Multiplier) :
    DurationParser.default.timeUnits.like.get id = some p ↔
      ∃ u len, (u, id, len) ∈ documentedUnits ∧ u ≠ .month ∧ u ≠ .year ∧ p = (u, ⟨1, 0⟩) := by
  have e : DurationParser.default.timeUnits = (DurationParser.withTimeUnits
      [.nanoSecond, .microSecond, .milliSecond, .second, .minute, .hour, .day, .week]).timeUnits := by decide +kernel
  rw [e, C34_get]
  constructor
  · rintro ⟨u, hu, h1, h2⟩
    have : ∀ u ∈ [TimeUnit.nanoSecond, .microSecond, .milliSecond, .second, .minute, .hour, .day, .week],
        (u ≠ .month ∧ u ≠ .year) ∧ ∃ q ∈ documentedUnits, q.1 = u ∧ q.2.1 = u.defaultIdentifier := by decide +kernel
    obtain ⟨⟨k1, k2⟩, ⟨⟨v, i, len⟩, k3, k4, k5⟩⟩ := this u hu
    simp only at k4 k5
    subst k4
    exact ⟨v, len, by rw [← h1, ← k5]; exact k3, k1, k2, h2⟩
  · rintro ⟨u, len, h1, h2, h3, h4⟩
    refine ⟨u, ?_, (documented_id h1).2.2.1, h4⟩
    cases u <;> first | decide | exact absurd rfl h2 | exact absurd rfl h3

example : DurationParser.default.parse (b! "1w") = .ok ⟨false, ⟨604800, 0⟩⟩ ∧
    DurationParser.default.parse (b! "1y") = fail (.timeUnit 1 (.invalidTimeUnit (b! "y"))) := ⟨by decide +kernel, by decide +kernel⟩

end Fundu.Props
