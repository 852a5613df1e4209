import Verif.Model.Custom
/-!
# Model of the example programs fundu/examples/{systemd,gnu,custom,convert}.rs

The command line (crate `clap`) and `str::trim` of the argument are not modelled: the functions `main` take the
trimmed argument. The printed lines are structures of their parts.
-/
namespace Fundu.Examples
open Fundu

/-! ## fundu/examples/systemd.rs -/
namespace Systemd

/-- examples/systemd.rs:31-76: the parts pushed to `result`. A step `if secs >= UNIT { push; secs %= UNIT }` is the one of
`Display` (`displayStep`); the guards `secs > 0` and `nanos > 0` only skip steps which push nothing. -/
def humanParts (d : StdDuration) : List Bytes :=
  let s := (d.secs, ([] : List Bytes))
  let s := Duration.displayStep 31557600 (b! "y") s
  let s := Duration.displayStep 2629800 (b! "month") s
  let s := Duration.displayStep 604800 (b! "w") s
  let s := Duration.displayStep 86400 (b! "d") s
  let s := Duration.displayStep 3600 (b! "h") s
  let s := Duration.displayStep 60 (b! "min") s
  let s := Duration.displayStep 1 (b! "s") s
  let n := (d.nanos, s.2)
  let n := Duration.displayStep 1000000 (b! "ms") n
  let n := Duration.displayStep 1000 (b! "us") n
  let n := Duration.displayStep 1 (b! "ns") n
  n.2

/-- examples/systemd.rs:17-79 -/
def makeHuman (d : StdDuration) : Bytes := if d.isZero then b! "0" else Duration.join (b! " ") (humanParts d)

/-- examples/systemd.rs:95 -/
def delimiter : Delimiter := fun byte => byte = 32 || byte = 9 || byte = 10 || byte = 13

/-- examples/systemd.rs:96-104 -/
def parser : CustomDurationParser :=
  ((((((((CustomDurationParserBuilder.new.addTimeUnits SYSTEMD_TIME_UNITS).disableExponent).disableInfinity).allowTimeUnitDelimiter).parseMultiple
    none).innerDelimiter delimiter).outerDelimiter delimiter)).build

/-- the lines printed in examples/systemd.rs:112-114 after `Original` -/
structure Output where
  micros : Nat
  human : Bytes
  deriving DecidableEq

/-- `unwrap` of a `Result` -/
def unwrapStd : Except TryFromDurationError StdDuration → R StdDuration
  | .ok s => .ok s
  | .error _ => panic .unwrap

/-- `std::time::Duration::as_micros` -/
def asMicros (d : StdDuration) : Nat := d.secs * 1000000 + d.nanos / 1000

/-- examples/systemd.rs:109-117: `input` is the trimmed argument, an error is the one that is printed -/
def main (input : Bytes) : R Output := do
  let duration ← parser.parse input
  let duration ← unwrapStd duration.toStd
  return ⟨asMicros duration, makeHuman duration⟩

end Systemd

/-! ## fundu/examples/gnu.rs -/
namespace Gnu

/-- examples/gnu.rs:15-24. The unit of two weeks is built with `CustomTimeUnit::new`, evaluated at compile time; the theorem
`C85_units` says that it does not panic and gives this value. -/
def GNU_TIME_UNITS : List CustomTimeUnit := [
  .withDefault .second [b! "sec", b! "secs", b! "second", b! "seconds"],
  .withDefault .minute [b! "min", b! "mins", b! "minute", b! "minutes"],
  .withDefault .hour [b! "hour", b! "hours"],
  .withDefault .day [b! "day", b! "days"],
  .withDefault .week [b! "week", b! "weeks"],
  ⟨.week, ⟨2, 0⟩, [b! "fortnight", b! "fortnights"]⟩,
  .withDefault .month [b! "month", b! "months"],
  .withDefault .year [b! "year", b! "years"]]

/-- examples/gnu.rs:26-30, likewise -/
def GNU_KEYWORDS : List TimeKeyword := [
  ⟨⟨.day, ⟨-1, 0⟩, [b! "yesterday"]⟩⟩,
  ⟨⟨.day, ⟨1, 0⟩, [b! "tomorrow"]⟩⟩,
  ⟨⟨.day, ⟨0, 0⟩, [b! "now", b! "today"]⟩⟩]

/-- examples/gnu.rs:35-36 -/
def DELIMITER : Delimiter := fun byte => byte = 32 || byte = 9 || byte = 10 || byte = 12 || byte = 13 || byte = 11

/-- examples/gnu.rs:38-48 and examples/gnu.rs:136-139 -/
def parser : CustomDurationParser :=
  ((((((((((((CustomDurationParserBuilder.new.allowAgo).allowTimeUnitDelimiter).allowNegative).disableExponent).disableFraction).disableInfinity).numberIsOptional).innerDelimiter
    DELIMITER).outerDelimiter DELIMITER).parseMultiple none).addTimeUnits GNU_TIME_UNITS).addKeywords GNU_KEYWORDS).build

/-- examples/gnu.rs:50-56 -/
def makePlural (time : Nat) (singular : Bytes) : Bytes := if 1 < time then singular ++ b! "s" else singular

/-- one step `if secs >= UNIT { let n = secs / UNIT; push(format!("{}{}", n, make_plural(n, id))); secs %= UNIT }` of
examples/gnu.rs:76-108 -/
def step (unit : Nat) (id : Bytes) (st : Nat × List Bytes) : Nat × List Bytes :=
  if unit ≤ st.1 then (st.1 % unit, st.2 ++ [Duration.decDigits (st.1 / unit) ++ makePlural (st.1 / unit) id]) else st

/-- examples/gnu.rs:73-109 -/
def humanParts (secs : Nat) : List Bytes :=
  let s := (secs, ([] : List Bytes))
  let s := step 31557600 (b! "year") s
  let s := step 2629800 (b! "month") s
  let s := step 604800 (b! "week") s
  let s := step 86400 (b! "day") s
  let s := step 3600 (b! "hour") s
  let s := step 60 (b! "min") s
  let s := step 1 (b! "sec") s
  s.2

/-- examples/gnu.rs:111-115 -/
def joinParts (negative : Bool) (parts : List Bytes) : Bytes :=
  if negative then b! "-" ++ Duration.join (b! " -") parts else Duration.join (b! " ") parts

/-- examples/gnu.rs:59-116. The conversion is the one of time.rs, which can only panic as modelled there. -/
def makeHuman (d : Duration) : Except Panic Bytes :=
  if d.isZero then .ok (b! "0sec")
  else do
    let std ← d.abs.saturatingToStd
    return joinParts d.isNegative (humanParts std.secs)

/-- the lines printed in examples/gnu.rs:147-157 after `Original` -/
structure Output where
  seconds : Bytes
  human : Bytes
  deriving DecidableEq

/-- examples/gnu.rs:151-155 -/
def seconds (negative : Bool) (secs : Nat) : Bytes :=
  if negative then b! "-" ++ Duration.decDigits secs else Duration.decDigits secs

/-- examples/gnu.rs:144-160: `input` is the trimmed argument -/
def main (input : Bytes) : R Output := do
  let duration ← parser.parse input
  let std ← liftP duration.abs.saturatingToStd
  let human ← liftP (makeHuman duration)
  return ⟨seconds duration.isNegative std.secs, human⟩

end Gnu

/-! ## fundu/examples/custom.rs -/
namespace Custom

/-- examples/custom.rs:37-64 (see `GNU_TIME_UNITS` for the units with a multiplier) -/
def CUSTOM_TIME_UNITS : List CustomTimeUnit := [
  .withDefault .nanoSecond [b! "ns", b! "nano", b! "nanos"],
  .withDefault .microSecond [b! "µs", b! "Ms", b! "micro", b! "micros"],
  .withDefault .milliSecond [b! "ms", b! "milli", b! "millis"],
  .withDefault .second [b! "s", b! "sec", b! "secs", b! "second", b! "seconds"],
  .withDefault .minute [b! "m", b! "min", b! "mins", b! "minutes"],
  .withDefault .hour [b! "h", b! "hr", b! "hrs", b! "hour", b! "hours"],
  .withDefault .day [b! "d", b! "day", b! "days"],
  .withDefault .week [b! "w", b! "week", b! "weeks"],
  ⟨.week, ⟨2, 0⟩, [b! "f", b! "fortnight", b! "fortnights"]⟩,
  ⟨.second, ⟨236059151, -2⟩, [b! "M", b! "mon", b! "month", b! "months"]⟩,
  ⟨.second, ⟨3155814976, -2⟩, [b! "y", b! "yr", b! "year", b! "years"]⟩]

/-- examples/custom.rs:77 -/
def delimiter : Delimiter := fun byte => byte = 9 || byte = 10 || byte = 13 || byte = 32

/-- examples/custom.rs:72-78 -/
def parser : CustomDurationParser :=
  (((((CustomDurationParserBuilder.new.addTimeUnits CUSTOM_TIME_UNITS).defaultUnit .nanoSecond).disableExponent).allowTimeUnitDelimiter).innerDelimiter
    delimiter).build

/-- `{:0width$}` of an unsigned integer (core library): zeros in front up to the width -/
def zeroPadded (width n : Nat) : Bytes :=
  List.replicate (width - (Duration.decDigits n).length) 48 ++ Duration.decDigits n

/-- `{:width$}` of an unsigned integer (core library): spaces in front up to the width -/
def spacePadded (width n : Nat) : Bytes :=
  List.replicate (width - (Duration.decDigits n).length) 32 ++ Duration.decDigits n

/-- examples/custom.rs:100-105: the second column -/
def column (d : StdDuration) : Bytes := spacePadded 21 d.secs ++ (b! "." ++ zeroPadded 9 d.nanos)

/-- examples/custom.rs:97-108: one trimmed argument and the second column printed for it -/
def main (input : Bytes) : R Bytes := do
  let duration ← parser.parse input
  let duration ← Systemd.unwrapStd duration.toStd
  return column duration

end Custom

/-! ## fundu/examples/convert.rs -/
namespace Convert

/-- examples/convert.rs:11-14 -/
def parser : DurationParser := (((DurationParserBuilder.new).allTimeUnits).allowNegative).build

/-- the results printed in examples/convert.rs:34-79 -/
structure Output where
  display : Bytes
  std : Except TryFromDurationError StdDuration
  saturatingStd : StdDuration
  chrono : Except TryFromDurationError ChronoDuration
  saturatingChrono : ChronoDuration
  time : Except TryFromDurationError TimeDuration
  saturatingTime : TimeDuration

/-- examples/convert.rs:32-81: `input` is the trimmed argument -/
def main (input : Bytes) : R Output := do
  let duration ← parser.parse input
  let saturatingStd ← liftP duration.saturatingToStd
  let chrono ← liftP duration.toChrono
  let saturatingChrono ← liftP duration.saturatingToChrono
  let time ← liftP duration.toTime
  let saturatingTime ← liftP duration.saturatingToTime
  return ⟨duration.display, duration.toStd, saturatingStd, chrono, saturatingChrono, time, saturatingTime⟩

end Convert
end Fundu.Examples
