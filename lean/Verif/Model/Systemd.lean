import Verif.Model.Standard
import Verif.Model.Util
/-!
# Model of fundu-systemd/src/lib.rs
-/
namespace Fundu.Systemd
open Fundu

/-- systemd/lib.rs:211 -/
def DELIMITER : Delimiter := fun byte => byte = 32 || decide ((byte - 9).toNat < 5)

/-- systemd/lib.rs:213-221 -/
def CONFIG : Config :=
  (((((((ConfigBuilder.new.allowTimeUnitDelimiter).disableExponent).disableInfinity).numberIsOptional).parseMultiple
    none).innerDelimiter DELIMITER).outerDelimiter DELIMITER).build

/-- systemd/lib.rs:226-235: the pairs of a time unit and the multiplier 1, here for any unit -/
def withOne (unit : TimeUnit) : Option (TimeUnit × Multiplier) := some (unit, ⟨1, 0⟩)

/-- systemd/lib.rs:599-614 `TimeUnits::get`. The arms of the `match` on string literals are
tested from top to bottom. -/
def timeUnitsGet (identifier : Bytes) : Option (TimeUnit × Multiplier) :=
  if identifier ∈ [b! "us", b! "\u03bcs", b! "\u00b5s", b! "usec"] then withOne .microSecond
  else if identifier ∈ [b! "ms", b! "msec"] then withOne .milliSecond
  else if identifier ∈ [b! "s", b! "sec", b! "second", b! "seconds"] then withOne .second
  else if identifier ∈ [b! "m", b! "min", b! "minute", b! "minutes"] then withOne .minute
  else if identifier ∈ [b! "h", b! "hr", b! "hour", b! "hours"] then withOne .hour
  else if identifier ∈ [b! "d", b! "day", b! "days"] then withOne .day
  else if identifier ∈ [b! "w", b! "week", b! "weeks"] then withOne .week
  else if identifier ∈ [b! "M", b! "month", b! "months"] then withOne .month
  else if identifier ∈ [b! "y", b! "year", b! "years"] then withOne .year
  else none

/-- systemd/lib.rs:592-615 -/
def TIME_UNITS : TimeUnitsLike := ⟨false, timeUnitsGet⟩

/-- systemd/lib.rs:627-643 `TimeUnitsWithNanos::get` -/
def timeUnitsWithNanosGet (identifier : Bytes) : Option (TimeUnit × Multiplier) :=
  if identifier ∈ [b! "ns", b! "nsec"] then withOne .nanoSecond
  else if identifier ∈ [b! "us", b! "\u03bcs", b! "\u00b5s", b! "usec"] then withOne .microSecond
  else if identifier ∈ [b! "ms", b! "msec"] then withOne .milliSecond
  else if identifier ∈ [b! "s", b! "sec", b! "second", b! "seconds"] then withOne .second
  else if identifier ∈ [b! "m", b! "min", b! "minute", b! "minutes"] then withOne .minute
  else if identifier ∈ [b! "h", b! "hr", b! "hour", b! "hours"] then withOne .hour
  else if identifier ∈ [b! "d", b! "day", b! "days"] then withOne .day
  else if identifier ∈ [b! "w", b! "week", b! "weeks"] then withOne .week
  else if identifier ∈ [b! "M", b! "month", b! "months"] then withOne .month
  else if identifier ∈ [b! "y", b! "year", b! "years"] then withOne .year
  else none

/-- systemd/lib.rs:620-644 -/
def TIME_UNITS_WITH_NANOS : TimeUnitsLike := ⟨false, timeUnitsWithNanosGet⟩

/-- systemd/lib.rs:240-241 `SYSTEMD_MAX_MICRO_DURATION`. `Duration::positive` does not panic, the nanoseconds are below
one second. -/
def SYSTEMD_MAX_MICRO_DURATION : Duration := ⟨false, ⟨U64_MAX / 1000000, U64_MAX % 1000000 * 1000⟩⟩

/-- systemd/lib.rs:244-245 `SYSTEMD_MAX_NANOS_DURATION` -/
def SYSTEMD_MAX_NANOS_DURATION : Duration := ⟨false, ⟨U64_MAX / 1000000000, U64_MAX % 1000000000⟩⟩

/-- systemd/lib.rs:314-316: `raw` is a `Parser`, whose only field is `config` -/
structure TimeSpanParser where
  config : Config

/-- `Ord::min` of the standard library: `if other < self { other } else { self }` -/
def minDuration (a b : Duration) : Duration := if b.cmp a = .lt then b else a

/-- time.rs:1016-1018 `Duration::is_positive` -/
def isPositive (d : Duration) : Bool := !d.isNegative

namespace TimeSpanParser

/-- systemd/lib.rs:335-339 (and systemd/lib.rs:584-586 `default`) -/
def new : TimeSpanParser := ⟨CONFIG⟩

/-- systemd/lib.rs:356-362 -/
def withDefaultUnit (timeUnit : TimeUnit) : TimeSpanParser := ⟨{ CONFIG with defaultUnit := timeUnit }⟩

/-- systemd/lib.rs:578-580 -/
def setDefaultUnit (p : TimeSpanParser) (timeUnit : TimeUnit) : TimeSpanParser :=
  { p with config := { p.config with defaultUnit := timeUnit } }

/-- systemd/lib.rs:364-366 -/
def parseInfinity (source : Bytes) (max : Duration) : Option Duration :=
  if source = b! "infinity" then some max else none

/-- systemd/lib.rs:445-455 and systemd/lib.rs:537-551 after trimming, for the table of time
units -/
def parseTrimmed (p : TimeSpanParser) (units : TimeUnitsLike) (trimmed : Bytes) (max : Duration) : R Duration :=
  match parseInfinity trimmed max with
  | some duration => .ok duration
  | none => (Fundu.parse p.config units none none trimmed).map (fun duration => minDuration duration max)

/-- systemd/lib.rs:445-455 -/
def parseWithMax (p : TimeSpanParser) (source : Bytes) (max : Duration) : R Duration := do
  liftP (assert (isPositive max))
  let trimmed ← trimWhitespace source
  p.parseTrimmed TIME_UNITS trimmed max

/-- systemd/lib.rs:537-551 -/
def parseNanosWithMax (p : TimeSpanParser) (source : Bytes) (max : Duration) : R Duration := do
  liftP (assert (isPositive max))
  let trimmed ← trimWhitespace source
  p.parseTrimmed TIME_UNITS_WITH_NANOS trimmed max

/-- systemd/lib.rs:408-410 -/
def parse (p : TimeSpanParser) (source : Bytes) : R Duration := p.parseWithMax source SYSTEMD_MAX_MICRO_DURATION

/-- systemd/lib.rs:500-502 -/
def parseNanos (p : TimeSpanParser) (source : Bytes) : R Duration :=
  p.parseNanosWithMax source SYSTEMD_MAX_NANOS_DURATION

end TimeSpanParser

/-- systemd/lib.rs:237 `PARSER` -/
def PARSER : TimeSpanParser := TimeSpanParser.new

/-- the selection of the parser in systemd/lib.rs:696-711 and systemd/lib.rs:762-777 -/
def parserFor : Option TimeUnit → TimeSpanParser
  | none | some .second => PARSER
  | some timeUnit => PARSER.setDefaultUnit timeUnit

/-- systemd/lib.rs:696-711 the function `parse` -/
def parse (source : Bytes) (defaultUnit : Option TimeUnit) (max : Option Duration) : R Duration :=
  (parserFor defaultUnit).parseWithMax source (max.getD SYSTEMD_MAX_MICRO_DURATION)

/-- systemd/lib.rs:762-777 the function `parse_nanos` -/
def parseNanos (source : Bytes) (defaultUnit : Option TimeUnit) (max : Option Duration) : R Duration :=
  (parserFor defaultUnit).parseNanosWithMax source (max.getD SYSTEMD_MAX_NANOS_DURATION)

end Fundu.Systemd
