import Verif.Spec.Gnu
/-!
# Specification: relative times with average months and years

fundu-gnu counts months and years by the calendar. The example program gnu.rs of fundu builds a similar parser which gives them
their average length.
-/
namespace Fundu.Spec

/-- the length of a part in nanoseconds if every month has 2629800 and every year 31557600 seconds -/
def averageNanos : GnuPart → Int
  | .exact x => x
  | .months n => clamp (n * 2629800 * 10 ^ 9)
  | .years n => clamp (n * 31557600 * 10 ^ 9)

/-- the identifiers of the example program custom.rs with their length in units of 10 milliseconds … -/
def customExampleUnits : List (List Bytes × Int) := [
  ([b! "s", b! "sec", b! "secs", b! "second", b! "seconds"], 100),
  ([b! "m", b! "min", b! "mins", b! "minutes"], 60 * 100),
  ([b! "h", b! "hr", b! "hrs", b! "hour", b! "hours"], 3600 * 100),
  ([b! "d", b! "day", b! "days"], 86400 * 100),
  ([b! "w", b! "week", b! "weeks"], 7 * 86400 * 100),
  ([b! "f", b! "fortnight", b! "fortnights"], 14 * 86400 * 100),
  ([b! "M", b! "mon", b! "month", b! "months"], 236059151),
  ([b! "y", b! "yr", b! "year", b! "years"], 3155814976)]

/-- … and those below a second with their length in nanoseconds -/
def customExampleSmall : List (List Bytes × Int) := [
  ([b! "ns", b! "nano", b! "nanos"], 1),
  ([b! "µs", b! "Ms", b! "micro", b! "micros"], 1000),
  ([b! "ms", b! "milli", b! "millis"], 1000000)]

end Fundu.Spec
