import Verif.Model.Time
/-!
# Specification of the documented time units

The table of README.md ("Time units") and of the documentation of `TimeUnit`: the identifier of each unit and its
length in nanoseconds. A year is 365.25 days, a month is a twelfth of a year.
-/
namespace Fundu.Spec

def documentedUnits : List (TimeUnit × Bytes × Nat) := [
  (.nanoSecond, b! "ns", 1),
  (.microSecond, b! "Ms", 1000),
  (.milliSecond, b! "ms", 1000 * 1000),
  (.second, b! "s", 1000 * 1000 * 1000),
  (.minute, b! "m", 60 * (1000 * 1000 * 1000)),
  (.hour, b! "h", 60 * (60 * (1000 * 1000 * 1000))),
  (.day, b! "d", 24 * (60 * (60 * (1000 * 1000 * 1000)))),
  (.week, b! "w", 7 * (24 * (60 * (60 * (1000 * 1000 * 1000))))),
  (.month, b! "M", 36525 * (24 * (60 * (60 * (1000 * 1000 * 1000)))) / 100 / 12),
  (.year, b! "y", 36525 * (24 * (60 * (60 * (1000 * 1000 * 1000)))) / 100)]

/-- the time units of systemd.time(7) and of the documentation of fundu-systemd, without nanoseconds: identifiers and
length in nanoseconds -/
def systemdUnits : List (List Bytes × Nat) := [
  ([b! "usec", b! "us", b! "\u00b5s", b! "\u03bcs"], 1000),
  ([b! "msec", b! "ms"], 1000 * 1000),
  ([b! "seconds", b! "second", b! "sec", b! "s"], 1000 * 1000 * 1000),
  ([b! "minutes", b! "minute", b! "min", b! "m"], 60 * (1000 * 1000 * 1000)),
  ([b! "hours", b! "hour", b! "hr", b! "h"], 60 * (60 * (1000 * 1000 * 1000))),
  ([b! "days", b! "day", b! "d"], 24 * (60 * (60 * (1000 * 1000 * 1000)))),
  ([b! "weeks", b! "week", b! "w"], 7 * (24 * (60 * (60 * (1000 * 1000 * 1000))))),
  ([b! "months", b! "month", b! "M"], 36525 * (24 * (60 * (60 * (1000 * 1000 * 1000)))) / 100 / 12),
  ([b! "years", b! "year", b! "y"], 36525 * (24 * (60 * (60 * (1000 * 1000 * 1000)))) / 100)]

/-- the time units with nanoseconds -/
def systemdUnitsNanos : List (List Bytes × Nat) := ([b! "nsec", b! "ns"], 1) :: systemdUnits

/-- the identifier `id` stands for `len` nanoseconds in the table -/
def UnitIn (table : List (List Bytes × Nat)) (id : Bytes) (len : Nat) : Prop :=
  ∃ ids, (ids, len) ∈ table ∧ id ∈ ids

end Fundu.Spec
