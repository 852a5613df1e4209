import Verif.Model.Time
/-!
# Specification of durations: a duration stands for a signed number of nanoseconds
-/
namespace Fundu.Spec

/-- the length of time a duration stands for, in nanoseconds -/
def nanos (d : Duration) : Int :=
  if d.isNegative then -((d.inner.secs : Int) * 1000000000 + d.inner.nanos)
  else (d.inner.secs : Int) * 1000000000 + d.inner.nanos

/-- the greatest representable number of nanoseconds, `(2^64 - 1) s + 999_999_999 ns` -/
def maxNanos : Int := 2 ^ 64 * 10 ^ 9 - 1

/-- the representable numbers of nanoseconds -/
def Representable (x : Int) : Prop := -maxNanos ≤ x ∧ x ≤ maxNanos

/-- the representable number nearest to `x` -/
def clamp (x : Int) : Int := max (-maxNanos) (min maxNanos x)

/-- the length of a `std::time::Duration` in nanoseconds -/
def stdNanos (d : StdDuration) : Int := (d.secs : Int) * 1000000000 + d.nanos
/-- the length of a `time::Duration` in nanoseconds -/
def timeNanos (d : TimeDuration) : Int := d.seconds * 1000000000 + d.nanoseconds
/-- the length of a `chrono::Duration` in nanoseconds -/
def chronoNanos (d : ChronoDuration) : Int := d.secs * 1000000000 + d.nanos

end Fundu.Spec
