import Verif.Spec.Calendar
/-!
# Specification: lengths of successive months

The months are numbered consecutively: month `M` of the year `Y` has the number `12 * Y + M - 1`.
-/
namespace Fundu.Spec

/-- the number of days of the month with this number -/
def monthLength (k : Int) : Nat := monthDays (k / 12) ((k % 12).toNat + 1)

/-- the number of days of the `n` months beginning with month `k` -/
def monthsForward (k : Int) : Nat → Int
  | 0 => 0
  | n + 1 => monthsForward k n + monthLength (k + n)

/-- the number of days of the `n` months before month `k` -/
def monthsBackward (k : Int) : Nat → Int
  | 0 => 0
  | n + 1 => monthsBackward k n + monthLength (k - 1 - n)

/-- the number of days of `n` months from month `k` on, negative if `n` is: then it's the months before -/
def monthsLength (k n : Int) : Int := if 0 ≤ n then monthsForward k n.toNat else -monthsBackward k (-n).toNat

end Fundu.Spec
