import Verif.Spec.Calendar
/-!
# Specification: which date is earlier

The order of dates and of dates with a time as everybody compares them: first the year, then the month, and so on.
-/
namespace Fundu.Spec

/-- the date `y`-`m`-`d` is before the date `y'`-`m'`-`d'` -/
def EarlierDate (y : Int) (m d : Nat) (y' : Int) (m' d' : Nat) : Prop :=
  y < y' ∨ (y = y' ∧ (m < m' ∨ (m = m' ∧ d < d')))

/-- the time of day `h`:`mi`:`s`.`n` is before the time of day `h'`:`mi'`:`s'`.`n'` -/
def EarlierTime (h mi s n h' mi' s' n' : Nat) : Prop :=
  h < h' ∨ (h = h' ∧ (mi < mi' ∨ (mi = mi' ∧ (s < s' ∨ (s = s' ∧ n < n')))))

end Fundu.Spec
