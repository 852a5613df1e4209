import Verif.Spec.Gnu
import Verif.Spec.Calendar
/-!
# Specification of a relative time applied to a date

First the exact part is added, then the calendar date is moved by the years and months. If the month has no
such day, the days beyond the end of the month are counted into the next month (that is what `dayNumber` does
with such a day, see `C49_carry`). The time of day stays as it is.
-/
namespace Fundu.Spec

/-- `x` nanoseconds after `date` is the instant which the relative time `t` stands for -/
def RelativeDate (date : DateTime) (t : GnuTotal) (x : Int) : Prop :=
  ∃ (Y : Int) (M D : Nat) (Y' : Int) (M' : Nat),
    ValidDate Y M D ∧ dayNumber Y M D = (instant date + t.nanoseconds) / dayNanos ∧
    1 ≤ M' ∧ M' ≤ 12 ∧ 12 * Y' + M' = 12 * Y + M + (12 * t.years + t.months) ∧
    instant date + x = dayNumber Y' M' D * dayNanos + (instant date + t.nanoseconds) % dayNanos

/-- the days which the library can convert to a calendar date (years -252522163911150 to 252522163911149) -/
def CalendarDay (day : Int) : Prop := -92231826450597304 ≤ day ∧ day ≤ 92231826454039543
instance (day : Int) : Decidable (CalendarDay day) := by unfold CalendarDay; infer_instance

end Fundu.Spec
