import Verif.Model.Time
/-!
# Operators of `Duration` derived from the basic ones
-/
namespace Fundu.Duration
open Fundu

/-- time.rs:1314-1318 `impl PartialOrd`, `partial_cmp` -/
def partialCmp (a b : Duration) : Option Ordering := some (a.cmp b)

/-- time.rs:1314-1318: `<` is the provided method `PartialOrd::lt` of the standard library -/
def lt (a b : Duration) : Bool := a.partialCmp b == some .lt

/-- time.rs:1314-1318: `<=` is the provided method `PartialOrd::le` -/
def le (a b : Duration) : Bool := a.partialCmp b == some .lt || a.partialCmp b == some .eq

/-- time.rs:1314-1318: `>` is the provided method `PartialOrd::gt` -/
def gt (a b : Duration) : Bool := a.partialCmp b == some .gt

/-- time.rs:1314-1318: `>=` is the provided method `PartialOrd::ge` -/
def ge (a b : Duration) : Bool := a.partialCmp b == some .gt || a.partialCmp b == some .eq

/-- time.rs:1320-1330 `impl Ord`: `max` is the provided method, which returns the second argument if both are equal -/
def maximum (a b : Duration) : Duration := if a.cmp b = .gt then a else b

/-- time.rs:1320-1330 `impl Ord`: `min` is the provided method, which returns the first argument if both are equal -/
def minimum (a b : Duration) : Duration := if a.cmp b = .gt then b else a

/-- time.rs:1320-1330 `impl Ord`: `clamp` is the provided method, which panics if `low > high` -/
def clampTo (a low high : Duration) : Except Panic Duration :=
  if !low.le high then .error .assert
  else .ok (if a.lt low then low else if a.gt high then high else a)

/-- time.rs:1264-1268 `impl AddAssign`: the new value of `self` -/
def addAssign (a b : Duration) : Except Panic Duration := a.add b

/-- time.rs:1279-1283 `impl SubAssign`: the new value of `self` -/
def subAssign (a b : Duration) : Except Panic Duration := a.sub b

end Fundu.Duration
