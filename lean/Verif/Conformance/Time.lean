import Verif.Conformance.Basic
/-! Generated by tools/conformance.py from fundu-core/src/time.rs: 443 cases. -/
namespace Fundu.Conformance.Time

def minused (t : Bytes) : Bytes := b! "-" ++ t.flatMap fun b => if b = 32 then [32, 45] else [b]
def expectedWhole (d : Duration) (factor : Nat) : Int :=
  if d.isNegative then -((d.inner.secs / factor : Nat) : Int) else ((d.inner.secs / factor : Nat) : Int)

/-- fundu-core/src/time.rs:1594 `test_time_unit_default_identifier`: 10 cases -/
example : ([
  (.nanoSecond, (b! "ns")),
  (.microSecond, (b! "Ms")),
  (.milliSecond, (b! "ms")),
  (.second, (b! "s")),
  (.minute, (b! "m")),
  (.hour, (b! "h")),
  (.day, (b! "d")),
  (.week, (b! "w")),
  (.month, (b! "M")),
  (.year, (b! "y"))] : List (TimeUnit × Bytes)).all
    (fun (u, s) => u.defaultIdentifier = s) = true := by decide +kernel

/-- fundu-core/src/time.rs:1609 `test_time_unit_multiplier`: 10 cases -/
example : ([
  (.nanoSecond, ⟨1, -9⟩),
  (.microSecond, ⟨1, -6⟩),
  (.milliSecond, ⟨1, -3⟩),
  (.second, ⟨1, 0⟩),
  (.minute, ⟨60, 0⟩),
  (.hour, ⟨3600, 0⟩),
  (.day, ⟨86400, 0⟩),
  (.week, ⟨604800, 0⟩),
  (.month, ⟨2629800, 0⟩),
  (.year, ⟨31557600, 0⟩)] : List (TimeUnit × Multiplier)).all
    (fun (u, m) => u.multiplier = m) = true := by decide +kernel

/-- fundu-core/src/time.rs:1614 `test_multiplier_get_coefficient` -/
example : (decide ((⟨1234, 0⟩ : Multiplier).coefficient = 1234)) = true := by decide +kernel

/-- fundu-core/src/time.rs:1620 `test_multiplier_get_exponent` -/
example : (decide ((⟨0, 1234⟩ : Multiplier).exponent = 1234)) = true := by decide +kernel

/-- fundu-core/src/time.rs:1631 `test_multiplier_is_negative_and_is_positive`: 5 cases -/
example : ([
  (⟨0, 0⟩, false),
  (⟨-1, 0⟩, true),
  (⟨1, 0⟩, false),
  (⟨1, -1⟩, false),
  (⟨-1, 1⟩, true)] : List (Multiplier × Bool)).all
    (fun (m, b) => m.isNegative = b && m.isPositive = !b) = true := by decide +kernel

/-- fundu-core/src/time.rs:1650 `test_multiplier_multiplication_barely_no_panic`: 10 cases -/
example : ([
  (.nanoSecond, ⟨9223372036854775807, -32759⟩),
  (.microSecond, ⟨9223372036854775807, -32762⟩),
  (.milliSecond, ⟨9223372036854775807, -32765⟩),
  (.second, ⟨9223372036854775807, -32768⟩),
  (.minute, ⟨153722867280912930, -32768⟩),
  (.hour, ⟨2562047788015215, -32768⟩),
  (.day, ⟨106751991167300, -32768⟩),
  (.week, ⟨15250284452471, -32768⟩),
  (.month, ⟨3507252276543, -32768⟩),
  (.year, ⟨292271023045, -32768⟩)] : List (TimeUnit × Multiplier)).all
    (fun (u, m) => !purePanics (u.multiplier.mul m)) = true := by decide +kernel

/-- fundu-core/src/time.rs:1668 `test_multiplier_multiplication_then_panic`: 9 cases -/
example : ([
  (.nanoSecond, ⟨9223372036854775807, -32760⟩),
  (.microSecond, ⟨9223372036854775807, -32764⟩),
  (.milliSecond, ⟨9223372036854775807, -32766⟩),
  (.minute, ⟨153722867280912931, -32768⟩),
  (.hour, ⟨2562047788015216, -32768⟩),
  (.day, ⟨106751991167301, -32768⟩),
  (.week, ⟨15250284452472, -32768⟩),
  (.month, ⟨3507252276544, -32768⟩),
  (.year, ⟨292271023046, -32768⟩)] : List (TimeUnit × Multiplier)).all
    (fun (u, m) => purePanics (u.multiplier.mul m)) = true := by decide +kernel

/-- fundu-core/src/time.rs:1680 `test_fundu_duration_is_positive_and_is_negative`: 4 cases -/
example : ([
  (⟨false, ⟨0, 0⟩⟩, true),
  (⟨true, ⟨0, 0⟩⟩, false),
  (⟨false, ⟨1, 0⟩⟩, true),
  (⟨true, ⟨1, 0⟩⟩, false)] : List (Duration × Bool)).all
    (fun (d, b) => Systemd.isPositive d = b && d.isNegative = !b) = true := by decide +kernel

/-- fundu-core/src/time.rs:1696 `test_fundu_duration_abs`: 7 cases -/
example : ([
  (⟨false, ⟨0, 0⟩⟩, ⟨false, ⟨0, 0⟩⟩),
  (⟨true, ⟨0, 0⟩⟩, ⟨false, ⟨0, 0⟩⟩),
  (⟨false, ⟨1, 0⟩⟩, ⟨false, ⟨1, 0⟩⟩),
  (⟨false, ⟨0, 1⟩⟩, ⟨false, ⟨0, 1⟩⟩),
  (⟨true, ⟨1, 0⟩⟩, ⟨false, ⟨1, 0⟩⟩),
  (⟨true, ⟨0, 1⟩⟩, ⟨false, ⟨0, 1⟩⟩),
  (⟨true, ⟨1, 1⟩⟩, ⟨false, ⟨1, 1⟩⟩)] : List (Duration × Duration)).all
    (fun (d, e) => d.abs.eq e) = true := by decide +kernel

/-- fundu-core/src/time.rs:1720 `test_fundu_display`: 13 cases -/
example : ([
  (⟨false, ⟨0, 0⟩⟩, (b! "0ns")),
  (⟨false, ⟨0, 1⟩⟩, (b! "1ns")),
  (⟨false, ⟨0, 1000⟩⟩, (b! "1Ms")),
  (⟨false, ⟨0, 1000000⟩⟩, (b! "1ms")),
  (⟨false, ⟨1, 0⟩⟩, (b! "1s")),
  (⟨false, ⟨60, 0⟩⟩, (b! "1m")),
  (⟨false, ⟨3600, 0⟩⟩, (b! "1h")),
  (⟨false, ⟨86400, 0⟩⟩, (b! "1d")),
  (⟨false, ⟨604800, 0⟩⟩, (b! "1w")),
  (⟨false, ⟨2629800, 0⟩⟩, (b! "1M")),
  (⟨false, ⟨31557600, 0⟩⟩, (b! "1y")),
  (⟨false, ⟨34882261, 1001001⟩⟩, (b! "1y 1M 1w 1d 1h 1m 1s 1ms 1Ms 1ns")),
  (⟨false, ⟨18446744073709551615, 999999999⟩⟩, (b! "584542046090y 7M 2w 1d 17h 30m 15s 999ms 999Ms 999ns"))] : List (Duration × Bytes)).all
    (fun (d, t) => d.display = t && (if d.isZero then d.neg.display = t else d.neg.display = minused t)) = true := by decide +kernel

/-- fundu-core/src/time.rs:1797 `test_fundu_duration_add`: 15 cases -/
example : ([
  (⟨false, ⟨0, 0⟩⟩, ⟨false, ⟨0, 0⟩⟩, ⟨false, ⟨0, 0⟩⟩),
  (⟨false, ⟨0, 0⟩⟩, ⟨false, ⟨0, 0⟩⟩, ⟨false, ⟨0, 0⟩⟩),
  (⟨true, ⟨0, 0⟩⟩, ⟨true, ⟨0, 0⟩⟩, ⟨false, ⟨0, 0⟩⟩),
  (⟨false, ⟨1, 0⟩⟩, ⟨false, ⟨0, 0⟩⟩, ⟨false, ⟨1, 0⟩⟩),
  (⟨true, ⟨1, 0⟩⟩, ⟨false, ⟨0, 0⟩⟩, ⟨true, ⟨1, 0⟩⟩),
  (⟨true, ⟨1, 0⟩⟩, ⟨false, ⟨1, 0⟩⟩, ⟨false, ⟨0, 0⟩⟩),
  (⟨true, ⟨1, 0⟩⟩, ⟨false, ⟨2, 0⟩⟩, ⟨false, ⟨1, 0⟩⟩),
  (⟨true, ⟨0, 1⟩⟩, ⟨false, ⟨1, 0⟩⟩, ⟨false, ⟨0, 999999999⟩⟩),
  (⟨false, ⟨0, 1⟩⟩, ⟨true, ⟨1, 0⟩⟩, ⟨true, ⟨0, 999999999⟩⟩),
  (⟨false, ⟨1, 0⟩⟩, ⟨true, ⟨2, 0⟩⟩, ⟨true, ⟨1, 0⟩⟩),
  (⟨true, ⟨18446744073709551614, 999999999⟩⟩, ⟨false, ⟨18446744073709551615, 999999999⟩⟩, ⟨false, ⟨1, 0⟩⟩),
  (⟨true, ⟨18446744073709551615, 999999998⟩⟩, ⟨false, ⟨18446744073709551615, 999999999⟩⟩, ⟨false, ⟨0, 1⟩⟩),
  (⟨false, ⟨18446744073709551614, 999999999⟩⟩, ⟨true, ⟨18446744073709551615, 999999999⟩⟩, ⟨true, ⟨1, 0⟩⟩),
  (⟨false, ⟨18446744073709551615, 999999998⟩⟩, ⟨true, ⟨18446744073709551615, 999999999⟩⟩, ⟨true, ⟨0, 1⟩⟩),
  (⟨true, ⟨18446744073709551615, 999999999⟩⟩, ⟨false, ⟨18446744073709551615, 999999999⟩⟩, ⟨false, ⟨0, 0⟩⟩)] : List (Duration × Duration × Duration)).all
    (fun (a, b, e) => durIs (a.add b) e && durIs (b.add a) e) = true := by decide +kernel

/-- fundu-core/src/time.rs:1803 `test_fundu_duration_add_assign`: 15 cases -/
example : ([
  (⟨false, ⟨0, 0⟩⟩, ⟨false, ⟨0, 0⟩⟩, ⟨false, ⟨0, 0⟩⟩),
  (⟨false, ⟨0, 0⟩⟩, ⟨false, ⟨0, 0⟩⟩, ⟨false, ⟨0, 0⟩⟩),
  (⟨true, ⟨0, 0⟩⟩, ⟨true, ⟨0, 0⟩⟩, ⟨false, ⟨0, 0⟩⟩),
  (⟨false, ⟨1, 0⟩⟩, ⟨false, ⟨0, 0⟩⟩, ⟨false, ⟨1, 0⟩⟩),
  (⟨true, ⟨1, 0⟩⟩, ⟨false, ⟨0, 0⟩⟩, ⟨true, ⟨1, 0⟩⟩),
  (⟨true, ⟨1, 0⟩⟩, ⟨false, ⟨1, 0⟩⟩, ⟨false, ⟨0, 0⟩⟩),
  (⟨true, ⟨1, 0⟩⟩, ⟨false, ⟨2, 0⟩⟩, ⟨false, ⟨1, 0⟩⟩),
  (⟨true, ⟨0, 1⟩⟩, ⟨false, ⟨1, 0⟩⟩, ⟨false, ⟨0, 999999999⟩⟩),
  (⟨false, ⟨0, 1⟩⟩, ⟨true, ⟨1, 0⟩⟩, ⟨true, ⟨0, 999999999⟩⟩),
  (⟨false, ⟨1, 0⟩⟩, ⟨true, ⟨2, 0⟩⟩, ⟨true, ⟨1, 0⟩⟩),
  (⟨true, ⟨18446744073709551614, 999999999⟩⟩, ⟨false, ⟨18446744073709551615, 999999999⟩⟩, ⟨false, ⟨1, 0⟩⟩),
  (⟨true, ⟨18446744073709551615, 999999998⟩⟩, ⟨false, ⟨18446744073709551615, 999999999⟩⟩, ⟨false, ⟨0, 1⟩⟩),
  (⟨false, ⟨18446744073709551614, 999999999⟩⟩, ⟨true, ⟨18446744073709551615, 999999999⟩⟩, ⟨true, ⟨1, 0⟩⟩),
  (⟨false, ⟨18446744073709551615, 999999998⟩⟩, ⟨true, ⟨18446744073709551615, 999999999⟩⟩, ⟨true, ⟨0, 1⟩⟩),
  (⟨true, ⟨18446744073709551615, 999999999⟩⟩, ⟨false, ⟨18446744073709551615, 999999999⟩⟩, ⟨false, ⟨0, 0⟩⟩)] : List (Duration × Duration × Duration)).all
    (fun (a, b, e) => durIs (a.add b) e && durIs (b.add a) e) = true := by decide +kernel

/-- fundu-core/src/time.rs:1813 `test_fundu_duration_checked_add`: 15 cases -/
example : ([
  (⟨false, ⟨0, 0⟩⟩, ⟨false, ⟨0, 0⟩⟩, ⟨false, ⟨0, 0⟩⟩),
  (⟨false, ⟨0, 0⟩⟩, ⟨false, ⟨0, 0⟩⟩, ⟨false, ⟨0, 0⟩⟩),
  (⟨true, ⟨0, 0⟩⟩, ⟨true, ⟨0, 0⟩⟩, ⟨false, ⟨0, 0⟩⟩),
  (⟨false, ⟨1, 0⟩⟩, ⟨false, ⟨0, 0⟩⟩, ⟨false, ⟨1, 0⟩⟩),
  (⟨true, ⟨1, 0⟩⟩, ⟨false, ⟨0, 0⟩⟩, ⟨true, ⟨1, 0⟩⟩),
  (⟨true, ⟨1, 0⟩⟩, ⟨false, ⟨1, 0⟩⟩, ⟨false, ⟨0, 0⟩⟩),
  (⟨true, ⟨1, 0⟩⟩, ⟨false, ⟨2, 0⟩⟩, ⟨false, ⟨1, 0⟩⟩),
  (⟨true, ⟨0, 1⟩⟩, ⟨false, ⟨1, 0⟩⟩, ⟨false, ⟨0, 999999999⟩⟩),
  (⟨false, ⟨0, 1⟩⟩, ⟨true, ⟨1, 0⟩⟩, ⟨true, ⟨0, 999999999⟩⟩),
  (⟨false, ⟨1, 0⟩⟩, ⟨true, ⟨2, 0⟩⟩, ⟨true, ⟨1, 0⟩⟩),
  (⟨true, ⟨18446744073709551614, 999999999⟩⟩, ⟨false, ⟨18446744073709551615, 999999999⟩⟩, ⟨false, ⟨1, 0⟩⟩),
  (⟨true, ⟨18446744073709551615, 999999998⟩⟩, ⟨false, ⟨18446744073709551615, 999999999⟩⟩, ⟨false, ⟨0, 1⟩⟩),
  (⟨false, ⟨18446744073709551614, 999999999⟩⟩, ⟨true, ⟨18446744073709551615, 999999999⟩⟩, ⟨true, ⟨1, 0⟩⟩),
  (⟨false, ⟨18446744073709551615, 999999998⟩⟩, ⟨true, ⟨18446744073709551615, 999999999⟩⟩, ⟨true, ⟨0, 1⟩⟩),
  (⟨true, ⟨18446744073709551615, 999999999⟩⟩, ⟨false, ⟨18446744073709551615, 999999999⟩⟩, ⟨false, ⟨0, 0⟩⟩)] : List (Duration × Duration × Duration)).all
    (fun (a, b, e) => someDurIs (a.checkedAdd b) e && someDurIs (b.checkedAdd a) e) = true := by decide +kernel

/-- fundu-core/src/time.rs:1819 `test_fundu_duration_sub`: 15 cases -/
example : ([
  (⟨false, ⟨0, 0⟩⟩, ⟨false, ⟨0, 0⟩⟩, ⟨false, ⟨0, 0⟩⟩),
  (⟨false, ⟨0, 0⟩⟩, ⟨false, ⟨0, 0⟩⟩, ⟨false, ⟨0, 0⟩⟩),
  (⟨true, ⟨0, 0⟩⟩, ⟨true, ⟨0, 0⟩⟩, ⟨false, ⟨0, 0⟩⟩),
  (⟨false, ⟨1, 0⟩⟩, ⟨false, ⟨0, 0⟩⟩, ⟨false, ⟨1, 0⟩⟩),
  (⟨true, ⟨1, 0⟩⟩, ⟨false, ⟨0, 0⟩⟩, ⟨true, ⟨1, 0⟩⟩),
  (⟨true, ⟨1, 0⟩⟩, ⟨false, ⟨1, 0⟩⟩, ⟨false, ⟨0, 0⟩⟩),
  (⟨true, ⟨1, 0⟩⟩, ⟨false, ⟨2, 0⟩⟩, ⟨false, ⟨1, 0⟩⟩),
  (⟨true, ⟨0, 1⟩⟩, ⟨false, ⟨1, 0⟩⟩, ⟨false, ⟨0, 999999999⟩⟩),
  (⟨false, ⟨0, 1⟩⟩, ⟨true, ⟨1, 0⟩⟩, ⟨true, ⟨0, 999999999⟩⟩),
  (⟨false, ⟨1, 0⟩⟩, ⟨true, ⟨2, 0⟩⟩, ⟨true, ⟨1, 0⟩⟩),
  (⟨true, ⟨18446744073709551614, 999999999⟩⟩, ⟨false, ⟨18446744073709551615, 999999999⟩⟩, ⟨false, ⟨1, 0⟩⟩),
  (⟨true, ⟨18446744073709551615, 999999998⟩⟩, ⟨false, ⟨18446744073709551615, 999999999⟩⟩, ⟨false, ⟨0, 1⟩⟩),
  (⟨false, ⟨18446744073709551614, 999999999⟩⟩, ⟨true, ⟨18446744073709551615, 999999999⟩⟩, ⟨true, ⟨1, 0⟩⟩),
  (⟨false, ⟨18446744073709551615, 999999998⟩⟩, ⟨true, ⟨18446744073709551615, 999999999⟩⟩, ⟨true, ⟨0, 1⟩⟩),
  (⟨true, ⟨18446744073709551615, 999999999⟩⟩, ⟨false, ⟨18446744073709551615, 999999999⟩⟩, ⟨false, ⟨0, 0⟩⟩)] : List (Duration × Duration × Duration)).all
    (fun (a, b, e) => durIs (a.sub b.neg) e && durIs (b.sub a.neg) e) = true := by decide +kernel

/-- fundu-core/src/time.rs:1825 `test_fundu_duration_sub_assign`: 15 cases -/
example : ([
  (⟨false, ⟨0, 0⟩⟩, ⟨false, ⟨0, 0⟩⟩, ⟨false, ⟨0, 0⟩⟩),
  (⟨false, ⟨0, 0⟩⟩, ⟨false, ⟨0, 0⟩⟩, ⟨false, ⟨0, 0⟩⟩),
  (⟨true, ⟨0, 0⟩⟩, ⟨true, ⟨0, 0⟩⟩, ⟨false, ⟨0, 0⟩⟩),
  (⟨false, ⟨1, 0⟩⟩, ⟨false, ⟨0, 0⟩⟩, ⟨false, ⟨1, 0⟩⟩),
  (⟨true, ⟨1, 0⟩⟩, ⟨false, ⟨0, 0⟩⟩, ⟨true, ⟨1, 0⟩⟩),
  (⟨true, ⟨1, 0⟩⟩, ⟨false, ⟨1, 0⟩⟩, ⟨false, ⟨0, 0⟩⟩),
  (⟨true, ⟨1, 0⟩⟩, ⟨false, ⟨2, 0⟩⟩, ⟨false, ⟨1, 0⟩⟩),
  (⟨true, ⟨0, 1⟩⟩, ⟨false, ⟨1, 0⟩⟩, ⟨false, ⟨0, 999999999⟩⟩),
  (⟨false, ⟨0, 1⟩⟩, ⟨true, ⟨1, 0⟩⟩, ⟨true, ⟨0, 999999999⟩⟩),
  (⟨false, ⟨1, 0⟩⟩, ⟨true, ⟨2, 0⟩⟩, ⟨true, ⟨1, 0⟩⟩),
  (⟨true, ⟨18446744073709551614, 999999999⟩⟩, ⟨false, ⟨18446744073709551615, 999999999⟩⟩, ⟨false, ⟨1, 0⟩⟩),
  (⟨true, ⟨18446744073709551615, 999999998⟩⟩, ⟨false, ⟨18446744073709551615, 999999999⟩⟩, ⟨false, ⟨0, 1⟩⟩),
  (⟨false, ⟨18446744073709551614, 999999999⟩⟩, ⟨true, ⟨18446744073709551615, 999999999⟩⟩, ⟨true, ⟨1, 0⟩⟩),
  (⟨false, ⟨18446744073709551615, 999999998⟩⟩, ⟨true, ⟨18446744073709551615, 999999999⟩⟩, ⟨true, ⟨0, 1⟩⟩),
  (⟨true, ⟨18446744073709551615, 999999999⟩⟩, ⟨false, ⟨18446744073709551615, 999999999⟩⟩, ⟨false, ⟨0, 0⟩⟩)] : List (Duration × Duration × Duration)).all
    (fun (a, b, e) => durIs (a.sub b.neg) e && durIs (b.sub a.neg) e) = true := by decide +kernel

/-- fundu-core/src/time.rs:1835 `test_fundu_duration_checked_sub`: 15 cases -/
example : ([
  (⟨false, ⟨0, 0⟩⟩, ⟨false, ⟨0, 0⟩⟩, ⟨false, ⟨0, 0⟩⟩),
  (⟨false, ⟨0, 0⟩⟩, ⟨false, ⟨0, 0⟩⟩, ⟨false, ⟨0, 0⟩⟩),
  (⟨true, ⟨0, 0⟩⟩, ⟨true, ⟨0, 0⟩⟩, ⟨false, ⟨0, 0⟩⟩),
  (⟨false, ⟨1, 0⟩⟩, ⟨false, ⟨0, 0⟩⟩, ⟨false, ⟨1, 0⟩⟩),
  (⟨true, ⟨1, 0⟩⟩, ⟨false, ⟨0, 0⟩⟩, ⟨true, ⟨1, 0⟩⟩),
  (⟨true, ⟨1, 0⟩⟩, ⟨false, ⟨1, 0⟩⟩, ⟨false, ⟨0, 0⟩⟩),
  (⟨true, ⟨1, 0⟩⟩, ⟨false, ⟨2, 0⟩⟩, ⟨false, ⟨1, 0⟩⟩),
  (⟨true, ⟨0, 1⟩⟩, ⟨false, ⟨1, 0⟩⟩, ⟨false, ⟨0, 999999999⟩⟩),
  (⟨false, ⟨0, 1⟩⟩, ⟨true, ⟨1, 0⟩⟩, ⟨true, ⟨0, 999999999⟩⟩),
  (⟨false, ⟨1, 0⟩⟩, ⟨true, ⟨2, 0⟩⟩, ⟨true, ⟨1, 0⟩⟩),
  (⟨true, ⟨18446744073709551614, 999999999⟩⟩, ⟨false, ⟨18446744073709551615, 999999999⟩⟩, ⟨false, ⟨1, 0⟩⟩),
  (⟨true, ⟨18446744073709551615, 999999998⟩⟩, ⟨false, ⟨18446744073709551615, 999999999⟩⟩, ⟨false, ⟨0, 1⟩⟩),
  (⟨false, ⟨18446744073709551614, 999999999⟩⟩, ⟨true, ⟨18446744073709551615, 999999999⟩⟩, ⟨true, ⟨1, 0⟩⟩),
  (⟨false, ⟨18446744073709551615, 999999998⟩⟩, ⟨true, ⟨18446744073709551615, 999999999⟩⟩, ⟨true, ⟨0, 1⟩⟩),
  (⟨true, ⟨18446744073709551615, 999999999⟩⟩, ⟨false, ⟨18446744073709551615, 999999999⟩⟩, ⟨false, ⟨0, 0⟩⟩)] : List (Duration × Duration × Duration)).all
    (fun (a, b, e) => someDurIs (a.checkedSub b.neg) e && someDurIs (b.checkedSub a.neg) e) = true := by decide +kernel

/-- fundu-core/src/time.rs:1868 `test_fundu_duration_add_and_add_assign_then_overflow`: 10 cases -/
example : ([
  (⟨true, ⟨18446744073709551615, 999999999⟩⟩, ⟨true, ⟨18446744073709551615, 999999999⟩⟩),
  (⟨true, ⟨18446744073709551615, 999999999⟩⟩, ⟨true, ⟨1, 0⟩⟩),
  (⟨true, ⟨18446744073709551615, 999999999⟩⟩, ⟨true, ⟨0, 1⟩⟩),
  (⟨false, ⟨18446744073709551615, 999999999⟩⟩, ⟨false, ⟨18446744073709551615, 999999999⟩⟩),
  (⟨false, ⟨18446744073709551615, 999999999⟩⟩, ⟨false, ⟨1, 0⟩⟩),
  (⟨false, ⟨18446744073709551615, 999999999⟩⟩, ⟨false, ⟨0, 1⟩⟩),
  (⟨false, ⟨9223372036854775808, 500000000⟩⟩, ⟨false, ⟨9223372036854775807, 500000000⟩⟩),
  (⟨false, ⟨9223372036854775808, 500000000⟩⟩, ⟨false, ⟨9223372036854775808, 499999999⟩⟩),
  (⟨true, ⟨9223372036854775808, 500000000⟩⟩, ⟨true, ⟨9223372036854775807, 500000000⟩⟩),
  (⟨true, ⟨9223372036854775808, 500000000⟩⟩, ⟨true, ⟨9223372036854775808, 499999999⟩⟩)] : List (Duration × Duration)).all
    (fun (a, b) => purePanics (a.add b)) = true := by decide +kernel

/-- fundu-core/src/time.rs:1875 `test_fundu_duration_sub_and_sub_assign_then_overflow`: 10 cases -/
example : ([
  (⟨true, ⟨18446744073709551615, 999999999⟩⟩, ⟨true, ⟨18446744073709551615, 999999999⟩⟩),
  (⟨true, ⟨18446744073709551615, 999999999⟩⟩, ⟨true, ⟨1, 0⟩⟩),
  (⟨true, ⟨18446744073709551615, 999999999⟩⟩, ⟨true, ⟨0, 1⟩⟩),
  (⟨false, ⟨18446744073709551615, 999999999⟩⟩, ⟨false, ⟨18446744073709551615, 999999999⟩⟩),
  (⟨false, ⟨18446744073709551615, 999999999⟩⟩, ⟨false, ⟨1, 0⟩⟩),
  (⟨false, ⟨18446744073709551615, 999999999⟩⟩, ⟨false, ⟨0, 1⟩⟩),
  (⟨false, ⟨9223372036854775808, 500000000⟩⟩, ⟨false, ⟨9223372036854775807, 500000000⟩⟩),
  (⟨false, ⟨9223372036854775808, 500000000⟩⟩, ⟨false, ⟨9223372036854775808, 499999999⟩⟩),
  (⟨true, ⟨9223372036854775808, 500000000⟩⟩, ⟨true, ⟨9223372036854775807, 500000000⟩⟩),
  (⟨true, ⟨9223372036854775808, 500000000⟩⟩, ⟨true, ⟨9223372036854775808, 499999999⟩⟩)] : List (Duration × Duration)).all
    (fun (a, b) => purePanics (a.sub b.neg)) = true := by decide +kernel

/-- fundu-core/src/time.rs:1880 `test_fundu_duration_checked_add_then_overflow`: 10 cases -/
example : ([
  (⟨true, ⟨18446744073709551615, 999999999⟩⟩, ⟨true, ⟨18446744073709551615, 999999999⟩⟩),
  (⟨true, ⟨18446744073709551615, 999999999⟩⟩, ⟨true, ⟨1, 0⟩⟩),
  (⟨true, ⟨18446744073709551615, 999999999⟩⟩, ⟨true, ⟨0, 1⟩⟩),
  (⟨false, ⟨18446744073709551615, 999999999⟩⟩, ⟨false, ⟨18446744073709551615, 999999999⟩⟩),
  (⟨false, ⟨18446744073709551615, 999999999⟩⟩, ⟨false, ⟨1, 0⟩⟩),
  (⟨false, ⟨18446744073709551615, 999999999⟩⟩, ⟨false, ⟨0, 1⟩⟩),
  (⟨false, ⟨9223372036854775808, 500000000⟩⟩, ⟨false, ⟨9223372036854775807, 500000000⟩⟩),
  (⟨false, ⟨9223372036854775808, 500000000⟩⟩, ⟨false, ⟨9223372036854775808, 499999999⟩⟩),
  (⟨true, ⟨9223372036854775808, 500000000⟩⟩, ⟨true, ⟨9223372036854775807, 500000000⟩⟩),
  (⟨true, ⟨9223372036854775808, 500000000⟩⟩, ⟨true, ⟨9223372036854775808, 499999999⟩⟩)] : List (Duration × Duration)).all
    (fun (a, b) => pureIs (a.checkedAdd b) none && pureIs (b.checkedAdd a) none) = true := by decide +kernel

/-- fundu-core/src/time.rs:1886 `test_fundu_duration_checked_sub_then_overflow`: 10 cases -/
example : ([
  (⟨true, ⟨18446744073709551615, 999999999⟩⟩, ⟨true, ⟨18446744073709551615, 999999999⟩⟩),
  (⟨true, ⟨18446744073709551615, 999999999⟩⟩, ⟨true, ⟨1, 0⟩⟩),
  (⟨true, ⟨18446744073709551615, 999999999⟩⟩, ⟨true, ⟨0, 1⟩⟩),
  (⟨false, ⟨18446744073709551615, 999999999⟩⟩, ⟨false, ⟨18446744073709551615, 999999999⟩⟩),
  (⟨false, ⟨18446744073709551615, 999999999⟩⟩, ⟨false, ⟨1, 0⟩⟩),
  (⟨false, ⟨18446744073709551615, 999999999⟩⟩, ⟨false, ⟨0, 1⟩⟩),
  (⟨false, ⟨9223372036854775808, 500000000⟩⟩, ⟨false, ⟨9223372036854775807, 500000000⟩⟩),
  (⟨false, ⟨9223372036854775808, 500000000⟩⟩, ⟨false, ⟨9223372036854775808, 499999999⟩⟩),
  (⟨true, ⟨9223372036854775808, 500000000⟩⟩, ⟨true, ⟨9223372036854775807, 500000000⟩⟩),
  (⟨true, ⟨9223372036854775808, 500000000⟩⟩, ⟨true, ⟨9223372036854775808, 499999999⟩⟩)] : List (Duration × Duration)).all
    (fun (a, b) => pureIs (a.checkedSub b.neg) none) = true := by decide +kernel

/-- fundu-core/src/time.rs:1891 `test_fundu_duration_saturating_add_then_saturate`: 10 cases -/
example : ([
  (⟨true, ⟨18446744073709551615, 999999999⟩⟩, ⟨true, ⟨18446744073709551615, 999999999⟩⟩),
  (⟨true, ⟨18446744073709551615, 999999999⟩⟩, ⟨true, ⟨1, 0⟩⟩),
  (⟨true, ⟨18446744073709551615, 999999999⟩⟩, ⟨true, ⟨0, 1⟩⟩),
  (⟨false, ⟨18446744073709551615, 999999999⟩⟩, ⟨false, ⟨18446744073709551615, 999999999⟩⟩),
  (⟨false, ⟨18446744073709551615, 999999999⟩⟩, ⟨false, ⟨1, 0⟩⟩),
  (⟨false, ⟨18446744073709551615, 999999999⟩⟩, ⟨false, ⟨0, 1⟩⟩),
  (⟨false, ⟨9223372036854775808, 500000000⟩⟩, ⟨false, ⟨9223372036854775807, 500000000⟩⟩),
  (⟨false, ⟨9223372036854775808, 500000000⟩⟩, ⟨false, ⟨9223372036854775808, 499999999⟩⟩),
  (⟨true, ⟨9223372036854775808, 500000000⟩⟩, ⟨true, ⟨9223372036854775807, 500000000⟩⟩),
  (⟨true, ⟨9223372036854775808, 500000000⟩⟩, ⟨true, ⟨9223372036854775808, 499999999⟩⟩)] : List (Duration × Duration)).all
    (fun (a, b) => let e := if !a.isNegative && !b.isNegative then Duration.MAX else Duration.MIN; durIs (a.saturatingAdd b) e && durIs (b.saturatingAdd a) e) = true := by decide +kernel

/-- fundu-core/src/time.rs:1902 `test_fundu_duration_saturating_sub_then_saturate`: 10 cases -/
example : ([
  (⟨true, ⟨18446744073709551615, 999999999⟩⟩, ⟨true, ⟨18446744073709551615, 999999999⟩⟩),
  (⟨true, ⟨18446744073709551615, 999999999⟩⟩, ⟨true, ⟨1, 0⟩⟩),
  (⟨true, ⟨18446744073709551615, 999999999⟩⟩, ⟨true, ⟨0, 1⟩⟩),
  (⟨false, ⟨18446744073709551615, 999999999⟩⟩, ⟨false, ⟨18446744073709551615, 999999999⟩⟩),
  (⟨false, ⟨18446744073709551615, 999999999⟩⟩, ⟨false, ⟨1, 0⟩⟩),
  (⟨false, ⟨18446744073709551615, 999999999⟩⟩, ⟨false, ⟨0, 1⟩⟩),
  (⟨false, ⟨9223372036854775808, 500000000⟩⟩, ⟨false, ⟨9223372036854775807, 500000000⟩⟩),
  (⟨false, ⟨9223372036854775808, 500000000⟩⟩, ⟨false, ⟨9223372036854775808, 499999999⟩⟩),
  (⟨true, ⟨9223372036854775808, 500000000⟩⟩, ⟨true, ⟨9223372036854775807, 500000000⟩⟩),
  (⟨true, ⟨9223372036854775808, 500000000⟩⟩, ⟨true, ⟨9223372036854775808, 499999999⟩⟩)] : List (Duration × Duration)).all
    (fun (a, b) => let e := if a.isNegative && !b.neg.isNegative then Duration.MIN else Duration.MAX; durIs (a.saturatingSub b.neg) e) = true := by decide +kernel

/-- fundu-core/src/time.rs:1925 `test_fundu_duration_as_seconds`: 11 cases -/
example : ([
  (⟨false, ⟨0, 0⟩⟩, 0),
  (⟨false, ⟨1, 0⟩⟩, 1),
  (⟨false, ⟨0, 1⟩⟩, 0),
  (⟨false, ⟨1, 1⟩⟩, 1),
  (⟨true, ⟨1, 0⟩⟩, (-1)),
  (⟨true, ⟨0, 1⟩⟩, 0),
  (⟨true, ⟨1, 1⟩⟩, (-1)),
  (⟨false, ⟨123456789, 987654321⟩⟩, 123456789),
  (⟨true, ⟨123456789, 987654321⟩⟩, (-123456789)),
  (⟨true, ⟨18446744073709551615, 999999999⟩⟩, (-18446744073709551615)),
  (⟨false, ⟨18446744073709551615, 999999999⟩⟩, 18446744073709551615)] : List (Duration × Int)).all
    (fun (d, n) => pureIs d.asSeconds n) = true := by decide +kernel

/-- fundu-core/src/time.rs:1941 `test_fundu_duration_as_whole`: 11 cases -/
example : ([
  ⟨false, ⟨0, 0⟩⟩,
  ⟨false, ⟨1, 0⟩⟩,
  ⟨false, ⟨0, 1⟩⟩,
  ⟨false, ⟨1, 1⟩⟩,
  ⟨false, ⟨60, 0⟩⟩,
  ⟨false, ⟨61, 0⟩⟩,
  ⟨false, ⟨59, 0⟩⟩,
  ⟨false, ⟨120, 0⟩⟩,
  ⟨false, ⟨123456789, 987654321⟩⟩,
  ⟨true, ⟨18446744073709551615, 999999999⟩⟩,
  ⟨false, ⟨18446744073709551615, 999999999⟩⟩] : List Duration).all
    (fun d => [2, 3, 4, 60, U64_MAX / 2, U64_MAX].all fun f => pureIs (d.asWhole f) (expectedWhole d f) && pureIs (d.neg.asWhole f) (-expectedWhole d f)) = true := by decide +kernel

/-- fundu-core/src/time.rs:1957 `test_fundu_duration_as_weeks`: 3 cases -/
example : ([
  (604800, 1),
  (604801, 1),
  (604799, 0)] : List (Nat × Int)).all
    (fun (s, n) => pureIs (Duration.asWeeks ⟨false, ⟨s, 0⟩⟩) n && pureIs (Duration.asWeeks ⟨true, ⟨s, 0⟩⟩) (-n)) = true := by decide +kernel

/-- fundu-core/src/time.rs:1968 `test_fundu_duration_as_days`: 3 cases -/
example : ([
  (86400, 1),
  (86401, 1),
  (86399, 0)] : List (Nat × Int)).all
    (fun (s, n) => pureIs (Duration.asDays ⟨false, ⟨s, 0⟩⟩) n && pureIs (Duration.asDays ⟨true, ⟨s, 0⟩⟩) (-n)) = true := by decide +kernel

/-- fundu-core/src/time.rs:1979 `test_fundu_duration_as_hours`: 3 cases -/
example : ([
  (3600, 1),
  (3601, 1),
  (3599, 0)] : List (Nat × Int)).all
    (fun (s, n) => pureIs (Duration.asHours ⟨false, ⟨s, 0⟩⟩) n && pureIs (Duration.asHours ⟨true, ⟨s, 0⟩⟩) (-n)) = true := by decide +kernel

/-- fundu-core/src/time.rs:1990 `test_fundu_duration_as_minutes`: 3 cases -/
example : ([
  (60, 1),
  (61, 1),
  (59, 0)] : List (Nat × Int)).all
    (fun (s, n) => pureIs (Duration.asMinutes ⟨false, ⟨s, 0⟩⟩) n && pureIs (Duration.asMinutes ⟨true, ⟨s, 0⟩⟩) (-n)) = true := by decide +kernel

/-- fundu-core/src/time.rs:2014 `test_fundu_duration_as_nanos`: 11 cases -/
example : ([
  (⟨false, ⟨0, 0⟩⟩, 0),
  (⟨false, ⟨1, 0⟩⟩, 1000000000),
  (⟨false, ⟨1, 1⟩⟩, 1000000001),
  (⟨false, ⟨1, 1⟩⟩, 1000000001),
  (⟨false, ⟨2, 0⟩⟩, 2000000000),
  (⟨false, ⟨2, 1⟩⟩, 2000000001),
  (⟨false, ⟨2, 1000⟩⟩, 2000001000),
  (⟨false, ⟨2, 1000000⟩⟩, 2001000000),
  (⟨false, ⟨123456789, 987654321⟩⟩, 123456789987654321),
  (⟨false, ⟨18446744073709551615, 999999999⟩⟩, 18446744073709551615999999999),
  (⟨true, ⟨18446744073709551615, 999999999⟩⟩, (-18446744073709551615999999999))] : List (Duration × Int)).all
    (fun (d, n) => pureIs d.asNanos n && pureIs d.neg.asNanos (-n)) = true := by decide +kernel

/-- fundu-core/src/time.rs:2020 `test_fundu_duration_as_micros`: 11 cases -/
example : ([
  (⟨false, ⟨0, 0⟩⟩, 0),
  (⟨false, ⟨1, 0⟩⟩, 1000000000),
  (⟨false, ⟨1, 1⟩⟩, 1000000001),
  (⟨false, ⟨1, 1⟩⟩, 1000000001),
  (⟨false, ⟨2, 0⟩⟩, 2000000000),
  (⟨false, ⟨2, 1⟩⟩, 2000000001),
  (⟨false, ⟨2, 1000⟩⟩, 2000001000),
  (⟨false, ⟨2, 1000000⟩⟩, 2001000000),
  (⟨false, ⟨123456789, 987654321⟩⟩, 123456789987654321),
  (⟨false, ⟨18446744073709551615, 999999999⟩⟩, 18446744073709551615999999999),
  (⟨true, ⟨18446744073709551615, 999999999⟩⟩, (-18446744073709551615999999999))] : List (Duration × Int)).all
    (fun (d, n) => pureIs d.asMicros (n.tdiv 1000) && pureIs d.neg.asMicros ((-n).tdiv 1000)) = true := by decide +kernel

/-- fundu-core/src/time.rs:2026 `test_fundu_duration_as_millis`: 11 cases -/
example : ([
  (⟨false, ⟨0, 0⟩⟩, 0),
  (⟨false, ⟨1, 0⟩⟩, 1000000000),
  (⟨false, ⟨1, 1⟩⟩, 1000000001),
  (⟨false, ⟨1, 1⟩⟩, 1000000001),
  (⟨false, ⟨2, 0⟩⟩, 2000000000),
  (⟨false, ⟨2, 1⟩⟩, 2000000001),
  (⟨false, ⟨2, 1000⟩⟩, 2000001000),
  (⟨false, ⟨2, 1000000⟩⟩, 2001000000),
  (⟨false, ⟨123456789, 987654321⟩⟩, 123456789987654321),
  (⟨false, ⟨18446744073709551615, 999999999⟩⟩, 18446744073709551615999999999),
  (⟨true, ⟨18446744073709551615, 999999999⟩⟩, (-18446744073709551615999999999))] : List (Duration × Int)).all
    (fun (d, n) => pureIs d.asMillis (n.tdiv 1000000) && pureIs d.neg.asMillis ((-n).tdiv 1000000)) = true := by decide +kernel

/-- fundu-core/src/time.rs:2045 `test_fundu_duration_subsec_nanos`: 9 cases -/
example : ([
  (⟨false, ⟨0, 0⟩⟩, 0),
  (⟨false, ⟨1, 0⟩⟩, 0),
  (⟨false, ⟨1, 1⟩⟩, 1),
  (⟨false, ⟨0, 2⟩⟩, 2),
  (⟨false, ⟨0, 1000⟩⟩, 1000),
  (⟨false, ⟨0, 1000000⟩⟩, 1000000),
  (⟨false, ⟨0, 123456789⟩⟩, 123456789),
  (⟨false, ⟨18446744073709551615, 999999999⟩⟩, 999999999),
  (⟨true, ⟨18446744073709551615, 999999999⟩⟩, (-999999999))] : List (Duration × Int)).all
    (fun (d, n) => pureIs d.subsecNanos n && pureIs d.neg.subsecNanos (-n)) = true := by decide +kernel

/-- fundu-core/src/time.rs:2051 `test_fundu_duration_subsec_micros`: 9 cases -/
example : ([
  (⟨false, ⟨0, 0⟩⟩, 0),
  (⟨false, ⟨1, 0⟩⟩, 0),
  (⟨false, ⟨1, 1⟩⟩, 1),
  (⟨false, ⟨0, 2⟩⟩, 2),
  (⟨false, ⟨0, 1000⟩⟩, 1000),
  (⟨false, ⟨0, 1000000⟩⟩, 1000000),
  (⟨false, ⟨0, 123456789⟩⟩, 123456789),
  (⟨false, ⟨18446744073709551615, 999999999⟩⟩, 999999999),
  (⟨true, ⟨18446744073709551615, 999999999⟩⟩, (-999999999))] : List (Duration × Int)).all
    (fun (d, n) => pureIs d.subsecMicros (n.tdiv 1000) && pureIs d.neg.subsecMicros (-n.tdiv 1000)) = true := by decide +kernel

/-- fundu-core/src/time.rs:2058 `test_fundu_duration_subsec_millis`: 9 cases -/
example : ([
  (⟨false, ⟨0, 0⟩⟩, 0),
  (⟨false, ⟨1, 0⟩⟩, 0),
  (⟨false, ⟨1, 1⟩⟩, 1),
  (⟨false, ⟨0, 2⟩⟩, 2),
  (⟨false, ⟨0, 1000⟩⟩, 1000),
  (⟨false, ⟨0, 1000000⟩⟩, 1000000),
  (⟨false, ⟨0, 123456789⟩⟩, 123456789),
  (⟨false, ⟨18446744073709551615, 999999999⟩⟩, 999999999),
  (⟨true, ⟨18446744073709551615, 999999999⟩⟩, (-999999999))] : List (Duration × Int)).all
    (fun (d, n) => pureIs d.subsecMillis (n.tdiv 1000000) && pureIs d.neg.subsecMillis (-n.tdiv 1000000)) = true := by decide +kernel

/-- fundu-core/src/time.rs:2076 `test_fundu_duration_extract_i64`: 11 cases -/
example : ([
  ⟨false, ⟨0, 0⟩⟩,
  ⟨false, ⟨1, 0⟩⟩,
  ⟨false, ⟨1, 1⟩⟩,
  ⟨false, ⟨2, 0⟩⟩,
  ⟨false, ⟨2, 1⟩⟩,
  ⟨false, ⟨60, 0⟩⟩,
  ⟨false, ⟨61, 0⟩⟩,
  ⟨false, ⟨59, 0⟩⟩,
  ⟨false, ⟨123456789, 987654321⟩⟩,
  ⟨false, ⟨18446744073709551615, 999999999⟩⟩,
  ⟨true, ⟨18446744073709551615, 999999999⟩⟩] : List Duration).all
    (fun d => [2, 3, 4, 5, 60, U64_MAX / 2, U64_MAX].all fun f => numDurIs (d.extractI64 f) (expectedWhole d f) ⟨d.isNegative, ⟨d.inner.secs % f, d.inner.nanos⟩⟩) = true := by decide +kernel

/-- fundu-core/src/time.rs:2109 `test_fundu_duration_extract_weeks`: 3 cases -/
example : ([
  (⟨false, ⟨604800, 123⟩⟩, 1, ⟨false, ⟨0, 123⟩⟩),
  (⟨false, ⟨604801, 123⟩⟩, 1, ⟨false, ⟨1, 123⟩⟩),
  (⟨false, ⟨604799, 123⟩⟩, 0, ⟨false, ⟨604799, 123⟩⟩)] : List (Duration × Int × Duration)).all
    (fun (d, n, e) => numDurIs d.extractWeeks n e) = true := by decide +kernel

/-- fundu-core/src/time.rs:2132 `test_fundu_duration_extract_days`: 3 cases -/
example : ([
  (⟨false, ⟨86400, 123⟩⟩, 1, ⟨false, ⟨0, 123⟩⟩),
  (⟨false, ⟨86401, 123⟩⟩, 1, ⟨false, ⟨1, 123⟩⟩),
  (⟨false, ⟨86399, 123⟩⟩, 0, ⟨false, ⟨86399, 123⟩⟩)] : List (Duration × Int × Duration)).all
    (fun (d, n, e) => numDurIs d.extractDays n e) = true := by decide +kernel

/-- fundu-core/src/time.rs:2147 `test_fundu_duration_extract_hours`: 3 cases -/
example : ([
  (⟨false, ⟨3600, 123⟩⟩, 1, ⟨false, ⟨0, 123⟩⟩),
  (⟨false, ⟨3601, 123⟩⟩, 1, ⟨false, ⟨1, 123⟩⟩),
  (⟨false, ⟨3599, 123⟩⟩, 0, ⟨false, ⟨3599, 123⟩⟩)] : List (Duration × Int × Duration)).all
    (fun (d, n, e) => numDurIs d.extractHours n e) = true := by decide +kernel

/-- fundu-core/src/time.rs:2162 `test_fundu_duration_extract_minutes`: 3 cases -/
example : ([
  (⟨false, ⟨60, 123⟩⟩, 1, ⟨false, ⟨0, 123⟩⟩),
  (⟨false, ⟨61, 123⟩⟩, 1, ⟨false, ⟨1, 123⟩⟩),
  (⟨false, ⟨59, 123⟩⟩, 0, ⟨false, ⟨59, 123⟩⟩)] : List (Duration × Int × Duration)).all
    (fun (d, n, e) => numDurIs d.extractMinutes n e) = true := by decide +kernel

/-- fundu-core/src/time.rs:2184 `test_fundu_duration_extract_seconds`: 6 cases -/
example : ([
  (⟨false, ⟨0, 0⟩⟩, 0, ⟨false, ⟨0, 0⟩⟩),
  (⟨false, ⟨1, 123⟩⟩, 1, ⟨false, ⟨0, 123⟩⟩),
  (⟨false, ⟨2, 123⟩⟩, 2, ⟨false, ⟨0, 123⟩⟩),
  (⟨false, ⟨0, 123⟩⟩, 0, ⟨false, ⟨0, 123⟩⟩),
  (⟨false, ⟨18446744073709551615, 999999999⟩⟩, 18446744073709551615, ⟨false, ⟨0, 999999999⟩⟩),
  (⟨true, ⟨18446744073709551615, 999999999⟩⟩, (-18446744073709551615), ⟨true, ⟨0, 999999999⟩⟩)] : List (Duration × Int × Duration)).all
    (fun (d, n, e) => numDurIs d.extractSeconds n e && numDurIs d.neg.extractSeconds (-n) e.neg) = true := by decide +kernel

/-- fundu-core/src/time.rs:2261 `test_duration_partial_and_total_ordering`: 16 cases -/
example : ([
  (⟨false, ⟨0, 0⟩⟩, ⟨false, ⟨0, 0⟩⟩, .eq),
  (⟨true, ⟨0, 0⟩⟩, ⟨true, ⟨0, 0⟩⟩, .eq),
  (⟨true, ⟨0, 0⟩⟩, ⟨false, ⟨0, 0⟩⟩, .eq),
  (⟨false, ⟨1, 0⟩⟩, ⟨false, ⟨1, 0⟩⟩, .eq),
  (⟨true, ⟨1, 0⟩⟩, ⟨true, ⟨1, 0⟩⟩, .eq),
  (⟨true, ⟨1, 0⟩⟩, ⟨false, ⟨1, 0⟩⟩, .lt),
  (⟨false, ⟨0, 0⟩⟩, ⟨false, ⟨0, 1⟩⟩, .lt),
  (⟨false, ⟨0, 0⟩⟩, ⟨true, ⟨0, 1⟩⟩, .gt),
  (⟨false, ⟨18446744073709551615, 999999999⟩⟩, ⟨false, ⟨18446744073709551615, 999999999⟩⟩, .eq),
  (⟨false, ⟨18446744073709551615, 999999999⟩⟩, ⟨false, ⟨18446744073709551615, 999999998⟩⟩, .gt),
  (⟨true, ⟨18446744073709551615, 999999999⟩⟩, ⟨true, ⟨18446744073709551615, 999999999⟩⟩, .eq),
  (⟨true, ⟨18446744073709551615, 999999999⟩⟩, ⟨true, ⟨18446744073709551615, 999999998⟩⟩, .lt),
  (⟨true, ⟨18446744073709551615, 999999999⟩⟩, ⟨false, ⟨18446744073709551615, 999999999⟩⟩, .lt),
  (⟨false, ⟨123, 987⟩⟩, ⟨false, ⟨987, 123⟩⟩, .lt),
  (⟨true, ⟨123, 987⟩⟩, ⟨true, ⟨987, 123⟩⟩, .gt),
  (⟨false, ⟨123, 987⟩⟩, ⟨true, ⟨987, 123⟩⟩, .gt)] : List (Duration × Duration × Ordering)).all
    (fun (a, b, o) => a.cmp b = o && b.cmp a = o.swap) = true := by decide +kernel

/-- fundu-core/src/time.rs:2278 `test_duration_hash_and_eq_property_when_equal`: 7 cases -/
example : ([
  (⟨false, ⟨0, 0⟩⟩, ⟨false, ⟨0, 0⟩⟩),
  (⟨true, ⟨0, 0⟩⟩, ⟨true, ⟨0, 0⟩⟩),
  (⟨true, ⟨0, 0⟩⟩, ⟨false, ⟨0, 0⟩⟩),
  (⟨false, ⟨1, 0⟩⟩, ⟨false, ⟨1, 0⟩⟩),
  (⟨true, ⟨1, 0⟩⟩, ⟨true, ⟨1, 0⟩⟩),
  (⟨false, ⟨18446744073709551615, 999999999⟩⟩, ⟨false, ⟨18446744073709551615, 999999999⟩⟩),
  (⟨true, ⟨18446744073709551615, 999999999⟩⟩, ⟨true, ⟨18446744073709551615, 999999999⟩⟩)] : List (Duration × Duration)).all
    (fun (a, b) => a.eq b && b.eq a && a.hashData = b.hashData) = true := by decide +kernel

/-- fundu-core/src/time.rs:2300 `test_duration_hash_and_eq_property_when_not_equal`: 5 cases -/
example : ([
  (⟨false, ⟨0, 0⟩⟩, ⟨false, ⟨1, 0⟩⟩),
  (⟨false, ⟨0, 0⟩⟩, ⟨true, ⟨1, 0⟩⟩),
  (⟨false, ⟨1, 0⟩⟩, ⟨true, ⟨2, 0⟩⟩),
  (⟨false, ⟨1, 0⟩⟩, ⟨true, ⟨1, 0⟩⟩),
  (⟨true, ⟨18446744073709551615, 999999999⟩⟩, ⟨false, ⟨18446744073709551615, 999999999⟩⟩)] : List (Duration × Duration)).all
    (fun (a, b) => !a.eq b && !b.eq a && a.hashData ≠ b.hashData) = true := by decide +kernel

/-- fundu-core/src/time.rs:2324 `test_fundu_duration_saturating_into_std_duration`: 7 cases -/
example : ([
  (⟨false, ⟨0, 0⟩⟩, ⟨0, 0⟩),
  (⟨true, ⟨0, 0⟩⟩, ⟨0, 0⟩),
  (⟨false, ⟨1, 0⟩⟩, ⟨1, 0⟩),
  (⟨false, ⟨0, 1⟩⟩, ⟨0, 1⟩),
  (⟨true, ⟨1, 0⟩⟩, ⟨0, 0⟩),
  (⟨true, ⟨0, 1⟩⟩, ⟨0, 0⟩),
  (⟨false, ⟨18446744073709551615, 999999999⟩⟩, ⟨18446744073709551615, 999999999⟩)] : List (Duration × StdDuration)).all
    (fun (d, e) => pureIs d.saturatingToStd e) = true := by decide +kernel

/-- fundu-core/src/time.rs:2358 `test_fundu_duration_saturating_into_time_duration`: 10 cases -/
example : ([
  (⟨false, ⟨0, 0⟩⟩, ⟨0, 0⟩),
  (⟨true, ⟨0, 0⟩⟩, ⟨0, 0⟩),
  (⟨false, ⟨1, 0⟩⟩, (get (TimeDuration.new 1 0))),
  (⟨true, ⟨1, 0⟩⟩, (get (TimeDuration.new (-1) 0))),
  (⟨true, ⟨9223372036854775808, 999999999⟩⟩, ⟨-9223372036854775808, -999999999⟩),
  (⟨true, ⟨9223372036854775809, 0⟩⟩, ⟨-9223372036854775808, -999999999⟩),
  (⟨true, ⟨18446744073709551615, 999999999⟩⟩, ⟨-9223372036854775808, -999999999⟩),
  (⟨false, ⟨9223372036854775807, 999999999⟩⟩, ⟨9223372036854775807, 999999999⟩),
  (⟨false, ⟨9223372036854775808, 999999999⟩⟩, ⟨9223372036854775807, 999999999⟩),
  (⟨false, ⟨18446744073709551615, 999999999⟩⟩, ⟨9223372036854775807, 999999999⟩)] : List (Duration × TimeDuration)).all
    (fun (d, e) => pureIs d.saturatingToTime e) = true := by decide +kernel

/-- fundu-core/src/time.rs:2398 `test_fundu_duration_saturating_into_chrono_duration`: 10 cases -/
example : ([
  (⟨false, ⟨0, 0⟩⟩, ⟨0, 0⟩),
  (⟨true, ⟨0, 0⟩⟩, ⟨0, 0⟩),
  (⟨false, ⟨1, 0⟩⟩, ⟨1, 0⟩),
  (⟨true, ⟨1, 0⟩⟩, ⟨-1, 0⟩),
  (⟨true, ⟨9223372036854775, 808000000⟩⟩, ⟨-9223372036854776, 193000000⟩),
  (⟨true, ⟨9223372036854776, 0⟩⟩, ⟨-9223372036854776, 193000000⟩),
  (⟨true, ⟨18446744073709551615, 999999999⟩⟩, ⟨-9223372036854776, 193000000⟩),
  (⟨false, ⟨9223372036854775, 807000000⟩⟩, ⟨9223372036854775, 807000000⟩),
  (⟨false, ⟨9223372036854776, 807000000⟩⟩, ⟨9223372036854775, 807000000⟩),
  (⟨false, ⟨18446744073709551615, 999999999⟩⟩, ⟨9223372036854775, 807000000⟩)] : List (Duration × ChronoDuration)).all
    (fun (d, e) => pureIs d.saturatingToChrono e) = true := by decide +kernel

/-- fundu-core/src/time.rs:2413 `test_std_duration_try_from_for_fundu_duration_then_error`: 4 cases -/
example : ([
  ⟨true, ⟨1, 0⟩⟩,
  ⟨true, ⟨0, 1⟩⟩,
  ⟨true, ⟨1, 1⟩⟩,
  ⟨true, ⟨18446744073709551615, 999999999⟩⟩] : List Duration).all
    (fun d => match d.toStd with | .error e => e = .negativeDuration | _ => false) = true := by decide +kernel

/-- fundu-core/src/time.rs:2466 `test_chrono_duration_try_from_fundu_duration`: 14 cases -/
example : ([
  (⟨false, ⟨0, 0⟩⟩, ⟨0, 0⟩),
  (⟨true, ⟨0, 0⟩⟩, ⟨0, 0⟩),
  (⟨false, ⟨1, 0⟩⟩, ⟨1, 0⟩),
  (⟨false, ⟨1, 1⟩⟩, ⟨1, 1⟩),
  (⟨true, ⟨1, 0⟩⟩, ⟨-1, 0⟩),
  (⟨true, ⟨1, 1⟩⟩, ⟨-2, 999999999⟩),
  (⟨false, ⟨0, 999999999⟩⟩, ⟨0, 999999999⟩),
  (⟨true, ⟨0, 999999999⟩⟩, ⟨-1, 1⟩),
  (⟨false, ⟨9223372036854775, 0⟩⟩, ⟨9223372036854775, 0⟩),
  (⟨false, ⟨9223372036854775, 807000000⟩⟩, ⟨9223372036854775, 807000000⟩),
  (⟨false, ⟨9223372036854775, 806999999⟩⟩, ⟨9223372036854775, 806999999⟩),
  (⟨true, ⟨9223372036854775, 0⟩⟩, ⟨-9223372036854775, 0⟩),
  (⟨true, ⟨9223372036854775, 807000000⟩⟩, ⟨-9223372036854776, 193000000⟩),
  (⟨true, ⟨9223372036854775, 806999999⟩⟩, ⟨-9223372036854776, 193000001⟩)] : List (Duration × ChronoDuration)).all
    (fun (d, e) => match d.toChrono with | .ok (.ok x) => x = e | _ => false) = true := by decide +kernel

/-- fundu-core/src/time.rs:2500 `test_chrono_duration_try_from_fundu_duration_then_error`: 6 cases -/
example : ([
  (⟨false, ⟨9223372036854776, 0⟩⟩, .positiveOverflow),
  (⟨false, ⟨9223372036854775, 807000001⟩⟩, .positiveOverflow),
  (⟨false, ⟨18446744073709551615, 999999999⟩⟩, .positiveOverflow),
  (⟨true, ⟨9223372036854776, 0⟩⟩, .negativeOverflow),
  (⟨true, ⟨9223372036854775, 808000001⟩⟩, .negativeOverflow),
  (⟨true, ⟨18446744073709551615, 999999999⟩⟩, .negativeOverflow)] : List (Duration × TryFromDurationError)).all
    (fun (d, e) => match d.toChrono with | .ok (.error x) => x = e | _ => false) = true := by decide +kernel

/-- fundu-core/src/time.rs:2510 `test_time_duration_try_from_fundu_duration` -/
example : (match Duration.toTime ⟨false, ⟨1, 0⟩⟩ with | .ok (.ok x) => x = ⟨1, 0⟩ | _ => false) = true := by decide +kernel

/-- fundu-core/src/time.rs:2533 `test_fundu_duration_from_std_time_duration`: 4 cases -/
example : ([
  (⟨0, 0⟩, ⟨false, ⟨0, 0⟩⟩),
  (⟨1, 0⟩, ⟨false, ⟨1, 0⟩⟩),
  (⟨1, 123456789⟩, ⟨false, ⟨1, 123456789⟩⟩),
  (⟨18446744073709551615, 999999999⟩, ⟨false, ⟨18446744073709551615, 999999999⟩⟩)] : List (StdDuration × Duration)).all
    (fun (d, e) => (Duration.ofStd d).eq e) = true := by decide +kernel

/-- fundu-core/src/time.rs:2557 `test_fundu_duration_from_time_duration`: 9 cases -/
example : ([
  (⟨0, 0⟩, ⟨false, ⟨0, 0⟩⟩),
  ((get (TimeDuration.new 1 0)), ⟨false, ⟨1, 0⟩⟩),
  ((get (TimeDuration.new 0 1)), ⟨false, ⟨0, 1⟩⟩),
  ((get (TimeDuration.new (-1) 0)), ⟨true, ⟨1, 0⟩⟩),
  ((get (TimeDuration.new 0 (-1))), ⟨true, ⟨0, 1⟩⟩),
  ((get (TimeDuration.new 1 (-1))), ⟨false, ⟨0, 999999999⟩⟩),
  ((get (TimeDuration.new (-1) 1)), ⟨true, ⟨0, 999999999⟩⟩),
  (⟨-9223372036854775808, -999999999⟩, ⟨true, ⟨9223372036854775808, 999999999⟩⟩),
  (⟨9223372036854775807, 999999999⟩, ⟨false, ⟨9223372036854775807, 999999999⟩⟩)] : List (TimeDuration × Duration)).all
    (fun (d, e) => durIs (Duration.ofTime d) e) = true := by decide +kernel

/-- fundu-core/src/time.rs:2573 `test_fundu_duration_from_chrono_duration`: 7 cases -/
example : ([
  (⟨0, 0⟩, ⟨false, ⟨0, 0⟩⟩),
  (⟨1, 0⟩, ⟨false, ⟨1, 0⟩⟩),
  (⟨0, 1⟩, ⟨false, ⟨0, 1⟩⟩),
  (⟨-1, 0⟩, ⟨true, ⟨1, 0⟩⟩),
  (⟨-1, 999999999⟩, ⟨true, ⟨0, 1⟩⟩),
  (⟨-9223372036854776, 193000000⟩, ⟨true, ⟨9223372036854775, 807000000⟩⟩),
  (⟨9223372036854775, 807000000⟩, ⟨false, ⟨9223372036854775, 807000000⟩⟩)] : List (ChronoDuration × Duration)).all
    (fun (d, e) => durIs (Duration.ofChrono d) e) = true := by decide +kernel

end Fundu.Conformance.Time
