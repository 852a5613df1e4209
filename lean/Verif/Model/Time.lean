import Verif.Model.Prim
/-!
# Model of fundu-core/src/time.rs

`TimeUnit`, `Multiplier`, `Duration` with all methods and conversions. The external types
`std::time::Duration`, `time::Duration` (0.3) and `chrono::Duration` (0.4) are modelled from their
documentation; this is part of the trusted base (DESIGN.md).
-/
namespace Fundu

/-- time.rs:78-106 `enum TimeUnit` -/
inductive TimeUnit where
  | nanoSecond | microSecond | milliSecond | second | minute | hour | day | week | month | year
  deriving DecidableEq, Repr, Inhabited

namespace TimeUnit

/-- `as usize` of the fieldless enum, time.rs:78-106 (declaration order); also its derived `Ord` -/
def index : TimeUnit → Nat
  | nanoSecond => 0 | microSecond => 1 | milliSecond => 2 | second => 3 | minute => 4
  | hour => 5 | day => 6 | week => 7 | month => 8 | year => 9

/-- time.rs:20-38, time.rs:115-128 `default_identifier` -/
def defaultIdentifier : TimeUnit → Bytes
  | nanoSecond => b! "ns"
  | microSecond => b! "Ms"
  | milliSecond => b! "ms"
  | second => b! "s"
  | minute => b! "m"
  | hour => b! "h"
  | day => b! "d"
  | week => b! "w"
  | month => b! "M"
  | year => b! "y"

end TimeUnit

/-- time.rs:376 `struct Multiplier(pub i64, pub i16)` -/
structure Multiplier where
  coefficient : Int
  exponent : Int
  deriving DecidableEq, Repr

namespace Multiplier

/-- the invariant given by the field types `i64`, `i16` -/
def WF (m : Multiplier) : Prop := IsI64 m.coefficient ∧ IsI16 m.exponent
instance (m : Multiplier) : Decidable m.WF := by unfold WF; infer_instance

/-- time.rs:378-382 `Default` -/
def default : Multiplier := ⟨1, 0⟩

/-- time.rs:441-443 `is_positive`: `self.0 == 0 || self.0.is_positive()` -/
def isPositive (m : Multiplier) : Bool := m.coefficient = 0 || decide (0 < m.coefficient)

/-- time.rs:426-428 `is_negative` -/
def isNegative (m : Multiplier) : Bool := !m.isPositive

/-- time.rs:468-475 `checked_mul` -/
def checkedMul (a b : Multiplier) : Option Multiplier :=
  match checkedI64 (a.coefficient * b.coefficient) with
  | some c =>
    match checkedI16 (a.exponent + b.exponent) with
    | some e => some ⟨c, e⟩
    | none => none
  | none => none

/-- time.rs:493-495 `saturating_neg` -/
def saturatingNeg (m : Multiplier) : Multiplier := ⟨saturatingNegI64 m.coefficient, m.exponent⟩

/-- time.rs:498-505 `impl Mul`: `checked_mul(..).expect(..)` -/
def mul (a b : Multiplier) : Except Panic Multiplier := unwrap (a.checkedMul b)

end Multiplier

/-- time.rs:139-153 `TimeUnit::multiplier` -/
def TimeUnit.multiplier : TimeUnit → Multiplier
  | nanoSecond => ⟨1, -9⟩
  | microSecond => ⟨1, -6⟩
  | milliSecond => ⟨1, -3⟩
  | second => ⟨1, 0⟩
  | minute => ⟨60, 0⟩
  | hour => ⟨3600, 0⟩
  | day => ⟨86400, 0⟩
  | week => ⟨604800, 0⟩
  | month => ⟨2629800, 0⟩
  | year => ⟨31557600, 0⟩

/-! ## std::time::Duration -/

/-- `std::time::Duration` (trusted model: seconds and nanoseconds below one second) -/
structure StdDuration where
  secs : Nat
  nanos : Nat
  deriving DecidableEq, Repr

namespace StdDuration

/-- invariant of `std::time::Duration` -/
def WF (d : StdDuration) : Prop := d.secs ≤ U64_MAX ∧ d.nanos < 1000000000
instance (d : StdDuration) : Decidable d.WF := by unfold WF; infer_instance

/-- `std::time::Duration::ZERO` -/
def ZERO : StdDuration := ⟨0, 0⟩
/-- `std::time::Duration::MAX` -/
def MAX : StdDuration := ⟨18446744073709551615, 999999999⟩

/-- `std::time::Duration::new(secs: u64, nanos: u32)`: carries whole seconds of `nanos`, panics on
overflow -/
def new (secs nanos : Nat) : Except Panic StdDuration :=
  if nanos < 1000000000 then .ok ⟨secs, nanos⟩
  else if secs + nanos / 1000000000 ≤ U64_MAX then
    .ok ⟨secs + nanos / 1000000000, nanos % 1000000000⟩
  else .error .overflow

/-- `std::time::Duration::is_zero` -/
def isZero (d : StdDuration) : Bool := d.secs = 0 && d.nanos = 0

/-- derived `Ord` (lexicographic on the fields) of `std::time::Duration` -/
def cmp (a b : StdDuration) : Ordering := (compare a.secs b.secs).then (compare a.nanos b.nanos)

/-- `std::time::Duration::checked_add` -/
def checkedAdd (a b : StdDuration) : Option StdDuration :=
  match checkedU64 (a.secs + b.secs) with
  | none => none
  | some secs =>
    if a.nanos + b.nanos < 1000000000 then some ⟨secs, a.nanos + b.nanos⟩
    else
      match checkedU64 (secs + 1) with
      | none => none
      | some secs => some ⟨secs, a.nanos + b.nanos - 1000000000⟩

/-- `std::time::Duration::checked_sub` -/
def checkedSub (a b : StdDuration) : Option StdDuration :=
  if a.secs < b.secs then none
  else if b.nanos ≤ a.nanos then some ⟨a.secs - b.secs, a.nanos - b.nanos⟩
  else if a.secs - b.secs = 0 then none
  else some ⟨a.secs - b.secs - 1, a.nanos + 1000000000 - b.nanos⟩

/-- `impl Sub for std::time::Duration`: panics on overflow -/
def sub (a b : StdDuration) : Except Panic StdDuration :=
  match a.checkedSub b with
  | some d => .ok d
  | none => .error .overflow

end StdDuration

/-! ## Duration -/

/-- time.rs:549-552 `struct Duration` -/
structure Duration where
  isNegative : Bool
  inner : StdDuration
  deriving DecidableEq, Repr

namespace Duration

/-- the invariant given by the field types -/
def WF (d : Duration) : Prop := d.inner.WF
instance (d : Duration) : Decidable d.WF := by unfold WF; infer_instance

/-- time.rs:565-568 -/
def ZERO : Duration := ⟨false, StdDuration.ZERO⟩
/-- time.rs:580-583 -/
def MIN : Duration := ⟨true, StdDuration.MAX⟩
/-- time.rs:595-598 -/
def MAX : Duration := ⟨false, StdDuration.MAX⟩

/-- time.rs:613-615 `from_std` -/
def fromStd (isNegative : Bool) (inner : StdDuration) : Duration := ⟨isNegative, inner⟩

/-- time.rs:635-640 `positive` -/
def positive (secs nanos : Nat) : Except Panic Duration := do
  return ⟨false, ← StdDuration.new secs nanos⟩

/-- time.rs:657-662 `negative` -/
def negative (secs nanos : Nat) : Except Panic Duration := do
  return ⟨true, ← StdDuration.new secs nanos⟩

/-- time.rs:665-671 `as_whole`; `as i64` is modelled with its wrap around, unary minus with its
overflow panic -/
def asWhole (d : Duration) (factor : Nat) : Except Panic Int := do
  assert (decide (1 < factor))
  let result := asI64 ((d.inner.secs / factor : Nat) : Int)
  if d.isNegative then arithI64 (-result) else return result

/-- time.rs:686-688 -/
def asWeeks (d : Duration) : Except Panic Int := d.asWhole (86400 * 7)
/-- time.rs:703-705 -/
def asDays (d : Duration) : Except Panic Int := d.asWhole 86400
/-- time.rs:720-722 -/
def asHours (d : Duration) : Except Panic Int := d.asWhole 3600
/-- time.rs:737-739 -/
def asMinutes (d : Duration) : Except Panic Int := d.asWhole 60

/-- time.rs:754-757 `as_seconds` (`u64 as i128` is the identity) -/
def asSeconds (d : Duration) : Except Panic Int :=
  if d.isNegative then arithI128 (-(d.inner.secs : Int)) else .ok (d.inner.secs : Int)

/-- time.rs:855-859 `subsec_nanos` -/
def subsecNanos (d : Duration) : Except Panic Int :=
  let nanos := asI32 (d.inner.nanos : Int)
  if d.isNegative then arithI32 (-nanos) else .ok nanos

/-- time.rs:823-825 `subsec_millis`: Rust `/` truncates -/
def subsecMillis (d : Duration) : Except Panic Int := do
  return (← d.subsecNanos).tdiv 1000000

/-- time.rs:839-841 `subsec_micros` -/
def subsecMicros (d : Duration) : Except Panic Int := do
  return (← d.subsecNanos).tdiv 1000

/-- time.rs:772-774 `as_millis` -/
def asMillis (d : Duration) : Except Panic Int := do
  let a ← arithI128 ((← d.asSeconds) * 1000)
  arithI128 (a + (← d.subsecMillis))

/-- time.rs:789-791 `as_micros` -/
def asMicros (d : Duration) : Except Panic Int := do
  let a ← arithI128 ((← d.asSeconds) * 1000000)
  arithI128 (a + (← d.subsecMicros))

/-- time.rs:806-808 `as_nanos` -/
def asNanos (d : Duration) : Except Panic Int := do
  let a ← arithI128 ((← d.asSeconds) * 1000000000)
  arithI128 (a + (← d.subsecNanos))

/-- time.rs:861-876 `extract_i64`: returns the extracted value and the new `self` -/
def extractI64 (d : Duration) (factor : Nat) : Except Panic (Int × Duration) := do
  assert (decide (1 < factor))
  let secs := d.inner.secs
  let extracted ← unwrap (checkedI64 ((secs / factor : Nat) : Int))
  if 0 < extracted then
    let inner ← StdDuration.new (secs % factor) d.inner.nanos
    let d' := { d with inner := inner }
    if d.isNegative then
      return (← arithI64 (-extracted), d')
    else
      return (extracted, d')
  else
    return (0, d)

/-- time.rs:894-896 -/
def extractWeeks (d : Duration) : Except Panic (Int × Duration) := d.extractI64 (86400 * 7)
/-- time.rs:914-916 -/
def extractDays (d : Duration) : Except Panic (Int × Duration) := d.extractI64 86400
/-- time.rs:934-936 -/
def extractHours (d : Duration) : Except Panic (Int × Duration) := d.extractI64 3600
/-- time.rs:954-956 -/
def extractMinutes (d : Duration) : Except Panic (Int × Duration) := d.extractI64 60

/-- time.rs:974-982 `extract_seconds` -/
def extractSeconds (d : Duration) : Except Panic (Int × Duration) := do
  let extracted ← d.asSeconds
  if extracted = 0 then return (0, d)
  else
    let inner ← StdDuration.new 0 d.inner.nanos
    return (extracted, { d with inner := inner })

/-- time.rs:1037-1039 `is_zero` -/
def isZero (d : Duration) : Bool := d.inner.isZero

/-- time.rs:1060-1062 `abs` -/
def abs (d : Duration) : Duration := fromStd false d.inner

/-- time.rs:1285-1294 `impl Neg` -/
def neg (d : Duration) : Duration := ⟨Bool.xor d.isNegative true, d.inner⟩

/-- time.rs:1084-1112 `checked_add`. `self.inner.sub(..)` may panic, hence the `Except`. -/
def checkedAdd (a b : Duration) : Except Panic (Option Duration) :=
  match a.isNegative, b.isNegative, a.inner.cmp b.inner with
  | true, true, _ => .ok ((a.inner.checkedAdd b.inner).map (fromStd true))
  | true, false, .eq | false, true, .eq => .ok (some ZERO)
  | true, false, .gt => do return some (fromStd true (← a.inner.sub b.inner))
  | true, false, .lt => do return some (fromStd false (← b.inner.sub a.inner))
  | false, true, .gt => do return some (fromStd false (← a.inner.sub b.inner))
  | false, true, .lt => do return some (fromStd true (← b.inner.sub a.inner))
  | false, false, _ => .ok ((a.inner.checkedAdd b.inner).map (fromStd false))

/-- time.rs:1131-1133 `checked_sub` -/
def checkedSub (a b : Duration) : Except Panic (Option Duration) := a.checkedAdd b.neg

/-- time.rs:1152-1160 `saturating_add` -/
def saturatingAdd (a b : Duration) : Except Panic Duration := do
  match ← a.checkedAdd b with
  | some d => return d
  | none => if a.isNegative then return MIN else return MAX

/-- time.rs:1180-1182 `saturating_sub` -/
def saturatingSub (a b : Duration) : Except Panic Duration := a.saturatingAdd b.neg

/-- time.rs:1255-1262 `impl Add` (and time.rs:1264-1268 `AddAssign`) -/
def add (a b : Duration) : Except Panic Duration := do unwrap (← a.checkedAdd b)

/-- time.rs:1270-1277 `impl Sub` (and time.rs:1279-1283 `SubAssign`) -/
def sub (a b : Duration) : Except Panic Duration := do unwrap (← a.checkedSub b)

/-- time.rs:1296-1301 `impl PartialEq` -/
def eq (a b : Duration) : Bool :=
  (a.isZero && b.isZero) || (a.isNegative == b.isNegative && a.inner == b.inner)

/-- time.rs:1303-1312 `impl Hash`: the data fed to the hasher (the sign flag, then the derived hash of
the inner `std::time::Duration`, which feeds its fields) -/
def hashData (d : Duration) : Bool × Nat × Nat :=
  (if d.isZero then false else d.isNegative, d.inner.secs, d.inner.nanos)

/-- time.rs:1320-1330 `impl Ord` (time.rs:1314-1318 `PartialOrd` is `Some` of it) -/
def cmp (a b : Duration) : Ordering :=
  match a.isNegative, b.isNegative with
  | true, true => b.inner.cmp a.inner
  | true, false => if a.isZero && b.isZero then .eq else .lt
  | false, true => if a.isZero && b.isZero then .eq else .gt
  | false, false => a.inner.cmp b.inner

/-! ### Display -/

/-- worker of `decDigits`: prepends the decimal digits of `n` -/
def decDigitsAux : Nat → Nat → Bytes → Bytes
  | 0, _, acc => acc
  | fuel + 1, n, acc =>
    let acc := UInt8.ofNat (48 + n % 10) :: acc
    if n / 10 = 0 then acc else decDigitsAux fuel (n / 10) acc

/-- `format!("{}", n)` for an unsigned integer (core library): decimal digits without leading zeros -/
def decDigits (n : Nat) : Bytes := decDigitsAux (n + 1) n []

/-- one `if secs >= UNIT { result.push(format!("{}id", secs / UNIT)); secs %= UNIT; }` step of
time.rs:1203-1229 and 1234-1244; the state is the value left and the parts pushed so far -/
def displayStep (unit : Nat) (id : Bytes) (st : Nat × List Bytes) : Nat × List Bytes :=
  if unit ≤ st.1 then (st.1 % unit, st.2 ++ [decDigits (st.1 / unit) ++ id]) else st

/-- time.rs:1199-1245: the parts pushed to `result`. (The guards `secs > 0`/`nanos > 0` only skip steps
which push nothing; the last step of each group does not reduce the value, which is not used again.) -/
def displayParts (d : Duration) : List Bytes :=
  let s := (d.inner.secs, ([] : List Bytes))
  let s := displayStep 31557600 (b! "y") s
  let s := displayStep 2629800 (b! "M") s
  let s := displayStep 604800 (b! "w") s
  let s := displayStep 86400 (b! "d") s
  let s := displayStep 3600 (b! "h") s
  let s := displayStep 60 (b! "m") s
  let s := displayStep 1 (b! "s") s
  let n := (d.inner.nanos, s.2)
  let n := displayStep 1000000 (b! "ms") n
  let n := displayStep 1000 (b! "Ms") n
  let n := displayStep 1 (b! "ns") n
  n.2

/-- `[_]::join` of the standard library -/
def join (sep : Bytes) : List Bytes → Bytes
  | [] => []
  | [x] => x
  | x :: y :: xs => x ++ sep ++ join sep (y :: xs)

/-- time.rs:1185-1253 `impl Display` -/
def display (d : Duration) : Bytes :=
  if d.isZero then b! "0ns"
  else if d.isNegative then b! "-" ++ join (b! " -") d.displayParts
  else join (b! " ") d.displayParts

end Duration

/-! ## Conversions -/

/-- error.rs:72-79 `enum TryFromDurationError` -/
inductive TryFromDurationError where
  | negativeDuration | positiveOverflow | negativeOverflow
  deriving DecidableEq, Repr

namespace Duration

/-- time.rs:1333-1340 `From<std::time::Duration>` -/
def ofStd (d : StdDuration) : Duration := ⟨false, d⟩

/-- time.rs:1352-1362 `TryFrom<Duration> for std::time::Duration` -/
def toStd (d : Duration) : Except TryFromDurationError StdDuration :=
  if !d.isZero && d.isNegative then .error .negativeDuration else .ok d.inner

/-- time.rs:1342-1349 `SaturatingInto<std::time::Duration>` -/
def saturatingToStd (d : Duration) : Except Panic StdDuration :=
  match d.toStd with
  | .ok s => .ok s
  | .error .negativeDuration => .ok StdDuration.ZERO
  | .error _ => .error .unreachable

end Duration

/-- `time::Duration` (crate time 0.3, trusted model): `seconds: i64`, `nanoseconds: i32` of the same sign,
absolute value below one second -/
structure TimeDuration where
  seconds : Int
  nanoseconds : Int
  deriving DecidableEq, Repr

namespace TimeDuration

/-- invariant of `time::Duration` -/
def WF (d : TimeDuration) : Prop :=
  IsI64 d.seconds ∧ -1000000000 < d.nanoseconds ∧ d.nanoseconds < 1000000000 ∧
  (0 < d.seconds → 0 ≤ d.nanoseconds) ∧ (d.seconds < 0 → d.nanoseconds ≤ 0)
instance (d : TimeDuration) : Decidable d.WF := by unfold WF; infer_instance

/-- `time::Duration::MAX` -/
def MAX : TimeDuration := ⟨9223372036854775807, 999999999⟩
/-- `time::Duration::MIN` -/
def MIN : TimeDuration := ⟨-9223372036854775808, -999999999⟩

/-- `time::Duration::is_negative` -/
def isNegative (d : TimeDuration) : Bool := decide (d.seconds < 0) || decide (d.nanoseconds < 0)

/-- `time::Duration::new(seconds: i64, nanoseconds: i32)`: carries, then aligns the signs; panics on
overflow -/
def new (seconds nanoseconds : Int) : Except Panic TimeDuration := do
  let s ← arithI64 (seconds + nanoseconds.tdiv 1000000000)
  let n := nanoseconds.tmod 1000000000
  if 0 < s ∧ n < 0 then return ⟨← arithI64 (s - 1), n + 1000000000⟩
  else if s < 0 ∧ 0 < n then return ⟨← arithI64 (s + 1), n - 1000000000⟩
  else return ⟨s, n⟩

end TimeDuration

namespace Duration

/-- time.rs:1368-1378 `From<time::Duration>` -/
def ofTime (d : TimeDuration) : Except Panic Duration := do
  return ⟨d.isNegative, ← StdDuration.new d.seconds.natAbs d.nanoseconds.natAbs⟩

/-- time.rs:1396-1413 `TryFrom<&Duration> for time::Duration` (time.rs:1384-1390 forwards). `wrapping_neg` on
`u64` is `(2^64 - secs) mod 2^64`. -/
def toTime (d : Duration) : Except Panic (Except TryFromDurationError TimeDuration) :=
  if d.isNegative then
    if d.inner.secs > I64_MIN.natAbs then .ok (.error .negativeOverflow)
    else do
      let n ← arithI32 (-(asI32 d.inner.nanos))
      return .ok (← TimeDuration.new
        (asI64 (((18446744073709551616 - d.inner.secs) % 18446744073709551616 : Nat) : Int)) n)
  else
    if d.inner.secs > I64_MAX.toNat then .ok (.error .positiveOverflow)
    else do
      return .ok (← TimeDuration.new (asI64 d.inner.secs) (asI32 d.inner.nanos))

/-- time.rs:1416-1424 `SaturatingInto<time::Duration>` -/
def saturatingToTime (d : Duration) : Except Panic TimeDuration := do
  match ← d.toTime with
  | .ok t => return t
  | .error .positiveOverflow => return TimeDuration.MAX
  | .error .negativeOverflow => return TimeDuration.MIN
  | .error .negativeDuration => .error .unreachable

end Duration

/-- `chrono::Duration` (chrono 0.4, trusted model): `secs: i64`, `nanos: i32` in `0..10^9`, standing for
`secs * 10^9 + nanos` nanoseconds -/
structure ChronoDuration where
  secs : Int
  nanos : Int
  deriving DecidableEq, Repr

namespace ChronoDuration

/-- `chrono::Duration::max_value()`: `i64::MAX` milliseconds -/
def MAX : ChronoDuration := ⟨9223372036854775, 807000000⟩
/-- `chrono::Duration::min_value()`: `-i64::MAX` milliseconds -/
def MIN : ChronoDuration := ⟨-9223372036854776, 193000000⟩

/-- derived `Ord`: `a ≤ b` -/
def le (a b : ChronoDuration) : Prop := a.secs < b.secs ∨ (a.secs = b.secs ∧ a.nanos ≤ b.nanos)
instance (a b : ChronoDuration) : Decidable (le a b) := by unfold le; infer_instance

/-- invariant of `chrono::Duration` -/
def WF (d : ChronoDuration) : Prop := 0 ≤ d.nanos ∧ d.nanos < 1000000000 ∧ le MIN d ∧ le d MAX
instance (d : ChronoDuration) : Decidable d.WF := by unfold WF; infer_instance

/-- `chrono::Duration::seconds`: panics out of bounds -/
def ofSeconds (s : Int) : Except Panic ChronoDuration :=
  let d : ChronoDuration := ⟨s, 0⟩
  if le MIN d ∧ le d MAX then .ok d else .error .overflow

/-- `chrono::Duration::nanoseconds` -/
def ofNanoseconds (n : Int) : ChronoDuration := ⟨n / 1000000000, n % 1000000000⟩

/-- `chrono::Duration::num_seconds` -/
def numSeconds (d : ChronoDuration) : Int :=
  if d.secs < 0 ∧ 0 < d.nanos then d.secs + 1 else d.secs

/-- `chrono::Duration::checked_add` -/
def checkedAdd (a b : ChronoDuration) : Option ChronoDuration := do
  let secs ← checkedI64 (a.secs + b.secs)
  let nanos := a.nanos + b.nanos
  let (secs, nanos) ←
    if 1000000000 ≤ nanos then do
      let secs ← checkedI64 (secs + 1)
      some (secs, nanos - 1000000000)
    else some (secs, nanos)
  let d : ChronoDuration := ⟨secs, nanos⟩
  if le MIN d ∧ le d MAX then some d else none

/-- `chrono::Duration::to_std`: `None` for an out of range (negative) duration -/
def toStd (d : ChronoDuration) : Option StdDuration :=
  if d.secs < 0 then none else some ⟨d.secs.toNat, d.nanos.toNat⟩

/-- `chrono::Duration::abs` -/
def abs (d : ChronoDuration) : ChronoDuration :=
  if d.secs < 0 ∧ d.nanos ≠ 0 then ⟨(d.secs + 1).natAbs, 1000000000 - d.nanos⟩
  else ⟨d.secs.natAbs, d.nanos⟩

end ChronoDuration

namespace Duration

/-- time.rs:1438-1467 `TryFrom<&Duration> for chrono::Duration` (time.rs:1428-1434 forwards) -/
def toChrono (d : Duration) : Except Panic (Except TryFromDurationError ChronoDuration) :=
  if d.isNegative then
    if d.inner.secs > ChronoDuration.MIN.numSeconds.natAbs then .ok (.error .negativeOverflow)
    else do
      let nanos := ChronoDuration.ofNanoseconds (← arithI64 (-(d.inner.nanos : Int)))
      let s ← ChronoDuration.ofSeconds (← arithI64 (-(asI64 d.inner.secs)))
      match s.checkedAdd nanos with
      | some c => return .ok c
      | none => return .error .negativeOverflow
  else
    if d.inner.secs > ChronoDuration.MAX.numSeconds.natAbs then .ok (.error .positiveOverflow)
    else do
      let nanos := ChronoDuration.ofNanoseconds (d.inner.nanos : Int)
      let s ← ChronoDuration.ofSeconds (asI64 d.inner.secs)
      match s.checkedAdd nanos with
      | some c => return .ok c
      | none => return .error .positiveOverflow

/-- time.rs:1470-1478 `SaturatingInto<chrono::Duration>` -/
def saturatingToChrono (d : Duration) : Except Panic ChronoDuration := do
  match ← d.toChrono with
  | .ok t => return t
  | .error .positiveOverflow => return ChronoDuration.MAX
  | .error .negativeOverflow => return ChronoDuration.MIN
  | .error .negativeDuration => .error .unreachable

/-- time.rs:1482-1495 `From<chrono::Duration>` -/
def ofChrono (d : ChronoDuration) : Except Panic Duration :=
  match d.toStd with
  | some inner => .ok ⟨false, inner⟩
  | none => do return ⟨true, ← unwrap d.abs.toStd⟩

end Duration
end Fundu
