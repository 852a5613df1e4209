import Verif.Model.Util
/-!
# Model of fundu-gnu/src/datetime.rs

`JulianDay` is its `i64`. `u8`/`u16`/`u32`/`u64` are `Nat`, the ranges of the types are hypotheses of the
theorems. `const fn` or not makes no difference.
-/
namespace Fundu

/-- datetime.rs:19 `DAYS_IN_PREVIOUS_MONTH` -/
def DAYS_IN_PREVIOUS_MONTH : List Nat := [306, 337, 0, 31, 61, 92, 122, 153, 184, 214, 245, 275]

/-- datetime.rs:20-34 `ORDINAL_TO_MONTH` -/
def ORDINAL_TO_MONTH : List Nat := [
  3, 3, 3, 3, 3, 3, 3, 3, 3, 3, 3, 3, 3, 3, 3, 3, 3, 3, 3, 3, 3, 3, 3, 3, 3, 3, 3, 3, 3, 3, 3, 4,
  4, 4, 4, 4, 4, 4, 4, 4, 4, 4, 4, 4, 4, 4, 4, 4, 4, 4, 4, 4, 4, 4, 4, 4, 4, 4, 4, 4, 4, 5, 5, 5,
  5, 5, 5, 5, 5, 5, 5, 5, 5, 5, 5, 5, 5, 5, 5, 5, 5, 5, 5, 5, 5, 5, 5, 5, 5, 5, 5, 5, 6, 6, 6, 6,
  6, 6, 6, 6, 6, 6, 6, 6, 6, 6, 6, 6, 6, 6, 6, 6, 6, 6, 6, 6, 6, 6, 6, 6, 6, 6, 7, 7, 7, 7, 7, 7,
  7, 7, 7, 7, 7, 7, 7, 7, 7, 7, 7, 7, 7, 7, 7, 7, 7, 7, 7, 7, 7, 7, 7, 7, 7, 8, 8, 8, 8, 8, 8, 8,
  8, 8, 8, 8, 8, 8, 8, 8, 8, 8, 8, 8, 8, 8, 8, 8, 8, 8, 8, 8, 8, 8, 8, 8, 9, 9, 9, 9, 9, 9, 9, 9,
  9, 9, 9, 9, 9, 9, 9, 9, 9, 9, 9, 9, 9, 9, 9, 9, 9, 9, 9, 9, 9, 9, 10, 10, 10, 10, 10, 10, 10,
  10, 10, 10, 10, 10, 10, 10, 10, 10, 10, 10, 10, 10, 10, 10, 10, 10, 10, 10, 10, 10, 10, 10, 10,
  11, 11, 11, 11, 11, 11, 11, 11, 11, 11, 11, 11, 11, 11, 11, 11, 11, 11, 11, 11, 11, 11, 11, 11,
  11, 11, 11, 11, 11, 11, 12, 12, 12, 12, 12, 12, 12, 12, 12, 12, 12, 12, 12, 12, 12, 12, 12, 12,
  12, 12, 12, 12, 12, 12, 12, 12, 12, 12, 12, 12, 12, 1, 1, 1, 1, 1, 1, 1, 1, 1, 1, 1, 1, 1, 1,
  1, 1, 1, 1, 1, 1, 1, 1, 1, 1, 1, 1, 1, 1, 1, 1, 1, 2, 2, 2, 2, 2, 2, 2, 2, 2, 2, 2, 2, 2, 2, 2,
  2, 2, 2, 2, 2, 2, 2, 2, 2, 2, 2, 2, 2, 2]

/-- datetime.rs:39 `NANOS_PER_DAY_I64` -/
def NANOS_PER_DAY : Int := 86400000000000

/-- datetime.rs:47 `JD_BASE` -/
def JD_BASE : Int := 1721119

/-- indexing an array: panics out of bounds -/
def index {α} (l : List α) (i : Nat) : Except Panic α :=
  match l[i]? with
  | some a => .ok a
  | none => .error .index

/-- the macro `validate!($id, $min, $max)`, gnu/lib.rs:215-230 -/
def validateRange (x lo hi : Nat) : Except Panic Unit :=
  if x < lo ∨ hi < x then .error .assert else .ok ()

/-- the macro `validate!($id <= $max)`, gnu/lib.rs:232-244 -/
def validateMax (x hi : Nat) : Except Panic Unit := if hi < x then .error .assert else .ok ()

/-- `uN::try_from(x).unwrap()` for an integer `x`, `hi` is the largest value of the type -/
def tryFromUnsigned (hi : Nat) (x : Int) : Except Panic Nat :=
  if 0 ≤ x ∧ x ≤ (hi : Int) then .ok x.toNat else .error .unwrap

/-- `iN::try_from(x).unwrap()` -/
def tryFromSigned (lo hi : Int) (x : Int) : Except Panic Int :=
  if lo ≤ x ∧ x ≤ hi then .ok x else .error .unwrap

namespace JulianDay

/-- datetime.rs:147-154: the year of a calendar starting on March 1 -/
def marchYear (year : Int) (month : Nat) : Option Int :=
  if month < 3 then checkedI64 (year - 1) else some year

/-- datetime.rs:158-163: the argument of `checked_add`, plain `i64` arithmetic -/
def dayOffset (year : Int) (month day : Nat) : Except Panic Int := do
  let m ← index DAYS_IN_PREVIOUS_MONTH (← subUsize month 1)
  let a ← arithI64 ((day : Int) + (m : Int))
  let a ← arithI64 (a + (← floorDiv year 4))
  let a ← arithI64 (a - (← floorDiv year 100))
  let a ← arithI64 (a + (← floorDiv year 400))
  arithI64 (a + JD_BASE)

/-- datetime.rs:156-168 -/
def dayOf (year : Int) (month day : Nat) : Except Panic (Option Int) :=
  match checkedI64 (year * 365) with
  | none => .ok none
  | some y => do return checkedI64 (y + (← dayOffset year month day))

/-- datetime.rs:143-169 `try_from_gregorian` -/
def tryFromGregorian (year : Int) (month day : Nat) : Except Panic (Option Int) := do
  validateRange month 1 12
  validateRange day 1 31
  match marchYear year month with
  | none => return none
  | some year => dayOf year month day

/-- datetime.rs:96-101 `from_gregorian` -/
def fromGregorian (year : Int) (month day : Nat) : Except Panic Int := do
  match ← tryFromGregorian year month day with
  | some jd => return jd
  | none => .error .overflow

/-- datetime.rs:219-232: month and day from the number of the day in the year starting on March 1 -/
def ofOrdinal (year : Int) (ordinal : Nat) : Except Panic (Option (Int × Nat × Nat)) := do
  let month ← index ORDINAL_TO_MONTH (← subUsize ordinal 1)
  let previous ← index DAYS_IN_PREVIOUS_MONTH (← subUsize month 1)
  let day ← tryFromUnsigned 255 (← subUsize ordinal previous : Nat)
  if month < 3 then return some (← arithI64 (year + 1), month, day)
  else return some (year, month, day)

/-- datetime.rs:214-232: the day of the year and the rest of the computation -/
def ofYear (zero daysCenturies year : Int) : Except Panic (Option (Int × Nat × Nat)) := do
  let a ← arithI64 (daysCenturies + zero)
  let b ← arithI64 (365 * year)
  let a ← arithI64 (a - b)
  let a ← arithI64 (a - (← floorDiv year 4))
  ofOrdinal year (← tryFromUnsigned 65535 a)

/-- datetime.rs:204-232: what follows the multiplication -/
def ofHundredfold (zero hundredfold : Int) : Except Panic (Option (Int × Nat × Nat)) := do
  let c ← arithI64 (hundredfold - 25)
  let fullCenturies ← floorDiv c 3652425
  let daysCenturies ← arithI64 (fullCenturies - (← floorDiv fullCenturies 4))
  match checkedI64 ((← arithI64 (100 * daysCenturies)) + c) with
  | none => return none
  | some s => ofYear zero daysCenturies (← floorDiv s 36525)

/-- datetime.rs:202-233 `to_gregorian` -/
def toGregorian (jd : Int) : Except Panic (Option (Int × Nat × Nat)) :=
  match checkedI64 (jd - JD_BASE) with
  | none => .ok none
  | some zero =>
    match checkedI64 (zero * 100) with
    | none => .ok none
    | some hundredfold => ofHundredfold zero hundredfold

/-- datetime.rs:248-253 `checked_add_days` and datetime.rs:288-293 `checked_add` -/
def checkedAddDays (jd days : Int) : Option Int := checkedI64 (jd + days)

/-- datetime.rs:268-273 `checked_sub_days` and datetime.rs:311-316 `checked_sub` -/
def checkedSubDays (jd days : Int) : Option Int := checkedI64 (jd - days)

end JulianDay

/-- datetime.rs:391-394 `struct DateTime`: the julian day and the nanoseconds since midnight -/
structure DateTime where
  days : Int
  time : Nat
  deriving DecidableEq, Repr

namespace DateTime

/-- datetime.rs:389 derived `Ord::cmp`: lexicographic, the day first -/
def cmp (a b : DateTime) : Ordering := (compare a.days b.days).then (compare a.time b.time)

/-- datetime.rs:459-464: the time of day in nanoseconds; the `u64` arithmetic is on small values (the fields
are validated before) -/
def timeOf (hour minute second nanos : Nat) : Nat :=
  (hour * 3600 + minute * 60 + second) * 1000000000 + nanos

/-- datetime.rs:444-465 `from_gregorian_date_time` -/
def fromGregorianDateTime (year : Int) (month day hour minute second nanos : Nat) :
    Except Panic DateTime := do
  validateMax hour 23
  validateMax minute 59
  validateMax second 59
  validateMax nanos 999999999
  return ⟨← JulianDay.fromGregorian year month day, timeOf hour minute second nanos⟩

/-- datetime.rs:398 `UNIX_EPOCH`, evaluated at compile time (`unix_epoch_eq` in Props/DateTime.lean) -/
def UNIX_EPOCH : DateTime := ⟨2440588, 0⟩

/-- datetime.rs:480-482 `to_gregorian_date` -/
def toGregorianDate (dt : DateTime) : Except Panic (Option (Int × Nat × Nat)) :=
  JulianDay.toGregorian dt.days

/-- datetime.rs:522-536 `as_hmsn`; `as u8` and `as u32` wrap around -/
def asHmsn (dt : DateTime) : Nat × Nat × Nat × Nat :=
  let nanos := dt.time % 1000000000
  let time := dt.time / 1000000000
  let hour := time / 3600
  let time := time % 3600
  let min := time / 60
  let time := time % 60
  (hour % 256, min % 256, time % 256, nanos % 4294967296)

/-- datetime.rs:501-505 `to_gregorian_date_time` -/
def toGregorianDateTime (dt : DateTime) :
    Except Panic (Option ((Int × Nat × Nat) × Nat × Nat × Nat × Nat)) := do
  match ← JulianDay.toGregorian dt.days with
  | none => return none
  | some date => return some (date, dt.asHmsn)

/-- datetime.rs:558-560 `as_julian_day` -/
def asJulianDay (dt : DateTime) : Int := dt.days

/-- `jd.checked_add_days(days).map(|jd| Self { days: jd, time })` -/
def onDay (jd days : Int) (time : Nat) : Option DateTime :=
  match JulianDay.checkedAddDays jd days with
  | some jd => some ⟨jd, time⟩
  | none => none

/-- datetime.rs:618-633: the time of day is moved into the range of one day -/
def normalize (jd time : Int) : Except Panic (Option DateTime) :=
  if time < 0 then do
    return onDay jd (-1) (← tryFromUnsigned U64_MAX (← arithI64 (time + NANOS_PER_DAY)))
  else if time < NANOS_PER_DAY then do
    return some ⟨jd, ← tryFromUnsigned U64_MAX time⟩
  else do
    return onDay jd 1 (← tryFromUnsigned U64_MAX (← arithI64 (time - NANOS_PER_DAY)))

/-- datetime.rs:607-635 `checked_add_duration` -/
def checkedAddDuration (dt : DateTime) (duration : Duration) : Except Panic (Option DateTime) := do
  let (days, duration) ← duration.extractDays
  match JulianDay.checkedAddDays dt.days days with
  | none => return none
  | some jd => do
    let nanos ← tryFromSigned I64_MIN I64_MAX (← duration.asNanos)
    let time ← arithI64 ((← tryFromSigned I64_MIN I64_MAX (dt.time : Int)) + nanos)
    normalize jd time

/-- datetime.rs:654-656 `checked_sub_duration` -/
def checkedSubDuration (dt : DateTime) (duration : Duration) : Except Panic (Option DateTime) :=
  dt.checkedAddDuration duration.neg

/-- datetime.rs:696-706: the 0-based month and the number of years to add; `i8` arithmetic on values
between -12 and 24 -/
def carryMonth (y : Int) (months : Int) (month : Nat) : Except Panic (Option (Nat × Int)) := do
  let a ← tryFromSigned (-128) 127 (← remI64 months 12)
  let b ← tryFromSigned (-128) 127 (month : Int)
  let m := a + b - 1
  if m < 0 then do
    let m ← tryFromUnsigned 255 (m + 12)
    return (checkedI64 (y - 1)).map (fun y => (m, y))
  else if m < 12 then do
    return some (← tryFromUnsigned 255 m, y)
  else do
    let m ← tryFromUnsigned 255 (m - 12)
    return (checkedI64 (y + 1)).map (fun y => (m, y))

/-- datetime.rs:695-707 -/
def addMonths (years months : Int) (month : Nat) : Except Panic (Option (Nat × Int)) := do
  match checkedI64 (years + (← divI64 months 12)) with
  | none => return none
  | some y => carryMonth y months month

/-- datetime.rs:709-716: the day in the shifted month, then the days -/
def inMonth (dt : DateTime) (year : Int) (month day : Nat) (days : Int) :
    Except Panic (Option DateTime) := do
  match ← JulianDay.tryFromGregorian year month day with
  | none => return none
  | some jd => return onDay jd days dt.time

/-- datetime.rs:709-716 -/
def addYears (dt : DateTime) (year years : Int) (month day : Nat) (days : Int) :
    Except Panic (Option DateTime) :=
  match checkedI64 (year + years) with
  | none => .ok none
  | some year => dt.inMonth year (month + 1) day days

/-- datetime.rs:693-717 `checked_add_gregorian` -/
def checkedAddGregorian (dt : DateTime) (years months days : Int) :
    Except Panic (Option DateTime) := do
  match ← JulianDay.toGregorian dt.days with
  | none => return none
  | some (year, month, day) =>
    match ← addMonths years months month with
    | none => return none
    | some (month, years) => dt.addYears year years month day days

/-- `i128::checked_*` -/
def checkedI128 (x : Int) : Option Int := if IsI128 x then some x else none

/-- datetime.rs:756-764: the duration of a signed number of nanoseconds -/
def durationOf (total : Int) : Except Panic (Option Duration) :=
  if total.natAbs / 1000000000 ≤ U64_MAX then do
    let nanos ← tryFromUnsigned U32_MAX ((total.natAbs % 1000000000 : Nat) : Int)
    return some (Duration.fromStd (decide (total < 0))
      (← StdDuration.new (total.natAbs / 1000000000) nanos))
  else .ok none

/-- datetime.rs:753-755: `days * NANOS_PER_DAY + time`, checked -/
def totalNanos (jd time : Int) : Option Int :=
  (checkedI128 (jd * NANOS_PER_DAY)).bind fun t => checkedI128 (t + time)

/-- datetime.rs:747-765 `duration_since` -/
def durationSince (dt rhs : DateTime) : Except Panic (Option Duration) := do
  match JulianDay.checkedSubDays dt.days rhs.days with
  | none => return none
  | some jd => do
    let a ← tryFromSigned I64_MIN I64_MAX (dt.time : Int)
    let b ← tryFromSigned I64_MIN I64_MAX (rhs.time : Int)
    match checkedI64 (a - b) with
    | none => return none
    | some time =>
      match totalNanos jd time with
      | none => return none
      | some total => durationOf total

/-! ## Conversions -/

/-- The parts of a calendar date and time given by `time::OffsetDateTime` (`to_calendar_date`, `to_hms_nano`)
or `chrono::NaiveDateTime` (`year()`, `month()`, ...); trusted model of the external crates -/
structure Civil where
  year : Int
  month : Nat
  day : Nat
  hour : Nat
  minute : Nat
  second : Nat
  nano : Nat
  deriving DecidableEq, Repr

/-- datetime.rs:769-775 `From<OffsetDateTime>`: the *local* date and time is taken, the offset is not
used; datetime.rs:778-782 `From<PrimitiveDateTime>` -/
def ofTime (value : Civil) : Except Panic DateTime :=
  fromGregorianDateTime value.year value.month value.day value.hour value.minute value.second value.nano

/-- datetime.rs:792-805 `From<chrono::NaiveDateTime>` with its `u8::try_from(..).unwrap()`;
datetime.rs:785-789 `From<chrono::DateTime<T>>` applies it to the UTC date and time -/
def ofChrono (value : Civil) : Except Panic DateTime := do
  let month ← tryFromUnsigned 255 (value.month : Int)
  let day ← tryFromUnsigned 255 (value.day : Int)
  let hour ← tryFromUnsigned 255 (value.hour : Int)
  let minute ← tryFromUnsigned 255 (value.minute : Int)
  let second ← tryFromUnsigned 255 (value.second : Int)
  fromGregorianDateTime value.year month day hour minute second value.nano

/-- datetime.rs:562-572 `now_utc_with_system_time`: `before` tells whether the time of the
system lies before the unix epoch, `distance` is its distance from it -/
def nowUtcWithSystemTime (before : Bool) (distance : StdDuration) : Except Panic DateTime := do
  if before then unwrap (← UNIX_EPOCH.checkedAddDuration (Duration.fromStd true distance))
  else unwrap (← UNIX_EPOCH.checkedAddDuration (Duration.ofStd distance))

end DateTime
end Fundu
