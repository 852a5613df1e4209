import Verif.Conformance.Basic
/-! Generated by tools/conformance.py from fundu-gnu/src/datetime.rs: 164 cases. -/
namespace Fundu.Conformance.DateTime

abbrev Ymd := Int × Nat × Nat
/-- A date and time given with its offset: `time`'s `to_offset` shows the local date and time of an instant; `chrono`'s
`west_opt` is the same offset with the opposite sign.  The date and time of the instant in UTC, shifted by the offset, is found
with the model's own arithmetic. -/
def shifted (v : Int × Nat × Nat × Nat × Nat × Nat × Nat × Int) : DateTime.Civil :=
  let (y, m, d, h, mi, s, n, o) := v
  let t := get (DateTime.fromGregorianDateTime y m d h mi s n)
  let t := get (t.checkedAddDuration ⟨decide (o < 0), ⟨o.natAbs, 0⟩⟩) |>.getD t
  let (y, m, d) := (get t.toGregorianDate).getD (0, 0, 0)
  let (h, mi, s, n) := t.asHmsn
  ⟨y, m, d, h, mi, s, n⟩

/-- fundu-gnu/src/datetime.rs:877 `test_julian_days_from_gregorian`: 18 cases -/
example : ([
  (((-4713), 11, 23), (-1)),
  (((-4713), 11, 24), 0),
  (((-4712), 1, 1), 38),
  ((0, 1, 1), 1721060),
  ((0, 2, 29), 1721119),
  ((0, 3, 1), 1721120),
  ((0, 12, 31), 1721425),
  ((1, 1, 1), 1721426),
  ((1970, 1, 1), 2440588),
  ((1979, 12, 31), 2444239),
  ((1980, 1, 1), 2444240),
  ((0, 12, 1), 1721395),
  ((1, 12, 31), 1721790),
  ((1, 11, 31), 1721760),
  ((1971, 2, 31), 2441014),
  ((1972, 2, 31), 2441379),
  (((-25200470046051300), 1, 1), (-9204282680793170880)),
  ((25200470046046596, 12, 31), 9204282680794895265)] : List (Ymd × Int)).all
    (fun ((y, m, d), n) => pureIs (JulianDay.fromGregorian y m d) n) = true := by decide +kernel

/-- fundu-gnu/src/datetime.rs:899 `test_julian_days_from_gregorian_then_panic`: 5 cases -/
example : ([
  (9223372036854775807, 1, 1),
  ((-9223372036854775808), 1, 1),
  ((-9223372036854775808), 3, 1),
  ((-25269512429739111), 1, 1),
  (25269512429734395, 12, 31)] : List Ymd).all
    (fun (y, m, d) => purePanics (JulianDay.fromGregorian y m d)) = true := by decide +kernel

/-- fundu-gnu/src/datetime.rs:904 `test_julian_days_try_from_gregorian_then_none`: 5 cases -/
example : ([
  (9223372036854775807, 1, 1),
  ((-9223372036854775808), 1, 1),
  ((-9223372036854775808), 3, 1),
  ((-25269512429739111), 1, 1),
  (25269512429734395, 12, 31)] : List Ymd).all
    (fun (y, m, d) => pureIs (JulianDay.tryFromGregorian y m d) none) = true := by decide +kernel

/-- fundu-gnu/src/datetime.rs:917 `test_julian_days_try_from_gregorian_with_illegal_argument_then_panic`: 4 cases -/
example : ([
  (0, 0, 1),
  (0, 13, 1),
  (0, 1, 0),
  (0, 1, 32)] : List Ymd).all
    (fun (y, m, d) => purePanics (JulianDay.tryFromGregorian y m d)) = true := by decide +kernel

/-- fundu-gnu/src/datetime.rs:943 `test_julian_days_to_gregorian`: 1 cases -/
example : ([
  (91320515216383918, (250027078488026, 1, 22))] : List (Int × Ymd)).all
    (fun (n, v) => pureIs (JulianDay.toGregorian n) (some v)) = true := by decide +kernel

/-- fundu-gnu/src/datetime.rs:951 `test_julian_days_to_gregorian_then_none`: 3 cases -/
example : ([
  (-9223372036854775808),
  9223372036854775807,
  92233720368547758] : List Int).all
    (fun n => pureIs (JulianDay.toGregorian n) none) = true := by decide +kernel

/-- fundu-gnu/src/datetime.rs:974 `test_julian_days_checked_add`: 9 cases -/
example : ([
  (0, 0, 0),
  (0, 1, 1),
  (0, (-1), (-1)),
  (1, 0, 1),
  (1, 1, 2),
  ((-1), (-1), (-2)),
  ((-9223372036854775808), 0, (-9223372036854775808)),
  (0, 9223372036854775807, 9223372036854775807),
  ((-9223372036854775808), 9223372036854775807, (-1))] : List (Int × Int × Int)).all
    (fun (a, b, e) => JulianDay.checkedAddDays a b = some e && JulianDay.checkedAddDays b a = some e) = true := by decide +kernel

/-- fundu-gnu/src/datetime.rs:988 `test_julian_days_checked_add_then_none`: 2 cases -/
example : ([
  (1, 9223372036854775807),
  ((-1), (-9223372036854775808))] : List (Int × Int)).all
    (fun (a, b) => JulianDay.checkedAddDays a b = none) = true := by decide +kernel

/-- fundu-gnu/src/datetime.rs:993 `test_julian_days_checked_sub`: 9 cases -/
example : ([
  (0, 0, 0),
  (0, 1, 1),
  (0, (-1), (-1)),
  (1, 0, 1),
  (1, 1, 2),
  ((-1), (-1), (-2)),
  ((-9223372036854775808), 0, (-9223372036854775808)),
  (0, 9223372036854775807, 9223372036854775807),
  ((-9223372036854775808), 9223372036854775807, (-1))] : List (Int × Int × Int)).all
    (fun (a, b, e) => JulianDay.checkedSubDays a (-b) = some e) = true := by decide +kernel

/-- fundu-gnu/src/datetime.rs:1001 `test_julian_days_checked_sub_then_none` -/
example : (JulianDay.checkedSubDays I64_MIN 1 = none) = true := by decide +kernel

/-- fundu-gnu/src/datetime.rs:1006 `test_julian_days_checked_add_days`: 9 cases -/
example : ([
  (0, 0, 0),
  (0, 1, 1),
  (0, (-1), (-1)),
  (1, 0, 1),
  (1, 1, 2),
  ((-1), (-1), (-2)),
  ((-9223372036854775808), 0, (-9223372036854775808)),
  (0, 9223372036854775807, 9223372036854775807),
  ((-9223372036854775808), 9223372036854775807, (-1))] : List (Int × Int × Int)).all
    (fun (a, b, e) => JulianDay.checkedAddDays a b = some e && JulianDay.checkedAddDays b a = some e) = true := by decide +kernel

/-- fundu-gnu/src/datetime.rs:1018 `test_julian_checked_add_days_then_none` -/
example : (JulianDay.checkedAddDays I64_MAX 1 = none) = true := by decide +kernel

/-- fundu-gnu/src/datetime.rs:1023 `test_julian_days_checked_sub_days`: 9 cases -/
example : ([
  (0, 0, 0),
  (0, 1, 1),
  (0, (-1), (-1)),
  (1, 0, 1),
  (1, 1, 2),
  ((-1), (-1), (-2)),
  ((-9223372036854775808), 0, (-9223372036854775808)),
  (0, 9223372036854775807, 9223372036854775807),
  ((-9223372036854775808), 9223372036854775807, (-1))] : List (Int × Int × Int)).all
    (fun (a, b, e) => JulianDay.checkedSubDays a (-b) = some e) = true := by decide +kernel

/-- fundu-gnu/src/datetime.rs:1031 `test_julian_days_checked_sub_days_then_none` -/
example : (JulianDay.checkedSubDays I64_MIN 1 = none) = true := by decide +kernel

/-- fundu-gnu/src/datetime.rs:1041 `test_date_time_from_gregorian_date_time`: 1 cases -/
example : ([
  ((0, 1, 1, 23, 59, 59, 0), 1721060, 86399000000000)] : List ((Int × Nat × Nat × Nat × Nat × Nat × Nat) × Int × Nat)).all
    (fun ((y, m, d, h, mi, s, n), j, t) => pureIs (DateTime.fromGregorianDateTime y m d h mi s n) ⟨j, t⟩) = true := by decide +kernel

/-- fundu-gnu/src/datetime.rs:1063 `test_date_time_to_gregorian_date` -/
example : (pureIs DateTime.UNIX_EPOCH.toGregorianDate (some (1970, 1, 1))) = true := by decide +kernel

/-- fundu-gnu/src/datetime.rs:1069 `test_date_time_to_gregorian_date_time` -/
example : (pureIs DateTime.UNIX_EPOCH.toGregorianDateTime (some ((1970, 1, 1), 0, 0, 0, 0))) = true := by decide +kernel

/-- fundu-gnu/src/datetime.rs:1078 `test_date_time_as_julian_day` -/
example : (DateTime.UNIX_EPOCH.asJulianDay = 2440588) = true := by decide +kernel

/-- fundu-gnu/src/datetime.rs:1091 `test_date_time_as_hmsn`: 7 cases -/
example : ([
  (0, 0, 0, 0),
  (0, 0, 0, 1),
  (0, 0, 1, 0),
  (0, 1, 0, 0),
  (1, 0, 0, 0),
  (1, 1, 1, 1),
  (23, 59, 59, 999999999)] : List (Nat × Nat × Nat × Nat)).all
    (fun (h, m, s, n) => (get (DateTime.fromGregorianDateTime 1 1 1 h m s n)).asHmsn = (h, m, s, n)) = true := by decide +kernel

/-- fundu-gnu/src/datetime.rs:1178 `test_date_time_checked_add_duration`: 14 cases -/
example : ([
  (get (DateTime.fromGregorianDateTime 1970 1 1 0 0 0 0), ⟨false, ⟨0, 0⟩⟩, get (DateTime.fromGregorianDateTime 1970 1 1 0 0 0 0)),
  (get (DateTime.fromGregorianDateTime 1970 1 1 0 0 0 0), ⟨false, ⟨18446744073709551615, 999999999⟩⟩, get (DateTime.fromGregorianDateTime 584554051223 11 9 7 0 15 999999999)),
  (get (DateTime.fromGregorianDateTime 1970 1 1 0 0 0 0), ⟨true, ⟨18446744073709551615, 999999999⟩⟩, get (DateTime.fromGregorianDateTime (-584554047284) 2 23 16 59 44 1)),
  (get (DateTime.fromGregorianDateTime 1972 1 1 0 0 0 0), ⟨false, ⟨360000, 0⟩⟩, get (DateTime.fromGregorianDateTime 1972 1 5 4 0 0 0)),
  (get (DateTime.fromGregorianDateTime 1972 1 1 0 0 0 0), ⟨false, ⟨5097600, 0⟩⟩, get (DateTime.fromGregorianDateTime 1972 2 29 0 0 0 0)),
  (get (DateTime.fromGregorianDateTime 1972 1 1 23 59 59 999999999), ⟨false, ⟨86399, 999999999⟩⟩, get (DateTime.fromGregorianDateTime 1972 1 2 23 59 59 999999998)),
  (get (DateTime.fromGregorianDateTime 1972 1 1 23 59 59 999999999), ⟨false, ⟨0, 1⟩⟩, get (DateTime.fromGregorianDateTime 1972 1 2 0 0 0 0)),
  (get (DateTime.fromGregorianDateTime 1969 12 31 23 59 59 999999999), ⟨false, ⟨0, 1⟩⟩, get (DateTime.fromGregorianDateTime 1970 1 1 0 0 0 0)),
  (get (DateTime.fromGregorianDateTime 1969 12 31 23 59 59 999999999), ⟨false, ⟨86400, 0⟩⟩, get (DateTime.fromGregorianDateTime 1970 1 1 23 59 59 999999999)),
  (get (DateTime.fromGregorianDateTime 1969 12 30 23 59 59 999999999), ⟨false, ⟨86400, 1⟩⟩, get (DateTime.fromGregorianDateTime 1970 1 1 0 0 0 0)),
  (get (DateTime.fromGregorianDateTime 1972 1 1 0 0 0 0), ⟨true, ⟨0, 1⟩⟩, get (DateTime.fromGregorianDateTime 1971 12 31 23 59 59 999999999)),
  (get (DateTime.fromGregorianDateTime 1970 1 1 0 0 0 0), ⟨true, ⟨0, 1⟩⟩, get (DateTime.fromGregorianDateTime 1969 12 31 23 59 59 999999999)),
  (get (DateTime.fromGregorianDateTime 1970 1 1 0 0 0 0), ⟨true, ⟨86400, 0⟩⟩, get (DateTime.fromGregorianDateTime 1969 12 31 0 0 0 0)),
  (get (DateTime.fromGregorianDateTime 1970 1 1 0 0 0 0), ⟨true, ⟨86400, 1⟩⟩, get (DateTime.fromGregorianDateTime 1969 12 30 23 59 59 999999999))] : List (DateTime × Duration × DateTime)).all
    (fun (t, d, e) => pureIs (t.checkedAddDuration d) (some e)) = true := by decide +kernel

/-- fundu-gnu/src/datetime.rs:1194 `test_date_time_checked_sub_duration`: 14 cases -/
example : ([
  (get (DateTime.fromGregorianDateTime 1970 1 1 0 0 0 0), ⟨false, ⟨0, 0⟩⟩, get (DateTime.fromGregorianDateTime 1970 1 1 0 0 0 0)),
  (get (DateTime.fromGregorianDateTime 1970 1 1 0 0 0 0), ⟨false, ⟨18446744073709551615, 999999999⟩⟩, get (DateTime.fromGregorianDateTime 584554051223 11 9 7 0 15 999999999)),
  (get (DateTime.fromGregorianDateTime 1970 1 1 0 0 0 0), ⟨true, ⟨18446744073709551615, 999999999⟩⟩, get (DateTime.fromGregorianDateTime (-584554047284) 2 23 16 59 44 1)),
  (get (DateTime.fromGregorianDateTime 1972 1 1 0 0 0 0), ⟨false, ⟨360000, 0⟩⟩, get (DateTime.fromGregorianDateTime 1972 1 5 4 0 0 0)),
  (get (DateTime.fromGregorianDateTime 1972 1 1 0 0 0 0), ⟨false, ⟨5097600, 0⟩⟩, get (DateTime.fromGregorianDateTime 1972 2 29 0 0 0 0)),
  (get (DateTime.fromGregorianDateTime 1972 1 1 23 59 59 999999999), ⟨false, ⟨86399, 999999999⟩⟩, get (DateTime.fromGregorianDateTime 1972 1 2 23 59 59 999999998)),
  (get (DateTime.fromGregorianDateTime 1972 1 1 23 59 59 999999999), ⟨false, ⟨0, 1⟩⟩, get (DateTime.fromGregorianDateTime 1972 1 2 0 0 0 0)),
  (get (DateTime.fromGregorianDateTime 1969 12 31 23 59 59 999999999), ⟨false, ⟨0, 1⟩⟩, get (DateTime.fromGregorianDateTime 1970 1 1 0 0 0 0)),
  (get (DateTime.fromGregorianDateTime 1969 12 31 23 59 59 999999999), ⟨false, ⟨86400, 0⟩⟩, get (DateTime.fromGregorianDateTime 1970 1 1 23 59 59 999999999)),
  (get (DateTime.fromGregorianDateTime 1969 12 30 23 59 59 999999999), ⟨false, ⟨86400, 1⟩⟩, get (DateTime.fromGregorianDateTime 1970 1 1 0 0 0 0)),
  (get (DateTime.fromGregorianDateTime 1972 1 1 0 0 0 0), ⟨true, ⟨0, 1⟩⟩, get (DateTime.fromGregorianDateTime 1971 12 31 23 59 59 999999999)),
  (get (DateTime.fromGregorianDateTime 1970 1 1 0 0 0 0), ⟨true, ⟨0, 1⟩⟩, get (DateTime.fromGregorianDateTime 1969 12 31 23 59 59 999999999)),
  (get (DateTime.fromGregorianDateTime 1970 1 1 0 0 0 0), ⟨true, ⟨86400, 0⟩⟩, get (DateTime.fromGregorianDateTime 1969 12 31 0 0 0 0)),
  (get (DateTime.fromGregorianDateTime 1970 1 1 0 0 0 0), ⟨true, ⟨86400, 1⟩⟩, get (DateTime.fromGregorianDateTime 1969 12 30 23 59 59 999999999))] : List (DateTime × Duration × DateTime)).all
    (fun (e, d, t) => pureIs (t.checkedSubDuration d) (some e)) = true := by decide +kernel

/-- fundu-gnu/src/datetime.rs:1265 `test_date_time_checked_add_gregorian`: 11 cases -/
example : ([
  (get (DateTime.fromGregorianDateTime 1970 1 1 0 0 0 0), (0, 0, 0), get (DateTime.fromGregorianDateTime 1970 1 1 0 0 0 0)),
  (get (DateTime.fromGregorianDateTime 1970 1 1 0 0 0 0), (1, 0, 0), get (DateTime.fromGregorianDateTime 1971 1 1 0 0 0 0)),
  (get (DateTime.fromGregorianDateTime 1970 1 1 0 0 0 0), (0, 1, 0), get (DateTime.fromGregorianDateTime 1970 2 1 0 0 0 0)),
  (get (DateTime.fromGregorianDateTime 1970 1 1 0 0 0 0), (0, 0, 1), get (DateTime.fromGregorianDateTime 1970 1 2 0 0 0 0)),
  (get (DateTime.fromGregorianDateTime 1970 1 1 0 0 0 0), (1, 1, 1), get (DateTime.fromGregorianDateTime 1971 2 2 0 0 0 0)),
  (get (DateTime.fromGregorianDateTime 1970 1 1 0 0 0 0), ((-1), 0, 0), get (DateTime.fromGregorianDateTime 1969 1 1 0 0 0 0)),
  (get (DateTime.fromGregorianDateTime 1970 1 1 0 0 0 0), (0, (-1), 0), get (DateTime.fromGregorianDateTime 1969 12 1 0 0 0 0)),
  (get (DateTime.fromGregorianDateTime 1970 1 1 0 0 0 0), (0, 0, (-1)), get (DateTime.fromGregorianDateTime 1969 12 31 0 0 0 0)),
  (get (DateTime.fromGregorianDateTime 1970 1 1 0 0 0 0), ((-1), (-1), (-1)), get (DateTime.fromGregorianDateTime 1968 11 30 0 0 0 0)),
  (get (DateTime.fromGregorianDateTime 1970 12 1 0 0 0 0), (0, 11, 0), get (DateTime.fromGregorianDateTime 1971 11 1 0 0 0 0)),
  (get (DateTime.fromGregorianDateTime 1972 2 1 0 0 0 0), (0, 1, 0), get (DateTime.fromGregorianDateTime 1972 3 1 0 0 0 0))] : List (DateTime × (Int × Int × Int) × DateTime)).all
    (fun (t, (y, m, d), e) => pureIs (t.checkedAddGregorian y m d) (some e)) = true := by decide +kernel

/-- fundu-gnu/src/datetime.rs:1285 `test_date_time_checked_add_gregorian_then_none`: 2 cases -/
example : ([
  (get (DateTime.fromGregorianDateTime (-4713) 11 24 0 0 0 0), (9223372036854775807, 0, 0)),
  (get (DateTime.fromGregorianDateTime (-4713) 11 24 0 0 0 0), ((-9223372036854775808), 0, 0))] : List (DateTime × (Int × Int × Int))).all
    (fun (t, (y, m, d)) => pureIs (t.checkedAddGregorian y m d) none) = true := by decide +kernel

/-- fundu-gnu/src/datetime.rs:1323 `test_date_time_checked_sub`: 6 cases -/
example : ([
  (get (DateTime.fromGregorianDateTime 1970 1 2 0 0 0 2), get (DateTime.fromGregorianDateTime 1970 1 2 0 0 0 1), ⟨false, ⟨0, 1⟩⟩),
  (get (DateTime.fromGregorianDateTime 1970 1 1 0 0 0 0), get (DateTime.fromGregorianDateTime 1969 12 31 23 59 59 999999999), ⟨false, ⟨0, 1⟩⟩),
  (get (DateTime.fromGregorianDateTime 1970 1 1 0 0 0 0), get (DateTime.fromGregorianDateTime 1969 12 1 0 0 0 0), ⟨false, ⟨2678400, 0⟩⟩),
  (get (DateTime.fromGregorianDateTime 1970 1 2 23 59 59 0), get (DateTime.fromGregorianDateTime 1970 1 2 23 59 59 1), ⟨true, ⟨0, 1⟩⟩),
  (get (DateTime.fromGregorianDateTime 1970 1 1 0 0 0 0), get (DateTime.fromGregorianDateTime 1970 1 1 0 0 0 1), ⟨true, ⟨0, 1⟩⟩),
  (get (DateTime.fromGregorianDateTime 1970 1 1 0 0 0 0), get (DateTime.fromGregorianDateTime 1970 1 2 0 0 0 0), ⟨true, ⟨86400, 0⟩⟩)] : List (DateTime × DateTime × Duration)).all
    (fun (a, b, d) => someDurIs (a.durationSince b) d) = true := by decide +kernel

/-- fundu-gnu/src/datetime.rs:1359 `test_date_time_now_utc`: 7 cases -/
example : ([
  ((false, ⟨0, 0⟩), DateTime.UNIX_EPOCH),
  ((true, ⟨1, 0⟩), get (DateTime.fromGregorianDateTime 1969 12 31 23 59 59 0)),
  ((true, ⟨0, 1⟩), get (DateTime.fromGregorianDateTime 1969 12 31 23 59 59 999999999)),
  ((true, ⟨1, 1⟩), get (DateTime.fromGregorianDateTime 1969 12 31 23 59 58 999999999)),
  ((false, ⟨1, 0⟩), get (DateTime.fromGregorianDateTime 1970 1 1 0 0 1 0)),
  ((false, ⟨0, 1⟩), get (DateTime.fromGregorianDateTime 1970 1 1 0 0 0 1)),
  ((false, ⟨1, 1⟩), get (DateTime.fromGregorianDateTime 1970 1 1 0 0 1 1))] : List ((Bool × StdDuration) × DateTime)).all
    (fun ((b, s), e) => pureIs (DateTime.nowUtcWithSystemTime b s) e) = true := by decide +kernel

/-- fundu-gnu/src/datetime.rs:1369 `test_ordinal_to_month_lookup_table` -/
example : ((ORDINAL_TO_MONTH = (List.range 12).flatMap fun m => List.replicate (if m = 11 then 29 else if m = 1 || m = 3 || m = 6 || m = 8 then 30 else 31) ((m + 2) % 12 + 1))) = true := by decide +kernel

/-- fundu-gnu/src/datetime.rs:1434 `test_time_offset_date_time_into_date_time`: 8 cases -/
example : ([
  ((0, 1, 1, 0, 0, 0, 0, 0), get (DateTime.fromGregorianDateTime 0 1 1 0 0 0 0)),
  ((0, 1, 1, 0, 0, 0, 0, 7200), get (DateTime.fromGregorianDateTime 0 1 1 2 0 0 0)),
  ((0, 1, 1, 0, 0, 0, 0, 86399), get (DateTime.fromGregorianDateTime 0 1 1 23 59 59 0)),
  ((0, 1, 1, 0, 0, 0, 0, (-7200)), get (DateTime.fromGregorianDateTime (-1) 12 31 22 0 0 0)),
  ((0, 1, 1, 0, 0, 0, 0, (-86399)), get (DateTime.fromGregorianDateTime (-1) 12 31 0 0 1 0)),
  ((1970, 1, 1, 0, 0, 0, 0, 0), get (DateTime.fromGregorianDateTime 1970 1 1 0 0 0 0)),
  ((1453, 6, 23, 14, 57, 29, 123456789, 0), get (DateTime.fromGregorianDateTime 1453 6 23 14 57 29 123456789)),
  (((-1453), 6, 23, 14, 57, 29, 123456789, 0), get (DateTime.fromGregorianDateTime (-1453) 6 23 14 57 29 123456789))] : List ((Int × Nat × Nat × Nat × Nat × Nat × Nat × Int) × DateTime)).all
    (fun (v, e) => pureIs (DateTime.ofTime (shifted v)) e) = true := by decide +kernel

/-- fundu-gnu/src/datetime.rs:1452 `test_time_offset_date_time_min_max_into_date_time`: 2 cases -/
example : ([
  999999,
  (-999999)] : List Int).all
    (fun y => pureIs (DateTime.ofTime ⟨y, 12, 31, 23, 59, 59, 999999999⟩) (get (DateTime.fromGregorianDateTime y 12 31 23 59 59 999999999))) = true := by decide +kernel

/-- fundu-gnu/src/datetime.rs:1466 `test_time_primitive_date_time_into_date_time` -/
example : (pureIs (DateTime.ofTime ⟨0, 1, 1, 0, 0, 0, 0⟩) (get (DateTime.fromGregorianDateTime 0 1 1 0 0 0 0))) = true := by decide +kernel

/-- fundu-gnu/src/datetime.rs:1475 `test_chrono_date_time_into_date_time`: 8 cases -/
example : ([
  ((0, 1, 1, 0, 0, 0, 0, 0), get (DateTime.fromGregorianDateTime 0 1 1 0 0 0 0)),
  ((0, 1, 1, 0, 0, 0, 0, 7200), get (DateTime.fromGregorianDateTime 0 1 1 2 0 0 0)),
  ((0, 1, 1, 0, 0, 0, 0, 86399), get (DateTime.fromGregorianDateTime 0 1 1 23 59 59 0)),
  ((0, 1, 1, 0, 0, 0, 0, (-7200)), get (DateTime.fromGregorianDateTime (-1) 12 31 22 0 0 0)),
  ((0, 1, 1, 0, 0, 0, 0, (-86399)), get (DateTime.fromGregorianDateTime (-1) 12 31 0 0 1 0)),
  ((1970, 1, 1, 0, 0, 0, 0, 0), get (DateTime.fromGregorianDateTime 1970 1 1 0 0 0 0)),
  ((1453, 6, 23, 14, 57, 29, 123456789, 0), get (DateTime.fromGregorianDateTime 1453 6 23 14 57 29 123456789)),
  (((-1453), 6, 23, 14, 57, 29, 123456789, 0), get (DateTime.fromGregorianDateTime (-1453) 6 23 14 57 29 123456789))] : List ((Int × Nat × Nat × Nat × Nat × Nat × Nat × Int) × DateTime)).all
    (fun (v, e) => pureIs (DateTime.ofChrono (shifted v)) e) = true := by decide +kernel

/-- fundu-gnu/src/datetime.rs:1498 `test_chrono_date_time_min_max_into_date_time`: 2 cases -/
example : ([
  262142,
  (-131071)] : List Int).all
    (fun y => pureIs (DateTime.ofChrono ⟨y, 12, 31, 23, 59, 59, 999999999⟩) (get (DateTime.fromGregorianDateTime y 12 31 23 59 59 999999999))) = true := by decide +kernel

end Fundu.Conformance.DateTime
