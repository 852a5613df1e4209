import Verif.Model.DateTime
import Verif.Model.Message
/-!
# Model of the feature `serde`

The code of the traits `Serialize` and `Deserialize` is derived by macros of the crate serde (1.0.196) and not part of the
repository; what they do is modelled here from serde's documentation and is part of the trusted base. A value is
serialized to, and deserialized from, `Data`. Not modelled: formats (JSON, …), aliases of integers
(numbers outside the range of a type are rejected in all formats), enum variants given by their index.
-/
namespace Fundu

/-- serde's data model, as far as the types of fundu use it -/
inductive Data where
  | bool (b : Bool)
  /-- `i16`, `i64`, `u32`, `u64`, `usize` -/
  | int (n : Int)
  | str (s : Bytes)
  /-- a unit variant of an enum -/
  | unitVariant (name : Bytes)
  /-- a newtype or tuple variant of an enum -/
  | tupleVariant (name : Bytes) (fields : List Data)
  /-- a newtype struct -/
  | newtype (d : Data)
  /-- a tuple struct, and a struct in a format without field names -/
  | seq (l : List Data)
  /-- a struct in a format with field names -/
  | struct (fields : List (Bytes × Data))

namespace Data

/-- A field of a derived `Deserialize`: it must be present exactly once; fields with other names are ignored. -/
def field (name : Bytes) (fields : List (Bytes × Data)) : Option Data :=
  match fields.filter (fun f => f.1 = name) with
  | [f] => some f.2
  | _ => none

/-- The two fields of a struct, by name or by position. -/
def twoFields (a b : Bytes) : Data → Option (Data × Data)
  | .struct fields => do some (← field a fields, ← field b fields)
  | .seq [x, y] => some (x, y)
  | _ => none

/-- `bool` -/
def toBool : Data → Option Bool
  | .bool b => some b
  | _ => none

/-- an integer type with the given range -/
def toInt (min max : Int) : Data → Option Int
  | .int n => if min ≤ n ∧ n ≤ max then some n else none
  | _ => none

/-- `String` -/
def toStr : Data → Option Bytes
  | .str s => some s
  | _ => none

end Data

namespace Serde

/-- the names of the variants, time.rs:78-106, which derived implementations use -/
def timeUnitName : TimeUnit → Bytes
  | .nanoSecond => b! "NanoSecond" | .microSecond => b! "MicroSecond" | .milliSecond => b! "MilliSecond" | .second => b! "Second"
  | .minute => b! "Minute" | .hour => b! "Hour" | .day => b! "Day" | .week => b! "Week" | .month => b! "Month" | .year => b! "Year"

/-- all variants of `TimeUnit`, time.rs:78-106 -/
def timeUnits : List TimeUnit := [.nanoSecond, .microSecond, .milliSecond, .second, .minute, .hour, .day, .week, .month, .year]

/-- time.rs:80 `derive(Serialize)` for `TimeUnit` -/
def serTimeUnit (u : TimeUnit) : Data := .unitVariant (timeUnitName u)

/-- time.rs:80 `derive(Deserialize)` for `TimeUnit` -/
def deTimeUnit : Data → Option TimeUnit
  | .unitVariant name => timeUnits.find? (fun u => timeUnitName u = name)
  | _ => none

/-- time.rs:375 `derive(Serialize)` for `Multiplier(i64, i16)` -/
def serMultiplier (m : Multiplier) : Data := .seq [.int m.coefficient, .int m.exponent]

/-- time.rs:375 `derive(Deserialize)` for `Multiplier(i64, i16)` -/
def deMultiplier : Data → Option Multiplier
  | .seq [c, e] => do some ⟨← c.toInt I64_MIN I64_MAX, ← e.toInt I16_MIN I16_MAX⟩
  | _ => none

/-- serde's implementation of `Serialize` for `std::time::Duration` (serde, not in the repository) -/
def serStd (d : StdDuration) : Data := .struct [(b! "secs", .int d.secs), (b! "nanos", .int d.nanos)]

/-- serde's implementation of `Deserialize` for `std::time::Duration` (serde, not in the repository): `secs` is a `u64`, `nanos` a
`u32`. The whole seconds in `nanos` are added to `secs`; it is an error if this overflows. -/
def deStd (d : Data) : Option StdDuration := do
  let (secs, nanos) ← d.twoFields (b! "secs") (b! "nanos")
  let secs ← secs.toInt 0 U64_MAX
  let nanos ← nanos.toInt 0 U32_MAX
  let _ ← checkedU64 (secs.toNat + nanos.toNat / 1000000000)
  (StdDuration.new secs.toNat nanos.toNat).toOption

/-- time.rs:548 `derive(Serialize)` for `Duration` (the fields are those of time.rs:549-552) -/
def serDuration (d : Duration) : Data := .struct [(b! "is_negative", .bool d.isNegative), (b! "inner", serStd d.inner)]

/-- time.rs:548 `derive(Deserialize)` for `Duration` -/
def deDuration (d : Data) : Option Duration := do
  let (neg, inner) ← d.twoFields (b! "is_negative") (b! "inner")
  some ⟨← neg.toBool, ← deStd inner⟩

/-- datetime.rs:68 `derive(Serialize)` for `JulianDay(i64)` -/
def serJulianDay (jd : Int) : Data := .newtype (.int jd)

/-- datetime.rs:68 `derive(Deserialize)` for `JulianDay(i64)` -/
def deJulianDay : Data → Option Int
  | .newtype d => d.toInt I64_MIN I64_MAX
  | .seq [d] => d.toInt I64_MIN I64_MAX
  | _ => none

/-- datetime.rs:390 `derive(Serialize)` for `DateTime` (the fields are those of datetime.rs:391-394) -/
def serDateTime (dt : DateTime) : Data := .struct [(b! "days", serJulianDay dt.days), (b! "time", .int dt.time)]

/-- datetime.rs:390 `derive(Deserialize)` for `DateTime`: `time` is any `u64` -/
def deDateTime (d : Data) : Option DateTime := do
  let (days, time) ← d.twoFields (b! "days") (b! "time")
  let time ← time.toInt 0 U64_MAX
  some ⟨← deJulianDay days, time.toNat⟩

/-- error.rs:71 `derive(Serialize)` for `TryFromDurationError` (variants error.rs:72-79) -/
def serConversionError : TryFromDurationError → Data
  | .negativeDuration => .unitVariant (b! "NegativeDuration")
  | .positiveOverflow => .unitVariant (b! "PositiveOverflow")
  | .negativeOverflow => .unitVariant (b! "NegativeOverflow")

/-- error.rs:71 `derive(Deserialize)` for `TryFromDurationError` -/
def deConversionError : Data → Option TryFromDurationError
  | .unitVariant name =>
    if name = b! "NegativeDuration" then some .negativeDuration
    else if name = b! "PositiveOverflow" then some .positiveOverflow
    else if name = b! "NegativeOverflow" then some .negativeOverflow
    else none
  | _ => none

/-- error.rs:16 `derive(Serialize)` for `ParseError` (variants error.rs:18-40). The model keeps the reason of an error
symbolically where the code has a `String`; what is serialized is this string. -/
def serParseError : ParseError → Data
  | .empty => .unitVariant (b! "Empty")
  | .syntax pos reason => .tupleVariant (b! "Syntax") [.int pos, .str reason.message]
  | .overflow => .unitVariant (b! "Overflow")
  | .timeUnit pos reason => .tupleVariant (b! "TimeUnit") [.int pos, .str reason.message]
  | .negativeExponentOverflow => .unitVariant (b! "NegativeExponentOverflow")
  | .positiveExponentOverflow => .unitVariant (b! "PositiveExponentOverflow")
  | .negativeNumber => .unitVariant (b! "NegativeNumber")
  | .invalidInput reason => .tupleVariant (b! "InvalidInput") [.str reason.message]

/-- a position and a text -/
def dePosition (make : Nat → Reason → ParseError) (pos text : Data) : Option ParseError := do
  let pos ← pos.toInt 0 U64_MAX
  some (make pos.toNat (.text (← text.toStr)))

/-- error.rs:16 `derive(Deserialize)` for `ParseError`; any text is accepted as a reason (`Reason.text`) -/
def deParseError : Data → Option ParseError
  | .unitVariant name =>
    if name = b! "Empty" then some .empty
    else if name = b! "Overflow" then some .overflow
    else if name = b! "NegativeExponentOverflow" then some .negativeExponentOverflow
    else if name = b! "PositiveExponentOverflow" then some .positiveExponentOverflow
    else if name = b! "NegativeNumber" then some .negativeNumber
    else none
  | .tupleVariant name [pos, text] =>
    if name = b! "Syntax" then dePosition .syntax pos text
    else if name = b! "TimeUnit" then dePosition .timeUnit pos text
    else none
  | .tupleVariant name [text] =>
    if name = b! "InvalidInput" then text.toStr.map fun t => .invalidInput (.text t) else none
  | _ => none

end Serde
end Fundu
