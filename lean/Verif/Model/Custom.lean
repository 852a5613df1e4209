import Verif.Model.Standard
/-!
# Model of fundu/src/custom

Identifiers are byte strings (`&str`). `usize` lengths are unbounded.
-/
namespace Fundu

/-! ## fundu/src/custom/time_units.rs -/

/-- custom/time_units.rs:62-67 `struct LookupData` -/
structure LookupData where
  minLength : Nat
  maxLength : Nat
  timeUnit : TimeUnit
  multiplier : Multiplier
  deriving DecidableEq

namespace LookupData

/-- custom/time_units.rs:70-77 -/
def new (timeUnit : TimeUnit) (multiplier : Multiplier) : LookupData := ⟨U64_MAX, 0, timeUnit, multiplier⟩

/-- custom/time_units.rs:81-83 -/
def updateMin (d : LookupData) (len : Nat) : LookupData :=
  if len < d.minLength then { d with minLength := len } else d

/-- custom/time_units.rs:84-86 -/
def updateMax (d : LookupData) (len : Nat) : LookupData :=
  if d.maxLength < len then { d with maxLength := len } else d

/-- custom/time_units.rs:79-87 -/
def update (d : LookupData) (identifier : Bytes) : LookupData :=
  (d.updateMin identifier.length).updateMax identifier.length

/-- custom/time_units.rs:89-92 -/
def check (d : LookupData) (identifier : Bytes) : Bool :=
  decide (d.minLength ≤ identifier.length) && decide (identifier.length ≤ d.maxLength)

end LookupData

/-- custom/time_units.rs:186-190 `struct CustomTimeUnit` -/
structure CustomTimeUnit where
  baseUnit : TimeUnit
  multiplier : Multiplier
  identifiers : List Bytes
  deriving DecidableEq

namespace CustomTimeUnit

/-- custom/time_units.rs:210-230: panics if the multipliers overflow -/
def new (baseUnit : TimeUnit) (identifiers : List Bytes) (multiplier : Option Multiplier) :
    Except Panic CustomTimeUnit :=
  match multiplier with
  | some m =>
    if (baseUnit.multiplier.checkedMul m).isSome then .ok ⟨baseUnit, m, identifiers⟩ else .error .assert
  | none => .ok ⟨baseUnit, ⟨1, 0⟩, identifiers⟩

/-- custom/time_units.rs:248-250; the panic of `new` is impossible -/
def withDefault (baseUnit : TimeUnit) (identifiers : List Bytes) : CustomTimeUnit :=
  ⟨baseUnit, ⟨1, 0⟩, identifiers⟩

/-- custom/time_units.rs:256-260 `PartialEq`: the identifiers are not compared -/
def eq (a b : CustomTimeUnit) : Bool := decide (a.baseUnit = b.baseUnit) && decide (a.multiplier = b.multiplier)

/-- custom/time_units.rs:266-271 `impl Hash`: the data fed to the hasher (the derived hashes of the unit, its discriminant,
and of the multiplier, its fields) -/
def hashData (a : CustomTimeUnit) : Nat × Int × Int :=
  (a.baseUnit.index, a.multiplier.coefficient, a.multiplier.exponent)

end CustomTimeUnit

/-- custom/time_units.rs:429-431 `struct TimeKeyword` -/
structure TimeKeyword where
  timeUnit : CustomTimeUnit
  deriving DecidableEq

namespace TimeKeyword

/-- custom/time_units.rs:435-443 -/
def new (baseUnit : TimeUnit) (identifiers : List Bytes) (multiplier : Option Multiplier) :
    Except Panic TimeKeyword := do
  return ⟨← CustomTimeUnit.new baseUnit identifiers multiplier⟩

/-- custom/time_units.rs:446-448 -/
def toCustomTimeUnit (k : TimeKeyword) : CustomTimeUnit := k.timeUnit

/-- custom/time_units.rs:428 the derived `PartialEq` -/
def eq (a b : TimeKeyword) : Bool := a.timeUnit.eq b.timeUnit

end TimeKeyword

/-- custom/time_units.rs:273-278 `struct CustomTimeUnits` -/
structure CustomTimeUnits where
  minLength : Nat
  maxLength : Nat
  timeUnits : List (LookupData × List Bytes)
  deriving DecidableEq

namespace CustomTimeUnits

/-- custom/time_units.rs:301-307, the capacity is not modelled;
custom/time_units.rs:281-283 -/
def new : CustomTimeUnits := ⟨U64_MAX, 0, []⟩

/-- custom/time_units.rs:320-323 and 328-331: the non-empty identifiers are pushed -/
def pushIds (identifiers : List Bytes) (entry : LookupData × List Bytes) : LookupData × List Bytes :=
  (identifiers.filter (fun id => !id.isEmpty)).foldl
    (fun (entry : LookupData × List Bytes) identifier => (entry.1.update identifier, entry.2 ++ [identifier])) entry

/-- custom/time_units.rs:342-351 `lookup_mut` and the loop custom/time_units.rs:320-324: change the first entry
for this unit and multiplier, if there is one. The lengths of this entry are returned, too. -/
def extend (unit : TimeUnit) (multiplier : Multiplier) (identifiers : List Bytes) :
    List (LookupData × List Bytes) → Option (List (LookupData × List Bytes) × Nat × Nat)
  | [] => none
  | (data, ids) :: rest =>
    if data.timeUnit = unit ∧ data.multiplier = multiplier then
      let entry := pushIds identifiers (data, ids)
      some (entry :: rest, entry.1.minLength, entry.1.maxLength)
    else
      match extend unit multiplier identifiers rest with
      | none => none
      | some (rest, lengths) => some ((data, ids) :: rest, lengths)

/-- custom/time_units.rs:370-372 -/
def updateMin (t : CustomTimeUnits) (len : Nat) : CustomTimeUnits :=
  if len < t.minLength then { t with minLength := len } else t

/-- custom/time_units.rs:373-375 -/
def updateMax (t : CustomTimeUnits) (len : Nat) : CustomTimeUnits :=
  if t.maxLength < len then { t with maxLength := len } else t

/-- custom/time_units.rs:369-376 -/
def updateLengths (t : CustomTimeUnits) (minLength maxLength : Nat) : CustomTimeUnits :=
  (t.updateMin minLength).updateMax maxLength

/-- custom/time_units.rs:325-338: there is no entry for this unit and multiplier yet -/
def pushNew (t : CustomTimeUnits) (unit : CustomTimeUnit) : CustomTimeUnits :=
  let entry := pushIds unit.identifiers (LookupData.new unit.baseUnit unit.multiplier, [])
  if entry.2.isEmpty then t
  else { t with timeUnits := t.timeUnits ++ [entry] }.updateLengths entry.1.minLength entry.1.maxLength

/-- custom/time_units.rs:309-340 -/
def addCustomTimeUnit (t : CustomTimeUnits) (unit : CustomTimeUnit) : CustomTimeUnits :=
  if unit.identifiers.isEmpty then t
  else
    match extend unit.baseUnit unit.multiplier unit.identifiers t.timeUnits with
    | some (timeUnits, minLength, maxLength) =>
      { t with timeUnits := timeUnits }.updateLengths minLength maxLength
    | none => t.pushNew unit

/-- custom/time_units.rs:285-291 -/
def withTimeUnits (units : List CustomTimeUnit) : CustomTimeUnits := units.foldl addCustomTimeUnit new

/-- custom/time_units.rs:293-299 -/
def withKeywords (keywords : List TimeKeyword) : CustomTimeUnits :=
  keywords.foldl (fun t k => t.addCustomTimeUnit k.toCustomTimeUnit) new

/-- custom/time_units.rs:364-366: the closure of `find_map` -/
def entryFor (id : Bytes) (entry : LookupData × List Bytes) : Option (TimeUnit × Multiplier) :=
  if entry.1.check id && entry.2.contains id then some (entry.1.timeUnit, entry.1.multiplier) else none

/-- custom/time_units.rs:363-367 -/
def findId (t : CustomTimeUnits) (id : Bytes) : Option (TimeUnit × Multiplier) :=
  t.timeUnits.findSome? (entryFor id)

/-- custom/time_units.rs:381-383 -/
def isEmpty (t : CustomTimeUnits) : Bool := t.timeUnits.isEmpty

/-- custom/time_units.rs:386-392 -/
def get (t : CustomTimeUnits) (identifier : Bytes) : Option (TimeUnit × Multiplier) :=
  if identifier.length < t.minLength ∨ t.maxLength < identifier.length then none else t.findId identifier

/-- custom/time_units.rs:379-393 `impl TimeUnitsLike` -/
def like (t : CustomTimeUnits) : TimeUnitsLike := ⟨t.isEmpty, t.get⟩

end CustomTimeUnits

/-- custom/time_units.rs:19-30 `SYSTEMD_TIME_UNITS` -/
def SYSTEMD_TIME_UNITS : List CustomTimeUnit := [
  .withDefault .nanoSecond [b! "ns", b! "nsec"],
  .withDefault .microSecond [b! "us", b! "µs", b! "usec"],
  .withDefault .milliSecond [b! "ms", b! "msec"],
  .withDefault .second [b! "s", b! "sec", b! "second", b! "seconds"],
  .withDefault .minute [b! "m", b! "min", b! "minute", b! "minutes"],
  .withDefault .hour [b! "h", b! "hr", b! "hour", b! "hours"],
  .withDefault .day [b! "d", b! "day", b! "days"],
  .withDefault .week [b! "w", b! "week", b! "weeks"],
  .withDefault .month [b! "M", b! "month", b! "months"],
  .withDefault .year [b! "y", b! "year", b! "years"]]

/-- custom/time_units.rs:34-43 `DEFAULT_TIME_UNITS` -/
def DEFAULT_TIME_UNITS : List CustomTimeUnit := [
  .withDefault .nanoSecond [b! "ns"], .withDefault .microSecond [b! "Ms"], .withDefault .milliSecond [b! "ms"],
  .withDefault .second [b! "s"], .withDefault .minute [b! "m"], .withDefault .hour [b! "h"],
  .withDefault .day [b! "d"], .withDefault .week [b! "w"]]

/-- custom/time_units.rs:46-57 `DEFAULT_ALL_TIME_UNITS` -/
def DEFAULT_ALL_TIME_UNITS : List CustomTimeUnit := [
  .withDefault .nanoSecond [b! "ns"], .withDefault .microSecond [b! "Ms"], .withDefault .milliSecond [b! "ms"],
  .withDefault .second [b! "s"], .withDefault .minute [b! "m"], .withDefault .hour [b! "h"],
  .withDefault .day [b! "d"], .withDefault .week [b! "w"], .withDefault .month [b! "M"],
  .withDefault .year [b! "y"]]

/-! ## fundu/src/custom/mod.rs -/

/-- custom/mod.rs:42-46 `struct Numeral`, with custom/mod.rs:58-63 `new` as constructor -/
structure Numeral where
  identifiers : List Bytes
  multiplier : Multiplier
  deriving DecidableEq

/-- custom/mod.rs:85-94 `NumbersLike for Numerals`; `Numerals` is the list of numerals (custom/mod.rs:66-83) -/
def numeralsGet (numerals : List Numeral) (input : Bytes) : Option Multiplier :=
  numerals.findSome? fun numeral =>
    numeral.identifiers.findSome? fun id => if id = input then some numeral.multiplier else none

/-! ## fundu/src/custom/parser.rs -/

/-- custom/parser.rs:38-43 `struct CustomDurationParser` -/
structure CustomDurationParser where
  timeUnits : CustomTimeUnits
  keywords : CustomTimeUnits
  numerals : List Numeral
  config : Config

namespace CustomDurationParser

/-- custom/parser.rs:57-64 -/
def new : CustomDurationParser := ⟨CustomTimeUnits.new, CustomTimeUnits.new, [], {}⟩

/-- custom/parser.rs:112-119 -/
def withTimeUnits (units : List CustomTimeUnit) : CustomDurationParser :=
  ⟨CustomTimeUnits.withTimeUnits units, CustomTimeUnits.new, [], {}⟩

/-- custom/parser.rs:216-219 -/
def timeUnit (p : CustomDurationParser) (unit : CustomTimeUnit) : CustomDurationParser :=
  { p with timeUnits := p.timeUnits.addCustomTimeUnit unit }

/-- custom/parser.rs:244-249 -/
def addTimeUnits (p : CustomDurationParser) (units : List CustomTimeUnit) : CustomDurationParser :=
  units.foldl timeUnit p

/-- custom/parser.rs:284-288 -/
def keyword (p : CustomDurationParser) (keyword : TimeKeyword) : CustomDurationParser :=
  { p with keywords := p.keywords.addCustomTimeUnit keyword.toCustomTimeUnit }

/-- custom/parser.rs:313-318 -/
def addKeywords (p : CustomDurationParser) (keywords : List TimeKeyword) : CustomDurationParser :=
  keywords.foldl keyword p

/-- custom/parser.rs:339-342 -/
def numeral (p : CustomDurationParser) (numeral : Numeral) : CustomDurationParser :=
  { p with numerals := p.numerals ++ [numeral] }

/-- custom/parser.rs:372-377 -/
def addNumerals (p : CustomDurationParser) (numerals : List Numeral) : CustomDurationParser :=
  numerals.foldl numeral p

/-- custom/parser.rs:398-405 -/
def parse (p : CustomDurationParser) (source : Bytes) : R Duration :=
  Fundu.parse p.config p.timeUnits.like
    (if !p.keywords.isEmpty then some p.keywords.like else none)
    (if !p.numerals.isEmpty then some (numeralsGet p.numerals) else none) source

/-- custom/parser.rs:836-838 -/
def getTimeUnitById (p : CustomDurationParser) (identifier : Bytes) : Option (TimeUnit × Multiplier) :=
  p.timeUnits.get identifier

/-- custom/parser.rs:850-852 -/
def isEmpty (p : CustomDurationParser) : Bool := p.timeUnits.isEmpty

/-- custom/parser.rs:426-429 -/
def defaultUnit (p : CustomDurationParser) (unit : TimeUnit) : CustomDurationParser := { p with config := { p.config with defaultUnit := unit } }

/-- custom/parser.rs:457-460 -/
def allowTimeUnitDelimiter (p : CustomDurationParser) (value : Bool) : CustomDurationParser := { p with config := { p.config with allowTimeUnitDelimiter := value } }

/-- custom/parser.rs:481-484 -/
def allowSignDelimiter (p : CustomDurationParser) (value : Bool) : CustomDurationParser := { p with config := { p.config with allowSignDelimiter := value } }

/-- custom/parser.rs:518-521 -/
def allowNegative (p : CustomDurationParser) (value : Bool) : CustomDurationParser := { p with config := { p.config with allowNegative := value } }

/-- custom/parser.rs:591-597 -/
def allowAgo (p : CustomDurationParser) (value : Bool) : CustomDurationParser :=
  let p := { p with config := { p.config with allowAgo := value } }
  if value then { p with config := { p.config with allowNegative := true } } else p

/-- custom/parser.rs:615-618 -/
def disableExponent (p : CustomDurationParser) (value : Bool) : CustomDurationParser := { p with config := { p.config with disableExponent := value } }

/-- custom/parser.rs:646-649 -/
def disableFraction (p : CustomDurationParser) (value : Bool) : CustomDurationParser := { p with config := { p.config with disableFraction := value } }

/-- custom/parser.rs:676-679 -/
def disableInfinity (p : CustomDurationParser) (value : Bool) : CustomDurationParser := { p with config := { p.config with disableInfinity := value } }

/-- custom/parser.rs:697-700 -/
def numberIsOptional (p : CustomDurationParser) (value : Bool) : CustomDurationParser := { p with config := { p.config with numberIsOptional := value } }

/-- custom/parser.rs:733-741 -/
def parseMultiple (p : CustomDurationParser) (value : Bool) (conjunctions : Option (List Bytes)) : CustomDurationParser :=
  { p with config := { p.config with allowMultiple := value, conjunctions := conjunctions } }

/-- custom/parser.rs:771-774 -/
def setInnerDelimiter (p : CustomDurationParser) (delimiter : Delimiter) : CustomDurationParser :=
  { p with config := { p.config with innerDelimiter := delimiter } }

/-- custom/parser.rs:809-812 -/
def setOuterDelimiter (p : CustomDurationParser) (delimiter : Delimiter) : CustomDurationParser :=
  { p with config := { p.config with outerDelimiter := delimiter } }

end CustomDurationParser

/-! ## fundu/src/custom/builder.rs -/

/-- custom/builder.rs:43-48 `struct CustomDurationParserBuilder` -/
structure CustomDurationParserBuilder where
  config : Config
  timeUnits : List CustomTimeUnit
  keywords : List TimeKeyword
  numerals : List Numeral

namespace CustomDurationParserBuilder

/-- custom/builder.rs:73-80 -/
def new : CustomDurationParserBuilder := ⟨{}, [], [], []⟩

/-- custom/builder.rs:104-107 -/
def timeUnit (b : CustomDurationParserBuilder) (unit : CustomTimeUnit) : CustomDurationParserBuilder :=
  { b with timeUnits := b.timeUnits ++ [unit] }

/-- custom/builder.rs:131-138 -/
def addTimeUnits (b : CustomDurationParserBuilder) (units : List CustomTimeUnit) : CustomDurationParserBuilder :=
  units.foldl timeUnit b

/-- custom/builder.rs:172-175 -/
def keyword (b : CustomDurationParserBuilder) (keyword : TimeKeyword) : CustomDurationParserBuilder :=
  { b with keywords := b.keywords ++ [keyword] }

/-- custom/builder.rs:204-211 -/
def addKeywords (b : CustomDurationParserBuilder) (keywords : List TimeKeyword) : CustomDurationParserBuilder :=
  keywords.foldl keyword b

/-- custom/builder.rs:233-236 -/
def numeral (b : CustomDurationParserBuilder) (numeral : Numeral) : CustomDurationParserBuilder :=
  { b with numerals := b.numerals ++ [numeral] }

/-- custom/builder.rs:265-270 -/
def addNumerals (b : CustomDurationParserBuilder) (numerals : List Numeral) : CustomDurationParserBuilder :=
  numerals.foldl numeral b

/-- custom/builder.rs:291-294 -/
def defaultUnit (b : CustomDurationParserBuilder) (unit : TimeUnit) : CustomDurationParserBuilder := { b with config := { b.config with defaultUnit := unit } }

/-- custom/builder.rs:315-318 -/
def allowTimeUnitDelimiter (b : CustomDurationParserBuilder) : CustomDurationParserBuilder := { b with config := { b.config with allowTimeUnitDelimiter := true } }

/-- custom/builder.rs:340-343 -/
def allowSignDelimiter (b : CustomDurationParserBuilder) : CustomDurationParserBuilder := { b with config := { b.config with allowSignDelimiter := true } }

/-- custom/builder.rs:375-378 -/
def allowNegative (b : CustomDurationParserBuilder) : CustomDurationParserBuilder := { b with config := { b.config with allowNegative := true } }

/-- custom/builder.rs:448-452 -/
def allowAgo (b : CustomDurationParserBuilder) : CustomDurationParserBuilder := { b with config := { b.config with allowAgo := true, allowNegative := true } }

/-- custom/builder.rs:471-474 -/
def disableExponent (b : CustomDurationParserBuilder) : CustomDurationParserBuilder := { b with config := { b.config with disableExponent := true } }

/-- custom/builder.rs:502-505 -/
def disableFraction (b : CustomDurationParserBuilder) : CustomDurationParserBuilder := { b with config := { b.config with disableFraction := true } }

/-- custom/builder.rs:533-536 -/
def disableInfinity (b : CustomDurationParserBuilder) : CustomDurationParserBuilder := { b with config := { b.config with disableInfinity := true } }

/-- custom/builder.rs:556-559 -/
def numberIsOptional (b : CustomDurationParserBuilder) : CustomDurationParserBuilder := { b with config := { b.config with numberIsOptional := true } }

/-- custom/builder.rs:596-600 -/
def parseMultiple (b : CustomDurationParserBuilder) (conjunctions : Option (List Bytes)) : CustomDurationParserBuilder :=
  { b with config := { b.config with allowMultiple := true, conjunctions := conjunctions } }

/-- custom/builder.rs:665-668 -/
def innerDelimiter (b : CustomDurationParserBuilder) (delimiter : Delimiter) : CustomDurationParserBuilder :=
  { b with config := { b.config with innerDelimiter := delimiter } }

/-- custom/builder.rs:634-637 -/
def outerDelimiter (b : CustomDurationParserBuilder) (delimiter : Delimiter) : CustomDurationParserBuilder :=
  { b with config := { b.config with outerDelimiter := delimiter } }

/-- custom/builder.rs:696-703 -/
def build (b : CustomDurationParserBuilder) : CustomDurationParser :=
  ⟨CustomTimeUnits.withTimeUnits b.timeUnits, CustomTimeUnits.withKeywords b.keywords, b.numerals, b.config⟩

end CustomDurationParserBuilder
end Fundu
