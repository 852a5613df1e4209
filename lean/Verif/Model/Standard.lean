import Verif.Model.Parse
/-!
# Model of fundu-core/src/config.rs (`ConfigBuilder`) and fundu/src/standard

A method taking `mut self` or `&mut self` and giving the changed value back is a function.
-/
namespace Fundu

/-! ## fundu-core/src/config.rs -/

/-- config.rs:329-332 `struct ConfigBuilder` -/
structure ConfigBuilder where
  config : Config

namespace ConfigBuilder

/-- config.rs:347-351 -/
def new : ConfigBuilder := ⟨{}⟩

/-- config.rs:364-366 -/
def build (b : ConfigBuilder) : Config := b.config

/-- config.rs:416-419 -/
def defaultUnit (b : ConfigBuilder) (unit : TimeUnit) : ConfigBuilder := { b with config := { b.config with defaultUnit := unit } }

/-- config.rs:395-398 -/
def allowTimeUnitDelimiter (b : ConfigBuilder) : ConfigBuilder := { b with config := { b.config with allowTimeUnitDelimiter := true } }

/-- config.rs:569-572 -/
def allowSignDelimiter (b : ConfigBuilder) : ConfigBuilder := { b with config := { b.config with allowSignDelimiter := true } }

/-- config.rs:506-509 -/
def allowNegative (b : ConfigBuilder) : ConfigBuilder := { b with config := { b.config with allowNegative := true } }

/-- config.rs:550-554 -/
def allowAgo (b : ConfigBuilder) : ConfigBuilder := { b with config := { b.config with allowAgo := true, allowNegative := true } }

/-- config.rs:434-437 -/
def disableExponent (b : ConfigBuilder) : ConfigBuilder := { b with config := { b.config with disableExponent := true } }

/-- config.rs:452-455 -/
def disableFraction (b : ConfigBuilder) : ConfigBuilder := { b with config := { b.config with disableFraction := true } }

/-- config.rs:470-473 -/
def disableInfinity (b : ConfigBuilder) : ConfigBuilder := { b with config := { b.config with disableInfinity := true } }

/-- config.rs:488-491 -/
def numberIsOptional (b : ConfigBuilder) : ConfigBuilder := { b with config := { b.config with numberIsOptional := true } }

/-- config.rs:528-532 -/
def parseMultiple (b : ConfigBuilder) (conjunctions : Option (List Bytes)) : ConfigBuilder :=
  { b with config := { b.config with allowMultiple := true, conjunctions := conjunctions } }

/-- config.rs:596-599 -/
def innerDelimiter (b : ConfigBuilder) (delimiter : Delimiter) : ConfigBuilder :=
  { b with config := { b.config with innerDelimiter := delimiter } }

/-- config.rs:622-625 -/
def outerDelimiter (b : ConfigBuilder) (delimiter : Delimiter) : ConfigBuilder :=
  { b with config := { b.config with outerDelimiter := delimiter } }

end ConfigBuilder

/-! ## fundu/src/standard/time_units.rs -/

/-- standard/time_units.rs:15-26 -/
def STANDARD_TIME_UNITS : List Bytes :=
  [b! "ns", b! "Ms", b! "ms", b! "s", b! "m", b! "h", b! "d", b! "w", b! "M", b! "y"]

/-- standard/time_units.rs:29-32 `struct TimeUnits`: an array of length 10 -/
structure TimeUnits where
  data : List (Option TimeUnit)
  deriving DecidableEq

namespace TimeUnits

/-- standard/time_units.rs:43-45 -/
def isEmpty (t : TimeUnits) : Bool := t.data.all (·.isNone)

/-- standard/time_units.rs:54-57: the closure of `find_map` -/
def matching (identifier : Bytes) (t : TimeUnit) : Option (TimeUnit × Multiplier) :=
  if STANDARD_TIME_UNITS[t.index]? = some identifier then some (t, Multiplier.default) else none

/-- standard/time_units.rs:52-64 -/
def get (t : TimeUnits) (identifier : Bytes) : Option (TimeUnit × Multiplier) :=
  if identifier.length = 1 then ((t.data.drop 3).filterMap id).findSome? (matching identifier)
  else if identifier.length = 2 then ((t.data.take 3).filterMap id).findSome? (matching identifier)
  else none

/-- standard/time_units.rs:69-71 -/
def new : TimeUnits := ⟨List.replicate 10 none⟩

/-- standard/time_units.rs:74-83 -/
def withTimeUnits (units : List TimeUnit) : TimeUnits :=
  ⟨units.foldl (fun data unit => data.set unit.index (some unit)) (List.replicate 10 none)⟩

/-- standard/time_units.rs:86-101 -/
def withDefaultTimeUnits : TimeUnits :=
  ⟨[some .nanoSecond, some .microSecond, some .milliSecond, some .second, some .minute, some .hour,
    some .day, some .week, none, none]⟩

/-- standard/time_units.rs:104-119 -/
def withAllTimeUnits : TimeUnits :=
  ⟨[some .nanoSecond, some .microSecond, some .milliSecond, some .second, some .minute, some .hour,
    some .day, some .week, some .month, some .year]⟩

/-- standard/time_units.rs:122-124 -/
def getTimeUnits (t : TimeUnits) : List TimeUnit := t.data.filterMap id

/-- standard/time_units.rs:40-65 `impl TimeUnitsLike` -/
def like (t : TimeUnits) : TimeUnitsLike := ⟨t.isEmpty, t.get⟩

end TimeUnits

/-! ## fundu/src/standard/parser.rs -/

/-- standard/parser.rs:46-49 `struct DurationParser`; the `config` is that of the inner `Parser` -/
structure DurationParser where
  timeUnits : TimeUnits
  config : Config

namespace DurationParser

/-- standard/parser.rs:88-93 -/
def new : DurationParser := ⟨TimeUnits.withDefaultTimeUnits, {}⟩

/-- standard/parser.rs:110-115 -/
def withTimeUnits (units : List TimeUnit) : DurationParser := ⟨TimeUnits.withTimeUnits units, {}⟩

/-- standard/parser.rs:134-139 -/
def withoutTimeUnits : DurationParser := ⟨TimeUnits.new, {}⟩

/-- standard/parser.rs:165-170 -/
def withAllTimeUnits : DurationParser := ⟨TimeUnits.withAllTimeUnits, {}⟩

/-- standard/parser.rs:228-230 -/
def parse (p : DurationParser) (source : Bytes) : R Duration :=
  Fundu.parse p.config p.timeUnits.like none none source

/-- standard/parser.rs:658-660 -/
def getCurrentTimeUnits (p : DurationParser) : List TimeUnit := p.timeUnits.getTimeUnits

/-- standard/parser.rs:251-254 -/
def defaultUnit (p : DurationParser) (unit : TimeUnit) : DurationParser := { p with config := { p.config with defaultUnit := unit } }

/-- standard/parser.rs:285-288 -/
def allowTimeUnitDelimiter (p : DurationParser) (value : Bool) : DurationParser := { p with config := { p.config with allowTimeUnitDelimiter := value } }

/-- standard/parser.rs:309-312 -/
def allowSignDelimiter (p : DurationParser) (value : Bool) : DurationParser := { p with config := { p.config with allowSignDelimiter := value } }

/-- standard/parser.rs:330-333 -/
def allowNegative (p : DurationParser) (value : Bool) : DurationParser := { p with config := { p.config with allowNegative := value } }

/-- standard/parser.rs:381-387 -/
def allowAgo (p : DurationParser) (value : Bool) : DurationParser :=
  let p := { p with config := { p.config with allowAgo := value } }
  if value then { p with config := { p.config with allowNegative := true } } else p

/-- standard/parser.rs:406-409 -/
def disableExponent (p : DurationParser) (value : Bool) : DurationParser := { p with config := { p.config with disableExponent := value } }

/-- standard/parser.rs:437-440 -/
def disableFraction (p : DurationParser) (value : Bool) : DurationParser := { p with config := { p.config with disableFraction := value } }

/-- standard/parser.rs:467-470 -/
def disableInfinity (p : DurationParser) (value : Bool) : DurationParser := { p with config := { p.config with disableInfinity := value } }

/-- standard/parser.rs:490-493 -/
def numberIsOptional (p : DurationParser) (value : Bool) : DurationParser := { p with config := { p.config with numberIsOptional := value } }

/-- standard/parser.rs:562-570 -/
def parseMultiple (p : DurationParser) (value : Bool) (conjunctions : Option (List Bytes)) : DurationParser :=
  { p with config := { p.config with allowMultiple := value, conjunctions := conjunctions } }

/-- standard/parser.rs:599-602 -/
def setInnerDelimiter (p : DurationParser) (delimiter : Delimiter) : DurationParser :=
  { p with config := { p.config with innerDelimiter := delimiter } }

/-- standard/parser.rs:637-640 -/
def setOuterDelimiter (p : DurationParser) (delimiter : Delimiter) : DurationParser :=
  { p with config := { p.config with outerDelimiter := delimiter } }

end DurationParser

/-- standard/parser.rs:700-706 -/
def parseDuration (string : Bytes) : R StdDuration := do
  match (← DurationParser.new.parse string).toStd with
  | .ok d => return d
  | .error _ => panic .unwrap

/-! ## fundu/src/standard/builder.rs -/

/-- standard/builder.rs:14-19 `enum TimeUnitsChoice` -/
inductive TimeUnitsChoice where
  | default | all | none | custom (units : List TimeUnit)

/-- standard/builder.rs:66-70 `struct DurationParserBuilder` -/
structure DurationParserBuilder where
  timeUnitsChoice : TimeUnitsChoice
  config : Config

namespace DurationParserBuilder

/-- standard/builder.rs:102-107 -/
def new : DurationParserBuilder := ⟨.none, {}⟩

/-- standard/builder.rs:153-156 -/
def defaultTimeUnits (b : DurationParserBuilder) : DurationParserBuilder := { b with timeUnitsChoice := .default }

/-- standard/builder.rs:205-208 -/
def allTimeUnits (b : DurationParserBuilder) : DurationParserBuilder := { b with timeUnitsChoice := .all }

/-- standard/builder.rs:232-235 -/
def timeUnits (b : DurationParserBuilder) (units : List TimeUnit) : DurationParserBuilder :=
  { b with timeUnitsChoice := .custom units }

/-- standard/builder.rs:257-260 -/
def defaultUnit (b : DurationParserBuilder) (unit : TimeUnit) : DurationParserBuilder := { b with config := { b.config with defaultUnit := unit } }

/-- standard/builder.rs:283-286 -/
def allowTimeUnitDelimiter (b : DurationParserBuilder) : DurationParserBuilder := { b with config := { b.config with allowTimeUnitDelimiter := true } }

/-- standard/builder.rs:307-310 -/
def allowSignDelimiter (b : DurationParserBuilder) : DurationParserBuilder := { b with config := { b.config with allowSignDelimiter := true } }

/-- standard/builder.rs:326-329 -/
def allowNegative (b : DurationParserBuilder) : DurationParserBuilder := { b with config := { b.config with allowNegative := true } }

/-- standard/builder.rs:378-382 -/
def allowAgo (b : DurationParserBuilder) : DurationParserBuilder := { b with config := { b.config with allowAgo := true, allowNegative := true } }

/-- standard/builder.rs:402-405 -/
def disableExponent (b : DurationParserBuilder) : DurationParserBuilder := { b with config := { b.config with disableExponent := true } }

/-- standard/builder.rs:432-435 -/
def disableFraction (b : DurationParserBuilder) : DurationParserBuilder := { b with config := { b.config with disableFraction := true } }

/-- standard/builder.rs:461-464 -/
def disableInfinity (b : DurationParserBuilder) : DurationParserBuilder := { b with config := { b.config with disableInfinity := true } }

/-- standard/builder.rs:483-486 -/
def numberIsOptional (b : DurationParserBuilder) : DurationParserBuilder := { b with config := { b.config with numberIsOptional := true } }

/-- standard/builder.rs:521-525 -/
def parseMultiple (b : DurationParserBuilder) (conjunctions : Option (List Bytes)) : DurationParserBuilder :=
  { b with config := { b.config with allowMultiple := true, conjunctions := conjunctions } }

/-- standard/builder.rs:553-556 -/
def innerDelimiter (b : DurationParserBuilder) (delimiter : Delimiter) : DurationParserBuilder :=
  { b with config := { b.config with innerDelimiter := delimiter } }

/-- standard/builder.rs:590-593 -/
def outerDelimiter (b : DurationParserBuilder) (delimiter : Delimiter) : DurationParserBuilder :=
  { b with config := { b.config with outerDelimiter := delimiter } }

/-- standard/builder.rs:607-628 -/
def build (b : DurationParserBuilder) : DurationParser :=
  match b.timeUnitsChoice with
  | .default => ⟨TimeUnits.withDefaultTimeUnits, b.config⟩
  | .all => ⟨TimeUnits.withAllTimeUnits, b.config⟩
  | .none => ⟨TimeUnits.new, b.config⟩
  | .custom units => ⟨TimeUnits.withTimeUnits units, b.config⟩

end DurationParserBuilder
end Fundu
