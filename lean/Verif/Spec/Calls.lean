import Verif.Model.Custom
/-!
# Specification of builders and setters

A sequence of calls is a list. What an option is after the calls depends on the last call which sets it.
-/
namespace Fundu.Spec

/-- the value after some calls: `setting` tells to what a call sets it, `initial` is its value before -/
def lastSetting {κ α : Type} (setting : κ → Option α) (initial : α) (calls : List κ) : α :=
  (calls.reverse.findSome? setting).getD initial

/-- a call of a method of a builder which sets an option -/
inductive BuilderCall where
  | defaultUnit (unit : TimeUnit)
  | allowTimeUnitDelimiter
  | allowSignDelimiter
  | allowNegative
  | allowAgo
  | disableExponent
  | disableFraction
  | disableInfinity
  | numberIsOptional
  | parseMultiple (conjunctions : Option (List Bytes))
  | innerDelimiter (delimiter : Delimiter)
  | outerDelimiter (delimiter : Delimiter)

/-- a call of a method of a parser which sets an option -/
inductive SetterCall where
  | defaultUnit (unit : TimeUnit)
  | allowTimeUnitDelimiter (value : Bool)
  | allowSignDelimiter (value : Bool)
  | allowNegative (value : Bool)
  | allowAgo (value : Bool)
  | disableExponent (value : Bool)
  | disableFraction (value : Bool)
  | disableInfinity (value : Bool)
  | numberIsOptional (value : Bool)
  | parseMultiple (value : Bool) (conjunctions : Option (List Bytes))
  | setInnerDelimiter (delimiter : Delimiter)
  | setOuterDelimiter (delimiter : Delimiter)

/-- the method of a parser which corresponds to a method of a builder -/
def BuilderCall.setter : BuilderCall → SetterCall
  | defaultUnit u => .defaultUnit u
  | allowTimeUnitDelimiter => .allowTimeUnitDelimiter true
  | allowSignDelimiter => .allowSignDelimiter true
  | allowNegative => .allowNegative true
  | allowAgo => .allowAgo true
  | disableExponent => .disableExponent true
  | disableFraction => .disableFraction true
  | disableInfinity => .disableInfinity true
  | numberIsOptional => .numberIsOptional true
  | parseMultiple c => .parseMultiple true c
  | innerDelimiter d => .setInnerDelimiter d
  | outerDelimiter d => .setOuterDelimiter d

/-- the options after some calls of setters: each has the value of the last call which sets it;
`allow_ago(true)` also sets `allow_negative`. -/
structure AfterCalls (initial : Config) (calls : List SetterCall) (c : Config) : Prop where
  defaultUnit : c.defaultUnit =
    lastSetting (fun | .defaultUnit u => some u | _ => none) initial.defaultUnit calls
  defaultMultiplier : c.defaultMultiplier = initial.defaultMultiplier
  allowTimeUnitDelimiter : c.allowTimeUnitDelimiter =
    lastSetting (fun | .allowTimeUnitDelimiter v => some v | _ => none) initial.allowTimeUnitDelimiter calls
  allowSignDelimiter : c.allowSignDelimiter =
    lastSetting (fun | .allowSignDelimiter v => some v | _ => none) initial.allowSignDelimiter calls
  allowNegative : c.allowNegative =
    lastSetting (fun | .allowNegative v => some v | .allowAgo true => some true | _ => none)
      initial.allowNegative calls
  allowAgo : c.allowAgo = lastSetting (fun | .allowAgo v => some v | _ => none) initial.allowAgo calls
  disableExponent : c.disableExponent =
    lastSetting (fun | .disableExponent v => some v | _ => none) initial.disableExponent calls
  disableFraction : c.disableFraction =
    lastSetting (fun | .disableFraction v => some v | _ => none) initial.disableFraction calls
  disableInfinity : c.disableInfinity =
    lastSetting (fun | .disableInfinity v => some v | _ => none) initial.disableInfinity calls
  numberIsOptional : c.numberIsOptional =
    lastSetting (fun | .numberIsOptional v => some v | _ => none) initial.numberIsOptional calls
  allowMultiple : c.allowMultiple =
    lastSetting (fun | .parseMultiple v _ => some v | _ => none) initial.allowMultiple calls
  conjunctions : c.conjunctions =
    lastSetting (fun | .parseMultiple _ w => some w | _ => none) initial.conjunctions calls
  innerDelimiter : c.innerDelimiter =
    lastSetting (fun | .setInnerDelimiter d => some d | _ => none) initial.innerDelimiter calls
  outerDelimiter : c.outerDelimiter =
    lastSetting (fun | .setOuterDelimiter d => some d | _ => none) initial.outerDelimiter calls

/-! The calls as calls of the methods of the model: -/

/-- calling a method of `ConfigBuilder` -/
def callConfigBuilder (b : ConfigBuilder) : BuilderCall → ConfigBuilder
  | .defaultUnit u => b.defaultUnit u
  | .allowTimeUnitDelimiter => b.allowTimeUnitDelimiter
  | .allowSignDelimiter => b.allowSignDelimiter
  | .allowNegative => b.allowNegative
  | .allowAgo => b.allowAgo
  | .disableExponent => b.disableExponent
  | .disableFraction => b.disableFraction
  | .disableInfinity => b.disableInfinity
  | .numberIsOptional => b.numberIsOptional
  | .parseMultiple c => b.parseMultiple c
  | .innerDelimiter d => b.innerDelimiter d
  | .outerDelimiter d => b.outerDelimiter d

/-- calling a method of `DurationParserBuilder` -/
def callStandardBuilder (b : DurationParserBuilder) : BuilderCall → DurationParserBuilder
  | .defaultUnit u => b.defaultUnit u
  | .allowTimeUnitDelimiter => b.allowTimeUnitDelimiter
  | .allowSignDelimiter => b.allowSignDelimiter
  | .allowNegative => b.allowNegative
  | .allowAgo => b.allowAgo
  | .disableExponent => b.disableExponent
  | .disableFraction => b.disableFraction
  | .disableInfinity => b.disableInfinity
  | .numberIsOptional => b.numberIsOptional
  | .parseMultiple c => b.parseMultiple c
  | .innerDelimiter d => b.innerDelimiter d
  | .outerDelimiter d => b.outerDelimiter d

/-- calling a method of `CustomDurationParserBuilder` -/
def callCustomBuilder (b : CustomDurationParserBuilder) : BuilderCall → CustomDurationParserBuilder
  | .defaultUnit u => b.defaultUnit u
  | .allowTimeUnitDelimiter => b.allowTimeUnitDelimiter
  | .allowSignDelimiter => b.allowSignDelimiter
  | .allowNegative => b.allowNegative
  | .allowAgo => b.allowAgo
  | .disableExponent => b.disableExponent
  | .disableFraction => b.disableFraction
  | .disableInfinity => b.disableInfinity
  | .numberIsOptional => b.numberIsOptional
  | .parseMultiple c => b.parseMultiple c
  | .innerDelimiter d => b.innerDelimiter d
  | .outerDelimiter d => b.outerDelimiter d

/-- calling a method of `DurationParser` -/
def callStandardParser (p : DurationParser) : SetterCall → DurationParser
  | .defaultUnit u => p.defaultUnit u
  | .allowTimeUnitDelimiter v => p.allowTimeUnitDelimiter v
  | .allowSignDelimiter v => p.allowSignDelimiter v
  | .allowNegative v => p.allowNegative v
  | .allowAgo v => p.allowAgo v
  | .disableExponent v => p.disableExponent v
  | .disableFraction v => p.disableFraction v
  | .disableInfinity v => p.disableInfinity v
  | .numberIsOptional v => p.numberIsOptional v
  | .parseMultiple v c => p.parseMultiple v c
  | .setInnerDelimiter d => p.setInnerDelimiter d
  | .setOuterDelimiter d => p.setOuterDelimiter d

/-- calling a method of `CustomDurationParser` -/
def callCustomParser (p : CustomDurationParser) : SetterCall → CustomDurationParser
  | .defaultUnit u => p.defaultUnit u
  | .allowTimeUnitDelimiter v => p.allowTimeUnitDelimiter v
  | .allowSignDelimiter v => p.allowSignDelimiter v
  | .allowNegative v => p.allowNegative v
  | .allowAgo v => p.allowAgo v
  | .disableExponent v => p.disableExponent v
  | .disableFraction v => p.disableFraction v
  | .disableInfinity v => p.disableInfinity v
  | .numberIsOptional v => p.numberIsOptional v
  | .parseMultiple v c => p.parseMultiple v c
  | .setInnerDelimiter d => p.setInnerDelimiter d
  | .setOuterDelimiter d => p.setOuterDelimiter d

/-- a call of a method choosing the time units of `DurationParserBuilder`, or setting an option -/
inductive StandardCall where
  | defaultTimeUnits
  | allTimeUnits
  | timeUnits (units : List TimeUnit)
  | option (call : BuilderCall)

/-- calling a method of `DurationParserBuilder` -/
def callStandard (b : DurationParserBuilder) : StandardCall → DurationParserBuilder
  | .defaultTimeUnits => b.defaultTimeUnits
  | .allTimeUnits => b.allTimeUnits
  | .timeUnits units => b.timeUnits units
  | .option call => callStandardBuilder b call

/-- a call of a method of `CustomDurationParserBuilder` -/
inductive CustomCall where
  | timeUnit (unit : CustomTimeUnit)
  | timeUnits (units : List CustomTimeUnit)
  | keyword (keyword : TimeKeyword)
  | keywords (keywords : List TimeKeyword)
  | numeral (numeral : Numeral)
  | numerals (numerals : List Numeral)
  | option (call : BuilderCall)

/-- calling a method of `CustomDurationParserBuilder` -/
def callCustom (b : CustomDurationParserBuilder) : CustomCall → CustomDurationParserBuilder
  | .timeUnit u => b.timeUnit u
  | .timeUnits us => b.addTimeUnits us
  | .keyword k => b.keyword k
  | .keywords ks => b.addKeywords ks
  | .numeral n => b.numeral n
  | .numerals ns => b.addNumerals ns
  | .option call => callCustomBuilder b call

/-- calling the corresponding method of `CustomDurationParser` -/
def callCustomSetter (p : CustomDurationParser) : CustomCall → CustomDurationParser
  | .timeUnit u => p.timeUnit u
  | .timeUnits us => p.addTimeUnits us
  | .keyword k => p.keyword k
  | .keywords ks => p.addKeywords ks
  | .numeral n => p.numeral n
  | .numerals ns => p.addNumerals ns
  | .option call => callCustomParser p call.setter

/-- the time units given by the calls, in this order -/
def CustomCall.units : CustomCall → List CustomTimeUnit
  | .timeUnit u => [u]
  | .timeUnits us => us
  | _ => []

/-- the keywords given by the calls, in this order -/
def CustomCall.keywordUnits : CustomCall → List TimeKeyword
  | .keyword k => [k]
  | .keywords ks => ks
  | _ => []

/-- the numerals given by the calls, in this order -/
def CustomCall.numeralList : CustomCall → List Numeral
  | .numeral n => [n]
  | .numerals ns => ns
  | _ => []

end Fundu.Spec
