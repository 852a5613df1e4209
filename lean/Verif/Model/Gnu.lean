import Verif.Model.DateTime
import Verif.Model.Standard
/-!
# Model of fundu-gnu/src/lib.rs and `to_lowercase_u64` of fundu-gnu/src/util.rs

The system clock (`DateTime::now_utc`) is a parameter.
-/
namespace Fundu.Gnu
open Fundu

/-! ## Packed words -/

/-- gnu/util.rs:59-69 `LOWER_CASE_MASK` -/
def LOWER_CASE_MASK : List Nat := [
  0x0,
  0x0000000000000020,
  0x0000000000002020,
  0x0000000000202020,
  0x0000000020202020,
  0x0000002020202020,
  0x0000202020202020,
  0x0020202020202020,
  0x2020202020202020]

/-- gnu/util.rs:58-105 `to_lowercase_u64`. Copying `n` bytes into a zeroed `u64` and `u64::from_le`
give the little endian value of these bytes. With more than 16 bytes the copy would be out of bounds; the
`debug_assert!` comes before. -/
def toLowercaseU64 (string : Bytes) : Except Panic (Nat × Nat) := do
  assert (decide (string.length ≤ 16))
  if 8 < string.length then do
    let a ← index LOWER_CASE_MASK 8
    let b ← index LOWER_CASE_MASK (← subUsize string.length 8)
    return (leValue (string.take 8) ||| a, leValue (string.drop 8) ||| b)
  else do
    let a ← index LOWER_CASE_MASK string.length
    return (leValue string ||| a, 0)

/-- the arms of a `match to_lowercase_u64(identifier)`, tested from top to bottom -/
def matchWord {α} (word : Nat × Nat) : List ((Nat × Nat) × α) → Option α
  | [] => none
  | (w, a) :: arms => if word = w then some a else matchWord word arms

/-- `match to_lowercase_u64(identifier) { .. }` -/
def matchLower {α} (identifier : Bytes) (arms : List ((Nat × Nat) × α)) : Except Panic (Option α) := do
  return matchWord (← toLowercaseU64 identifier) arms

/-! ## Tables -/

/-- gnu/lib.rs:283 -/
def SECOND_UNIT : TimeUnit × Multiplier := (.second, ⟨1, 0⟩)
/-- gnu/lib.rs:284 -/
def MINUTE_UNIT : TimeUnit × Multiplier := (.minute, ⟨1, 0⟩)
/-- gnu/lib.rs:285 -/
def HOUR_UNIT : TimeUnit × Multiplier := (.hour, ⟨1, 0⟩)
/-- gnu/lib.rs:286 -/
def DAY_UNIT : TimeUnit × Multiplier := (.day, ⟨1, 0⟩)
/-- gnu/lib.rs:287 -/
def WEEK_UNIT : TimeUnit × Multiplier := (.week, ⟨1, 0⟩)
/-- gnu/lib.rs:288 -/
def FORTNIGHT_UNIT : TimeUnit × Multiplier := (.week, ⟨2, 0⟩)
/-- gnu/lib.rs:289 -/
def MONTH_UNIT : TimeUnit × Multiplier := (.month, ⟨1, 0⟩)
/-- gnu/lib.rs:290 -/
def YEAR_UNIT : TimeUnit × Multiplier := (.year, ⟨1, 0⟩)

/-- gnu/lib.rs:718-778 `TimeUnits::get`, with the constants of lines 719-738 -/
def timeUnitsGet (identifier : Bytes) : Except Panic (Option (TimeUnit × Multiplier)) :=
  match identifier.length with
  | 3 => matchLower identifier [
      ((0x0000000000636573, 0), SECOND_UNIT),
      ((0x00000000006E696D, 0), MINUTE_UNIT),
      ((0x0000000000796164, 0), DAY_UNIT)]
  | 4 => matchLower identifier [
      ((0x0000000073636573, 0), SECOND_UNIT),
      ((0x00000000736E696D, 0), MINUTE_UNIT),
      ((0x0000000073796164, 0), DAY_UNIT),
      ((0x0000000072756F68, 0), HOUR_UNIT),
      ((0x000000006B656577, 0), WEEK_UNIT),
      ((0x0000000072616579, 0), YEAR_UNIT)]
  | 5 => matchLower identifier [
      ((0x0000007372756F68, 0), HOUR_UNIT),
      ((0x000000736B656577, 0), WEEK_UNIT),
      ((0x0000007372616579, 0), YEAR_UNIT),
      ((0x00000068746E6F6D, 0), MONTH_UNIT)]
  | 6 => matchLower identifier [
      ((0x0000646E6F636573, 0), SECOND_UNIT),
      ((0x00006574756E696D, 0), MINUTE_UNIT),
      ((0x00007368746E6F6D, 0), MONTH_UNIT)]
  | 7 => matchLower identifier [
      ((0x0073646E6F636573, 0), SECOND_UNIT),
      ((0x00736574756E696D, 0), MINUTE_UNIT)]
  | 9 => matchLower identifier [((0x6867696E74726F66, 0x0000000000000074), FORTNIGHT_UNIT)]
  | 10 => matchLower identifier [((0x6867696E74726F66, 0x0000000000007374), FORTNIGHT_UNIT)]
  | _ => .ok none

/-- gnu/lib.rs:791-808 `TimeKeywords::get` -/
def timeKeywordsGet (identifier : Bytes) : Except Panic (Option (TimeUnit × Multiplier)) :=
  match identifier.length with
  | 3 => matchLower identifier [((0x0000000000776F6E, 0), (.day, ⟨0, 0⟩))]
  | 5 => matchLower identifier [((0x0000007961646F74, 0), (.day, ⟨0, 0⟩))]
  | 8 => matchLower identifier [((0x776F72726F6D6F74, 0), (.day, ⟨1, 0⟩))]
  | 9 => matchLower identifier [((0x6164726574736579, 0x0000000000000079), (.day, ⟨-1, 0⟩))]
  | _ => .ok none

/-- gnu/lib.rs:815-860 `Numerals::get` -/
def numeralsGet (identifier : Bytes) : Except Panic (Option Multiplier) :=
  match identifier.length with
  | 4 => matchLower identifier [
      ((0x000000007473616C, 0), ⟨-1, 0⟩),
      ((0x0000000073696874, 0), ⟨0, 0⟩),
      ((0x000000007478656E, 0), ⟨1, 0⟩)]
  | 5 => matchLower identifier [
      ((0x0000007473726966, 0), ⟨1, 0⟩),
      ((0x0000006472696874, 0), ⟨3, 0⟩),
      ((0x0000006874666966, 0), ⟨5, 0⟩),
      ((0x0000006874786973, 0), ⟨6, 0⟩),
      ((0x00000068746E696E, 0), ⟨9, 0⟩),
      ((0x00000068746E6574, 0), ⟨10, 0⟩)]
  | 6 => matchLower identifier [
      ((0x0000687472756F66, 0), ⟨4, 0⟩),
      ((0x0000687468676965, 0), ⟨8, 0⟩)]
  | 7 => matchLower identifier [
      ((0x0068746E65766573, 0), ⟨7, 0⟩),
      ((0x006874666C657774, 0), ⟨12, 0⟩)]
  | 8 => matchLower identifier [((0x68746E6576656C65, 0), ⟨11, 0⟩)]
  | _ => .ok none

/-- the value of a table lookup; that the lookups never panic is `C41_no_panic` -/
def found {α} : Except Panic (Option α) → Option α
  | .ok o => o
  | .error _ => none

/-- gnu/lib.rs:711-779 and gnu/lib.rs:279 -/
def TIME_UNITS : TimeUnitsLike := ⟨false, fun identifier => found (timeUnitsGet identifier)⟩

/-- gnu/lib.rs:784-809 and gnu/lib.rs:280 -/
def TIME_KEYWORDS : TimeUnitsLike := ⟨false, fun identifier => found (timeKeywordsGet identifier)⟩

/-- gnu/lib.rs:813-861 and gnu/lib.rs:281 -/
def NUMERALS : NumbersLike := fun identifier => found (numeralsGet identifier)

/-! ## Configuration -/

/-- gnu/lib.rs:264 -/
def DELIMITER : Delimiter := fun byte => byte = 32 || decide ((byte - 9).toNat < 5)

/-- gnu/lib.rs:266-277 -/
def CONFIG : Config :=
  ((((((((((ConfigBuilder.new.allowTimeUnitDelimiter).allowAgo).disableExponent).disableInfinity).allowNegative).numberIsOptional).parseMultiple
    none).allowSignDelimiter).innerDelimiter DELIMITER).outerDelimiter DELIMITER).build

/-! ## One duration -/

/-- gnu/lib.rs:294-309 `FuzzyUnit`, `FuzzyTime` and `ParseFuzzyOutput`: the value for a unit
`Month` or `Year`, or a duration -/
inductive FuzzyOutput where
  | duration (d : Duration)
  | months (value : Int)
  | years (value : Int)
  deriving DecidableEq, Repr

/-- gnu/lib.rs:345-356 and gnu/lib.rs:363-374: the number of whole seconds, or the early return of
`MIN`/`MAX`, then `calculate_duration` -/
def scaled (r : DurationRepr) (whole : Range) (attos : Nat → Except Panic Nat) (m : Multiplier) : R Duration := do
  let durationIsNegative := Bool.xor (r.isNegative.getD false) (decide (m.coefficient < 0))
  match ← liftP (do Whole.parse (← DurationRepr.rangeSlice r.input whole) none none) with
  | some seconds => liftP (do DurationRepr.calculateDuration durationIsNegative seconds (← attos seconds) m.coefficient)
  | none => return DurationRepr.saturated durationIsNegative

/-- gnu/lib.rs:314-380 `DurationReprParser::parse` -/
def parseRepr (r : DurationRepr) : R Duration :=
  let timeUnit := r.unit.getD r.defaultUnit
  match r.whole, r.fract with
  | none, none =>
    match r.numeral with
    | some numeral => liftP (do
        let m ← (← numeral.mul timeUnit.multiplier).mul r.multiplier
        r.parseDurationWithFixedNumber m.coefficient m.exponent)
    | none =>
      if r.unit.isSome then liftP (do
        let m ← timeUnit.multiplier.mul r.multiplier
        DurationRepr.calculateDuration (Bool.xor (r.isNegative.getD false) (decide (m.coefficient < 0))) 1 0 m.coefficient)
      else panic .unreachable
  | none, some _ =>
    if timeUnit = .second then fail (.invalidInput .fractionWithoutWhole)
    else fail (.invalidInput .fractionOnlyWithSeconds)
  | some whole, none => do
    let m ← liftP (timeUnit.multiplier.mul r.multiplier)
    scaled r whole (fun _ => .ok 0) m
  | some whole, some fract =>
    if timeUnit = .second then
      if fract.isEmpty then fail (.invalidInput .fractionWithoutFraction)
      else do
        let m ← liftP (timeUnit.multiplier.mul r.multiplier)
        scaled r whole (fun _ => do Fract.parse (← DurationRepr.rangeSlice r.input fract) none none) m
    else fail (.invalidInput .fractionOnlyWithSeconds)

/-- gnu/lib.rs:419-446: `-value`, `value`, or the smallest or largest `i64` -/
def fuzzyValue (isNegative : Bool) : Option Nat → R Int
  | some value =>
    if (value : Int) ≤ I64_MAX then
      if isNegative then liftP (arithI64 (-(value : Int))) else return (value : Int)
    else return (if isNegative then I64_MIN else I64_MAX)
  | none => return (if isNegative then I64_MIN else I64_MAX)

/-- gnu/lib.rs:395-448: the value of a fuzzy time unit -/
def fuzzyNumber (r : DurationRepr) : R Int :=
  match r.whole with
  | none =>
    match r.numeral with
    | some numeral => do
      let m ← liftP (numeral.mul r.multiplier)
      return (if r.isNegative.getD false then saturatingNegI64 m.coefficient else m.coefficient)
    | none => return (if Bool.xor (r.isNegative.getD false) r.multiplier.isNegative then -1 else 1)
  | some whole => do
    let isNegative := Bool.xor (r.isNegative.getD false) r.multiplier.isNegative
    fuzzyValue isNegative (← liftP (do Whole.parse (← DurationRepr.rangeSlice r.input whole) none none))

/-- gnu/lib.rs:389-448: a fuzzy time unit does not allow a fraction -/
def fuzzyUnit (r : DurationRepr) : R Int :=
  if r.fract.isSome then fail (.invalidInput .fractionOnlyWithSeconds) else fuzzyNumber r

/-- gnu/lib.rs:382-449 `DurationReprParser::parse_fuzzy` -/
def parseReprFuzzy (r : DurationRepr) : R FuzzyOutput :=
  if r.unit = some .month then FuzzyOutput.months <$> fuzzyUnit r
  else if r.unit = some .year then FuzzyOutput.years <$> fuzzyUnit r
  else FuzzyOutput.duration <$> parseRepr r

/-! ## The parser -/

/-- `i64::saturating_add` -/
def saturatingAddI64 (a b : Int) : Int :=
  if a + b < I64_MIN then I64_MIN else if I64_MAX < a + b then I64_MAX else a + b

/-- the variables `years`, `months` and `duration` of gnu/lib.rs:665-667 -/
structure Totals where
  years : Int
  months : Int
  duration : Duration
  deriving DecidableEq, Repr

/-- gnu/lib.rs:681-687: the accumulation of durations -/
def addDuration (duration parsed : Duration) : R Duration :=
  if duration.isZero then .ok parsed
  else if parsed.isZero then .ok duration
  else liftP (duration.saturatingAdd parsed)

/-- gnu/lib.rs:679-693 -/
def addOutput (t : Totals) : FuzzyOutput → R Totals
  | .duration parsed => do return { t with duration := ← addDuration t.duration parsed }
  | .months value => return { t with months := saturatingAddI64 t.months value }
  | .years value => return { t with years := saturatingAddI64 t.years value }

/-- the arguments of `ReprParserMultiple::parse`, gnu/lib.rs:672-677 -/
def env (cfg : Config) : Env :=
  { cfg := cfg, units := TIME_UNITS, keywords := some TIME_KEYWORDS, numerals := some NUMERALS }

/-- the loop of gnu/lib.rs:671-698. The second argument is fuel. -/
def fuzzyLoop (e : Env) : Nat → Totals → Cursor → R Totals
  | 0, _, _ => panic .fuel
  | fuel + 1, t, c => do
    let (repr, next) ← templateParse .multiple e c
    let output ← parseReprFuzzy repr
    let t ← addOutput t output
    match next with
    | some c => fuzzyLoop e fuel t c
    | none => return t

/-- gnu/lib.rs:507-509 `RelativeTimeParser`: `raw` is a `Parser`, whose only field is `config` -/
structure RelativeTimeParser where
  config : Config

namespace RelativeTimeParser

/-- gnu/lib.rs:530-534 (and gnu/lib.rs:702-706 `default`) -/
def new : RelativeTimeParser := ⟨CONFIG⟩

/-- gnu/lib.rs:662-699 `parse_fuzzy` -/
def parseFuzzy (p : RelativeTimeParser) (source : Bytes) : R (Int × Int × Duration) := do
  let trimmed ← trimWhitespace source
  let t ← fuzzyLoop (env p.config) (trimmed.length + 1) ⟨0, 0, Duration.ZERO⟩ (Cursor.new trimmed)
  return (t.years, t.months, t.duration)

/-- gnu/lib.rs:624-629: `none` is `None`, which becomes `Err(Overflow)` -/
def relativeTo (orig : DateTime) (years months : Int) (duration : Duration) : Except Panic (Option Duration) := do
  match ← orig.checkedAddDuration duration with
  | none => return none
  | some date =>
    match ← date.checkedAddGregorian years months 0 with
    | none => return none
    | some date => date.durationSince orig

/-- gnu/lib.rs:612-630 `parse_with_date`. `now` is the value of `DateTime::now_utc()`. -/
def parseWithDate (p : RelativeTimeParser) (now : DateTime) (source : Bytes) (date : Option DateTime) : R Duration := do
  let (years, months, duration) ← p.parseFuzzy source
  if years = 0 ∧ months = 0 then return duration
  else
    match ← liftP (relativeTo (date.getD now) years months duration) with
    | some d => return d
    | none => fail .overflow

/-- gnu/lib.rs:565-567 `parse` -/
def parse (p : RelativeTimeParser) (now : DateTime) (source : Bytes) : R Duration := p.parseWithDate now source none

end RelativeTimeParser

/-- gnu/lib.rs:292 `PARSER` -/
def PARSER : RelativeTimeParser := RelativeTimeParser.new

/-- gnu/lib.rs:885-887 the function `parse` -/
def parse (now : DateTime) (source : Bytes) : R Duration := PARSER.parse now source

/-- gnu/lib.rs:934-936 the function `parse_with_date` -/
def parseWithDate (now : DateTime) (source : Bytes) (date : Option DateTime) : R Duration :=
  PARSER.parseWithDate now source date

/-- gnu/lib.rs:969-971 the function `parse_fuzzy` -/
def parseFuzzy (source : Bytes) : R (Int × Int × Duration) := PARSER.parseFuzzy source

end Fundu.Gnu
