import Verif.Conformance.Basic
/-! Generated by tools/conformance.py from fundu-core/tests/test_parsing_numerals.rs: 25 cases. -/
namespace Fundu.Conformance.Numerals

def twoNumerals : NumbersLike := fun w =>
  if w = b! "next" then some ⟨1, 0⟩ else if w = b! "three" then some ⟨3, 0⟩ else none
def twoTimeUnits : TimeUnitsLike := ⟨false, fun w =>
  if w = b! "second" then some (.second, ⟨1, 0⟩) else if w = b! "minute" then some (.minute, ⟨1, 0⟩) else none⟩
def emptyTimeUnits : TimeUnitsLike := ⟨true, fun _ => none⟩
def tomorrowKeyword : TimeUnitsLike := ⟨false, fun w => if w = b! "tomorrow" then some (.day, ⟨1, 0⟩) else none⟩
def spaceDelimiter : Delimiter := fun b => b = 32
def parse3 (cfg : Config) (s : Bytes) : R Duration := parse cfg twoTimeUnits (some tomorrowKeyword) (some twoNumerals) s
def numeralsMultiple : Config :=
  ConfigBuilder.new.allowTimeUnitDelimiter.parseMultiple none |>.innerDelimiter spaceDelimiter
    |>.outerDelimiter spaceDelimiter |>.build

/-- fundu-core/tests/test_parsing_numerals.rs:99 `test_parse_with_numerals`: 6 cases -/
example : ([
  ((b! "next second"), ⟨false, ⟨1, 0⟩⟩),
  ((b! "three second"), ⟨false, ⟨3, 0⟩⟩),
  ((b! "next minute"), ⟨false, ⟨60, 0⟩⟩),
  ((b! "three minute"), ⟨false, ⟨180, 0⟩⟩),
  ((b! "next        second"), ⟨false, ⟨1, 0⟩⟩),
  ((b! "tomorrow"), ⟨false, ⟨86400, 0⟩⟩)] : List (Bytes × Duration)).all
    (fun (s, d) => okIs (parse3 (ConfigBuilder.new.allowTimeUnitDelimiter.innerDelimiter spaceDelimiter).build s) d) = true := by decide +kernel

/-- fundu-core/tests/test_parsing_numerals.rs:128 `test_parse_with_numerals_when_sign_is_present`: 4 cases -/
example : ([
  ((b! "+next second"), ⟨false, ⟨1, 0⟩⟩),
  ((b! "+ next second"), ⟨false, ⟨1, 0⟩⟩),
  ((b! "-next second"), ⟨true, ⟨1, 0⟩⟩),
  ((b! "- next second"), ⟨true, ⟨1, 0⟩⟩)] : List (Bytes × Duration)).all
    (fun (s, d) => okIs (parse3 (ConfigBuilder.new.allowTimeUnitDelimiter.allowAgo.allowSignDelimiter.innerDelimiter spaceDelimiter).allowNegative.build s) d) = true := by decide +kernel

/-- fundu-core/tests/test_parsing_numerals.rs:158 `test_parse_with_numerals_when_number_is_optional`: 2 cases -/
example : ([
  ((b! "second"), ⟨false, ⟨1, 0⟩⟩),
  ((b! "tomorrow"), ⟨false, ⟨86400, 0⟩⟩)] : List (Bytes × Duration)).all
    (fun (s, d) => okIs (parse3 ConfigBuilder.new.numberIsOptional.build s) d) = true := by decide +kernel

/-- fundu-core/tests/test_parsing_numerals.rs:186 `test_parse_with_numerals_when_invalid`: 7 cases -/
example : ([
  ((b! "nextsecond"), (.invalidInput (b! "nextsecond"))),
  ((b! "next\nsecond"), (.invalidInput (b! "next\nsecond"))),
  ((b! "nex second"), (.invalidInput (b! "nex second"))),
  ((b! "next"), (.invalidInput (b! "next"))),
  ((b! "next    "), (.syntax 4 (b! "Input may not end with a delimiter"))),
  ((b! "next tomorrow"), (.timeUnit 5 (b! "Found numeral 'next' without a time unit"))),
  ((b! "next hour"), (.timeUnit 5 (b! "Found numeral 'next' without a time unit")))] : List (Bytes × Err)).all
    (fun (s, e) => errIs (parse3 (ConfigBuilder.new.allowTimeUnitDelimiter.innerDelimiter spaceDelimiter).build s) e) = true := by decide +kernel

/-- fundu-core/tests/test_parsing_numerals.rs:214 `test_parse_with_numerals_when_invalid_parse_multiple`: 3 cases -/
example : ([
  ((b! "next 1"), (.timeUnit 5 (b! "Found numeral 'next' without a time unit"))),
  ((b! "next +"), (.timeUnit 5 (b! "Found numeral 'next' without a time unit"))),
  ((b! "next next"), (.timeUnit 5 (b! "Found numeral 'next' without a time unit")))] : List (Bytes × Err)).all
    (fun (s, e) => errIs (parse3 numeralsMultiple s) e) = true := by decide +kernel

/-- fundu-core/tests/test_parsing_numerals.rs:250 `test_parse_with_numerals_when_empty_time_units_no_keywords_and_parse_multiple`: 3 cases -/
example : ([
  ((b! "next second"), (.timeUnit 5 (b! "Found numeral 'next' without time units being defined"))),
  ((b! "next 1"), (.timeUnit 5 (b! "Found numeral 'next' without time units being defined"))),
  ((b! "tomorrow"), (.invalidInput (b! "tomorrow")))] : List (Bytes × Err)).all
    (fun (s, e) => errIs (parse numeralsMultiple emptyTimeUnits none (some twoNumerals) s) e) = true := by decide +kernel

end Fundu.Conformance.Numerals
