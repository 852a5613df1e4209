import Verif.Conformance.Basic
/-! Generated by tools/conformance.py from fundu/tests/parser_test.rs: 365 cases. -/
namespace Fundu.Conformance.Parser

/-- parser_test.rs: `DurationParser::builder().default_time_units()...` -/
def single : DurationParser := DurationParserBuilder.new.defaultTimeUnits.build
def multiple : DurationParser := (DurationParserBuilder.new.defaultTimeUnits.parseMultiple (some [b! "and"])).build
def allUnits : DurationParser := DurationParser.withAllTimeUnits
def allNegative : DurationParser := DurationParser.withAllTimeUnits.allowNegative true
def space : Delimiter := fun b => b = 32
def mu : Delimiter := fun b => b = 0xb5
def allMultiple : DurationParserBuilder := DurationParserBuilder.new.allTimeUnits.parseMultiple (some [b! "and"])
def nsAndSeconds : List CustomTimeUnit :=
  [CustomTimeUnit.withDefault .nanoSecond [b! "ns"], CustomTimeUnit.withDefault .second [b! "s", b! "second"]]
def keyword (w : Bytes) (n : Int) : TimeKeyword := get (TimeKeyword.new .day [w] (some ⟨n, 0⟩))
def custom : CustomDurationParserBuilder := CustomDurationParserBuilder.new
def ago : CustomDurationParserBuilder :=
  (custom.addTimeUnits SYSTEMD_TIME_UNITS).allowTimeUnitDelimiter.allowAgo.allowNegative
def muUnit : CustomTimeUnit := CustomTimeUnit.withDefault .microSecond [b! "µ"]

/-- fundu/tests/parser_test.rs:40 `test_parse_duration_with_illegal_argument_then_error`: 19 cases -/
example : ([
  (b! ""),
  (b! "  1"),
  (b! "1   "),
  (b! "1.1e1msNOPE"),
  (b! "  \t\n"),
  (b! "."),
  (b! "+"),
  (b! "e-10"),
  (b! "-e1"),
  (b! "-.e1"),
  (b! "-1"),
  (b! "-1.0"),
  (b! "-0.000000001"),
  (b! "2E+"),
  (b! "-3E75"),
  (b! "-1.e-18"),
  (b! "-.00000000000019999999e-4"),
  (b! "-.00000003e-2"),
  (b! "-0" ++ List.replicate 24 56 ++ b! "182888" ++ List.replicate 45 51 ++ b! "8888888888888888888" ++ List.replicate 691 48 ++ b! "4" ++ List.replicate 99 48 ++ b! "6" ++ List.replicate 114 48 ++ b! "1616564957e-1027")] : List Bytes).all
    (fun s => isErr (single.parse s) && isErr (multiple.parse s)) = true := by decide +kernel

/-- fundu/tests/parser_test.rs:70 `test_parse_duration_when_simple_arguments_are_valid`: 18 cases -/
example : ([
  ((b! "1"), ⟨false, ⟨1, 0⟩⟩),
  ((b! "10.010000000"), ⟨false, ⟨10, 10000000⟩⟩),
  ((b! "0"), ⟨false, ⟨0, 0⟩⟩),
  ((List.replicate 2000 48), ⟨false, ⟨0, 0⟩⟩),
  ((List.replicate 2000 48 ++ b! "1"), ⟨false, ⟨1, 0⟩⟩),
  ((b! "0.0"), ⟨false, ⟨0, 0⟩⟩),
  ((b! ".0"), ⟨false, ⟨0, 0⟩⟩),
  ((b! "0."), ⟨false, ⟨0, 0⟩⟩),
  ((b! "1.1"), ⟨false, ⟨1, 100000000⟩⟩),
  ((b! "0.999999999"), ⟨false, ⟨0, 999999999⟩⟩),
  ((b! "1.999999999"), ⟨false, ⟨1, 999999999⟩⟩),
  ((b! "1234.123456789"), ⟨false, ⟨1234, 123456789⟩⟩),
  ((b! "18446744073709551615"), ⟨false, ⟨18446744073709551615, 0⟩⟩),
  ((b! "000000100"), ⟨false, ⟨100, 0⟩⟩),
  ((b! "00000010.0"), ⟨false, ⟨10, 0⟩⟩),
  ((b! "-9.99999999999E-19"), ⟨false, ⟨0, 0⟩⟩),
  ((b! "-." ++ List.replicate 37 48 ++ b! "11" ++ List.replicate 29 56 ++ b! "000000000000" ++ List.replicate 94 51 ++ List.replicate 34 56 ++ b! "0000" ++ List.replicate 75 51 ++ b! "88888888888888888" ++ List.replicate 49 51 ++ b! "88888888888888" ++ List.replicate 109 51 ++ List.replicate 48 56 ++ b! "5888888000000000000" ++ List.replicate 29 51 ++ b! "888" ++ List.replicate 109 51 ++ List.replicate 55 56 ++ b! "00000000000033333333333333333" ++ List.replicate 253 48 ++ b! "11414703819657838596"), ⟨false, ⟨0, 0⟩⟩),
  ((b! "17976931348623157" ++ List.replicate 292 48), ⟨false, ⟨18446744073709551615, 999999999⟩⟩)] : List (Bytes × Duration)).all
    (fun (s, d) => okIs (single.parse s) d && okIs (multiple.parse s) d) = true := by decide +kernel

/-- fundu/tests/parser_test.rs:111 `test_parse_duration_when_arguments_contain_exponent`: 18 cases -/
example : ([
  ((b! "-1844674407370955161500.11e1"), ⟨true, ⟨18446744073709551615, 999999999⟩⟩),
  ((b! "1844674407370955161500e-1"), ⟨false, ⟨18446744073709551615, 999999999⟩⟩),
  ((b! "18446744073709551615.11e1"), ⟨false, ⟨18446744073709551615, 999999999⟩⟩),
  ((b! "-1844674407370955161500e-1"), ⟨true, ⟨18446744073709551615, 999999999⟩⟩),
  ((b! "1.00000001e-1"), ⟨false, ⟨0, 100000001⟩⟩),
  ((b! "1.1e0"), ⟨false, ⟨1, 100000000⟩⟩),
  ((b! "1.e0"), ⟨false, ⟨1, 0⟩⟩),
  ((b! "1.1e-0"), ⟨false, ⟨1, 100000000⟩⟩),
  ((b! "1.09e1"), ⟨false, ⟨10, 900000000⟩⟩),
  ((b! "1.09E1"), ⟨false, ⟨10, 900000000⟩⟩),
  ((b! "2e4"), ⟨false, ⟨20000, 0⟩⟩),
  ((b! "0.0000000001e1"), ⟨false, ⟨0, 1⟩⟩),
  ((b! "184467440737095516159.999999999e-1"), ⟨false, ⟨18446744073709551615, 999999999⟩⟩),
  ((b! "0.1000000001e+1"), ⟨false, ⟨1, 1⟩⟩),
  ((b! "10.00000001e-1"), ⟨false, ⟨1, 1⟩⟩),
  ((b! "1.0e-20"), ⟨false, ⟨0, 0⟩⟩),
  ((b! "1.0e-32768"), ⟨false, ⟨0, 0⟩⟩),
  ((b! "1.0e+32767"), ⟨false, ⟨18446744073709551615, 999999999⟩⟩)] : List (Bytes × Duration)).all
    (fun (s, d) => okIs (allNegative.parse s) d) = true := by decide +kernel

/-- fundu/tests/parser_test.rs:130 `test_parse_duration_when_arguments_with_illegal_exponent_then_error`: 7 cases -/
example : ([
  (b! "e1"),
  (b! "1e"),
  (b! "6eMs"),
  (b! "1e+F"),
  (b! "1e32768"),
  (b! "1e-32769"),
  (b! "1e-32769")] : List Bytes).all
    (fun s => isErr (DurationParserBuilder.new.allTimeUnits.build.parse s)) = true := by decide +kernel

/-- fundu/tests/parser_test.rs:139 `test_parse_duration_when_precision_of_float_would_be_insufficient_then_still_parse_exact`: 2 cases -/
example : ([
  ((b! "1.99999999999999999"), ⟨1, 999999999⟩),
  ((b! "18446744073709551615.1"), ⟨18446744073709551615, 100000000⟩)] : List (Bytes × StdDuration)).all
    (fun (s, d) => match parseDuration s with | .ok x => x = d | _ => false) = true := by decide +kernel

/-- fundu/tests/parser_test.rs:152 `test_parse_duration_when_arguments_are_capped_then_max_duration_or_min_nanos`: 4 cases -/
example : ([
  ((b! "1.0000000001"), ⟨1, 0⟩),
  ((b! "1.99999999999"), ⟨1, 999999999⟩),
  ((b! "18446744073709551616"), ⟨18446744073709551615, 999999999⟩),
  ((b! "18446744073709551616.0"), ⟨18446744073709551615, 999999999⟩)] : List (Bytes × StdDuration)).all
    (fun (s, d) => match parseDuration s with | .ok x => x = d | _ => false) = true := by decide +kernel

/-- fundu/tests/parser_test.rs:166 `test_parse_duration_when_arguments_have_a_sign`: 5 cases -/
example : ([
  ((b! "+0"), ⟨0, 0⟩),
  ((b! "+0.0"), ⟨0, 0⟩),
  ((b! "-0"), ⟨0, 0⟩),
  ((b! "-0.0"), ⟨0, 0⟩),
  ((b! "+1.0"), ⟨1, 0⟩)] : List (Bytes × StdDuration)).all
    (fun (s, d) => match parseDuration s with | .ok x => x = d | _ => false) = true := by decide +kernel

/-- fundu/tests/parser_test.rs:181 `test_parse_duration_when_arguments_are_infinity_values`: 6 cases -/
example : ([
  (b! "inf"),
  (b! "+inf"),
  (b! "iNf"),
  (b! "infinity"),
  (b! "+infinity"),
  (b! "InfiNitY")] : List Bytes).all
    (fun s => match parseDuration s with | .ok x => x = StdDuration.MAX | _ => false) = true := by decide +kernel

/-- fundu/tests/parser_test.rs:192 `test_parse_duration_when_arguments_are_illegal_infinity_values_then_error`: 5 cases -/
example : ([
  ((b! "-inf"), .negativeNumber),
  ((b! "-infinity"), .negativeNumber),
  ((b! "infinityINVALID"), (.syntax 8 (b! "Expected end of input but found: 'INVALID'"))),
  ((b! "infin"), (.syntax 5 (b! "Error parsing infinity: Premature end of input"))),
  ((b! "inf1.0"), (.syntax 3 (b! "Error parsing infinity: Invalid character '1'")))] : List (Bytes × Err)).all
    (fun (s, e) => errIs (parseDuration s) e) = true := by decide +kernel

/-- fundu/tests/parser_test.rs:217 `test_parse_duration_when_time_units_are_given`: 17 cases -/
example : ([
  ((b! "0." ++ List.replicate 100 57 ++ b! "y"), ⟨false, ⟨31557599, 999999999⟩⟩),
  ((b! "1s"), ⟨false, ⟨1, 0⟩⟩),
  ((b! "1ms"), ⟨false, ⟨0, 1000000⟩⟩),
  ((b! "1000ms"), ⟨false, ⟨1, 0⟩⟩),
  ((b! "1Ms"), ⟨false, ⟨0, 1000⟩⟩),
  ((b! "1e-3Ms"), ⟨false, ⟨0, 1⟩⟩),
  ((b! "1ns"), ⟨false, ⟨0, 1⟩⟩),
  ((b! "0.1m"), ⟨false, ⟨6, 0⟩⟩),
  ((b! "100.0e-3m"), ⟨false, ⟨6, 0⟩⟩),
  ((b! "0.0000000001m"), ⟨false, ⟨0, 6⟩⟩),
  ((b! "0.000000000001h"), ⟨false, ⟨0, 3⟩⟩),
  ((b! "0.0000000000000001y"), ⟨false, ⟨0, 3⟩⟩),
  ((b! "18446744073709551615m"), ⟨false, ⟨18446744073709551615, 999999999⟩⟩),
  ((b! "18446744073709551615.00001m"), ⟨false, ⟨18446744073709551615, 999999999⟩⟩),
  ((b! "-18446744073709551615.00001m"), ⟨true, ⟨18446744073709551615, 999999999⟩⟩),
  ((b! "18446744073709551615.1d"), ⟨false, ⟨18446744073709551615, 999999999⟩⟩),
  ((b! "-18446744073709551615.1d"), ⟨true, ⟨18446744073709551615, 999999999⟩⟩)] : List (Bytes × Duration)).all
    (fun (s, d) => okIs (allNegative.parse s) d) = true := by decide +kernel

/-- fundu/tests/parser_test.rs:228 `test_parser_when_time_units`: 2 cases -/
example : ([
  ((b! "1s"), [.second]),
  ((b! "1h"), [.hour])] : List (Bytes × List TimeUnit)).all
    (fun (s, u) => (DurationParser.withTimeUnits u |>.parse s).isOk) = true := by decide +kernel

/-- fundu/tests/parser_test.rs:236 `test_parser_when_time_units_are_not_present_then_error`: 1 cases -/
example : ([
  ((b! "1s"), [.minute])] : List (Bytes × List TimeUnit)).all
    (fun (s, u) => isErr (DurationParser.withTimeUnits u |>.parse s)) = true := by decide +kernel

/-- fundu/tests/parser_test.rs:253 `test_parser_when_allow_time_unit_delimiter_then_error`: 5 cases -/
example : ([
  ((b! ""), .empty),
  ((b! " "), (.invalidInput (b! " "))),
  ((b! " 123"), (.invalidInput (b! " 123"))),
  ((b! "123 ns "), (.timeUnit 4 (b! "Invalid time unit: 'ns '"))),
  ((b! "123\tns"), (.timeUnit 3 (b! "Invalid time unit: '\tns'")))] : List (Bytes × Err)).all
    (fun (s, e) => errIs (((allUnits.allowTimeUnitDelimiter true).setInnerDelimiter space).parse s) e) = true := by decide +kernel

/-- fundu/tests/parser_test.rs:270 `test_parser_when_allow_time_unit_delimiter`: 2 cases -/
example : ([
  ((b! "123ns"), isAsciiWhitespace, ⟨false, ⟨0, 123⟩⟩),
  ((b! "123 \t\n\x0c\rns"), isAsciiWhitespace, ⟨false, ⟨0, 123⟩⟩)] : List (Bytes × Delimiter × Duration)).all
    (fun (s, i, d) => okIs (((allUnits.allowTimeUnitDelimiter true).setInnerDelimiter i).parse s) d) = true := by decide +kernel

/-- fundu/tests/parser_test.rs:289 `test_parser_when_allow_delimiter_then_ok`: 3 cases -/
example : ([
  ((b! "123ns"), ⟨false, ⟨0, 123⟩⟩),
  ((b! "123 ns"), ⟨false, ⟨0, 123⟩⟩),
  ((b! "123      ns"), ⟨false, ⟨0, 123⟩⟩)] : List (Bytes × Duration)).all
    (fun (s, d) => okIs (((allUnits.allowTimeUnitDelimiter true).setInnerDelimiter space).parse s) d) = true := by decide +kernel

/-- fundu/tests/parser_test.rs:303 `test_parser_when_number_is_optional`: 3 cases -/
example : ([
  ((b! "ns"), .ok ⟨false, ⟨0, 1⟩⟩),
  ((b! "e1"), .error (.invalidInput (b! "e1"))),
  ((b! "."), .error (.syntax 0 (b! "Either the whole number part or the fraction must be present")))] : List (Bytes × Except Err Duration)).all
    (fun (s, r) => resultIs ((allUnits.numberIsOptional true).parse s) r) = true := by decide +kernel

/-- fundu/tests/parser_test.rs:317 `test_parser_when_number_is_optional_and_allow_delimiter_then_error`: 1 cases -/
example : ([
  ((b! "\rd"), (.invalidInput (b! "\rd")))] : List (Bytes × Err)).all
    (fun (s, e) => errIs (((allUnits.numberIsOptional true).allowTimeUnitDelimiter true).parse s) e) = true := by decide +kernel

/-- fundu/tests/parser_test.rs:334 `test_parser_when_disable_fraction`: 3 cases -/
example : ([
  ((b! "1."), .error (.syntax 1 (b! "No fraction allowed"))),
  ((b! ".1"), .error (.syntax 0 (b! "No fraction allowed"))),
  ((b! "."), .error (.syntax 0 (b! "No fraction allowed")))] : List (Bytes × Except Err Duration)).all
    (fun (s, r) => resultIs ((allUnits.disableFraction true).parse s) r) = true := by decide +kernel

/-- fundu/tests/parser_test.rs:350 `test_parser_when_disable_exponent`: 3 cases -/
example : ([
  ((b! "1e0"), .error (.syntax 1 (b! "No exponent allowed"))),
  ((b! "0.1e0"), .error (.syntax 3 (b! "No exponent allowed"))),
  ((b! "1e"), .error (.syntax 1 (b! "No exponent allowed")))] : List (Bytes × Except Err Duration)).all
    (fun (s, r) => resultIs ((allUnits.disableExponent true).parse s) r) = true := by decide +kernel

/-- fundu/tests/parser_test.rs:370 `test_parser_when_disable_infinity`: 7 cases -/
example : ([
  ((b! "i"), .error (.invalidInput (b! "i"))),
  ((b! "in"), .error (.invalidInput (b! "in"))),
  ((b! "inf"), .error (.invalidInput (b! "inf"))),
  ((b! "+inf"), .error (.invalidInput (b! "inf"))),
  ((b! "-inf"), .error (.invalidInput (b! "inf"))),
  ((b! "infi"), .error (.invalidInput (b! "infi"))),
  ((b! "infinity"), .error (.invalidInput (b! "infinity")))] : List (Bytes × Except Err Duration)).all
    (fun (s, r) => resultIs ((allUnits.disableInfinity true).parse s) r) = true := by decide +kernel

/-- fundu/tests/parser_test.rs:384 `test_parser_when_custom_time_unit_then_error`: 1 cases -/
example : ([
  ((b! "1s"), .minute)] : List (Bytes × TimeUnit)).all
    (fun (s, u) => isErr ((DurationParser.withTimeUnits [u]).parse s)) = true := by decide +kernel

/-- fundu/tests/parser_test.rs:429 `test_parse_error_messages`: 6 cases -/
example : ([
  (DurationParser.withoutTimeUnits, (b! "1y"), (.timeUnit 1 (b! "No time units allowed but found: 'y'")), (b! "Time unit error: No time units allowed but found: 'y' at column 1")),
  (DurationParser.withAllTimeUnits, (b! "1years"), (.timeUnit 1 (b! "Invalid time unit: 'years'")), (b! "Time unit error: Invalid time unit: 'years' at column 1")),
  (DurationParser.new, (b! "1e-32769"), .negativeExponentOverflow, (b! "Negative exponent overflow: Minimum is -32768")),
  (DurationParser.new, (b! "1e+32768"), .positiveExponentOverflow, (b! "Positive exponent overflow: Maximum is +32767")),
  (DurationParser.new, (b! "-1"), .negativeNumber, (b! "Number was negative")),
  (DurationParser.new, (b! "-inf"), .negativeNumber, (b! "Number was negative"))] : List (DurationParser × Bytes × Err × Bytes)).all
    (fun (p, s, e, t) => errIs (p.parse s) e && (match p.parse s with | .error (.err x) => x.display = t | _ => false)) = true := by decide +kernel

/-- fundu/tests/parser_test.rs:453 `test_parser_setting_default_time_unit`: 10 cases -/
example : ([
  (.nanoSecond, ⟨false, ⟨0, 1⟩⟩),
  (.microSecond, ⟨false, ⟨0, 1000⟩⟩),
  (.milliSecond, ⟨false, ⟨0, 1000000⟩⟩),
  (.second, ⟨false, ⟨1, 0⟩⟩),
  (.minute, ⟨false, ⟨60, 0⟩⟩),
  (.hour, ⟨false, ⟨3600, 0⟩⟩),
  (.day, ⟨false, ⟨86400, 0⟩⟩),
  (.week, ⟨false, ⟨604800, 0⟩⟩),
  (.month, ⟨false, ⟨2629800, 0⟩⟩),
  (.year, ⟨false, ⟨31557600, 0⟩⟩)] : List (TimeUnit × Duration)).all
    (fun (u, d) => okIs ((DurationParser.withoutTimeUnits.defaultUnit u).parse (b! "1")) d) = true := by decide +kernel

/-- fundu/tests/parser_test.rs:506 `test_parser_when_setting_parse_multiple`: 30 cases -/
example : ([
  ((b! "0 0"), ⟨false, ⟨0, 0⟩⟩),
  ((b! "0 and 0"), ⟨false, ⟨0, 0⟩⟩),
  ((b! "0 \t\n\r  0"), ⟨false, ⟨0, 0⟩⟩),
  ((b! "0 1"), ⟨false, ⟨1, 0⟩⟩),
  ((b! "0 and 1"), ⟨false, ⟨1, 0⟩⟩),
  ((b! "1 0"), ⟨false, ⟨1, 0⟩⟩),
  ((b! "1 and 0"), ⟨false, ⟨1, 0⟩⟩),
  ((b! "1 1"), ⟨false, ⟨2, 0⟩⟩),
  ((b! "1 and 1"), ⟨false, ⟨2, 0⟩⟩),
  ((b! "1 1"), ⟨false, ⟨2, 0⟩⟩),
  ((b! "1+1"), ⟨false, ⟨2, 0⟩⟩),
  ((b! "1ns 1ns"), ⟨false, ⟨0, 2⟩⟩),
  ((b! "1ns+1ns"), ⟨false, ⟨0, 2⟩⟩),
  ((b! "1ns and 1ns"), ⟨false, ⟨0, 2⟩⟩),
  ((b! "1ns and+1ns"), ⟨false, ⟨0, 2⟩⟩),
  ((b! "1ns1ns"), ⟨false, ⟨0, 2⟩⟩),
  ((b! "1.123e9ns 1.987e9ns"), ⟨false, ⟨3, 110000000⟩⟩),
  ((b! "1.123e9ns and 1.987e9ns"), ⟨false, ⟨3, 110000000⟩⟩),
  ((b! "18446744073709551615s 18446744073709551615s"), ⟨false, ⟨18446744073709551615, 999999999⟩⟩),
  ((b! "1ns 1.001Ms1e1ms 9 .9 3m6h"), ⟨false, ⟨21789, 910001002⟩⟩),
  ((b! "1ns+1.001Ms-1e1+9-.9+3m6h"), ⟨false, ⟨21778, 100001002⟩⟩),
  ((b! "1ns and 1.001Ms and1e1ms and 9 .9 and 3m6h"), ⟨false, ⟨21789, 910001002⟩⟩),
  ((b! "inf"), ⟨false, ⟨18446744073709551615, 999999999⟩⟩),
  ((b! "infinity"), ⟨false, ⟨18446744073709551615, 999999999⟩⟩),
  ((b! "inf inf"), ⟨false, ⟨18446744073709551615, 999999999⟩⟩),
  ((b! "infinity infinity"), ⟨false, ⟨18446744073709551615, 999999999⟩⟩),
  ((b! "inf infinity"), ⟨false, ⟨18446744073709551615, 999999999⟩⟩),
  ((b! "infinity inf"), ⟨false, ⟨18446744073709551615, 999999999⟩⟩),
  ((b! "inf and inf"), ⟨false, ⟨18446744073709551615, 999999999⟩⟩),
  ((b! "infinity and infinity"), ⟨false, ⟨18446744073709551615, 999999999⟩⟩)] : List (Bytes × Duration)).all
    (fun (s, d) => okIs (allMultiple.allowNegative.build.parse s) d) = true := by decide +kernel

/-- fundu/tests/parser_test.rs:535 `test_parser_when_setting_parse_multiple_then_error`: 19 cases -/
example : ([
  ((b! ""), .empty),
  ((b! "and"), (.invalidInput (b! "and"))),
  ((b! " \t\n"), (.invalidInput (b! " \t\n"))),
  ((b! "."), (.syntax 0 (b! "Either the whole number part or the fraction must be present"))),
  ((b! "ns"), (.invalidInput (b! "ns"))),
  ((b! "1 a"), (.invalidInput (b! "a"))),
  ((b! "1 1 "), (.syntax 3 (b! "Input may not end with a delimiter"))),
  ((b! "1 and"), (.syntax 2 (b! "Input may not end with a conjunction but found: 'and'"))),
  ((b! "1 anda"), (.syntax 5 (b! "A conjunction must be separated by a delimiter, sign or digit but found: 'a'"))),
  ((b! "1 and "), (.syntax 5 (b! "Input may not end with a delimiter"))),
  ((b! "1s "), (.syntax 2 (b! "Input may not end with a delimiter"))),
  ((b! "1 1 and"), (.syntax 4 (b! "Input may not end with a conjunction but found: 'and'"))),
  ((b! "a 1"), (.invalidInput (b! "a 1"))),
  ((b! "a a"), (.invalidInput (b! "a a"))),
  ((b! "inf "), (.syntax 3 (b! "Input may not end with a delimiter"))),
  ((b! "inf and"), (.syntax 4 (b! "Input may not end with a conjunction but found: 'and'"))),
  ((b! "inf1"), (.syntax 3 (b! "Error parsing infinity: Invalid character '1'"))),
  ((b! "infinity1"), (.syntax 8 (b! "Error parsing infinity: Expected a delimiter but found '1'"))),
  ((b! "infi"), (.syntax 0 (b! "Error parsing infinity: 'infi' is an invalid identifier for infinity")))] : List (Bytes × Err)).all
    (fun (s, e) => errIs (allMultiple.build.parse s) e) = true := by decide +kernel

/-- fundu/tests/parser_test.rs:549 `test_parser_when_parse_multiple_number_is_optional_allow_delimiter`: 2 cases -/
example : ([
  ((b! "1 ns 1 s"), .ok ⟨false, ⟨1, 1⟩⟩),
  ((b! "1s + 1s"), .error (.invalidInput (b! " 1s")))] : List (Bytes × Except Err Duration)).all
    (fun (s, r) => resultIs (allMultiple.numberIsOptional.allowTimeUnitDelimiter.build.parse s) r) = true := by decide +kernel

/-- fundu/tests/parser_test.rs:582 `test_parser_when_parse_multiple_with_sign_delimiter`: 7 cases -/
example : ([
  ((b! "+"), .error (.syntax 1 (b! "Unexpected end of input. Sign without a number"))),
  ((b! "+   "), .error (.syntax 1 (b! "Input may not end with a delimiter"))),
  ((b! "+1"), .ok ⟨false, ⟨1, 0⟩⟩),
  ((b! "+    1"), .ok ⟨false, ⟨1, 0⟩⟩),
  ((b! "+2 - 1"), .ok ⟨false, ⟨1, 0⟩⟩),
  ((b! "+2 - 1 +"), .error (.syntax 8 (b! "Unexpected end of input. Sign without a number"))),
  ((b! "+2 - 1 + "), .error (.syntax 8 (b! "Input may not end with a delimiter")))] : List (Bytes × Except Err Duration)).all
    (fun (s, r) => resultIs (allMultiple.allowTimeUnitDelimiter.allowSignDelimiter.allowNegative.build.parse s) r) = true := by decide +kernel

/-- fundu/tests/parser_test.rs:597 `test_parser_when_parse_multiple_number_is_optional_not_allow_delimiter` -/
example : (okIs (allMultiple.numberIsOptional.build.parse (b! "1 ns 1 s")) ⟨false, ⟨3, 1⟩⟩) = true := by decide +kernel

/-- fundu/tests/parser_test.rs:607 `test_parser_when_parse_multiple_with_invalid_delimiter`.  The test hands a word that is not valid UTF-8 to `from_utf8_unchecked` (finding F10): the model reports the broken contract instead of the result of the run -/
example : (panics (((custom.timeUnit muUnit).parseMultiple none).outerDelimiter mu |>.build.parse (b! "1µ"))) = true := by decide +kernel

/-- fundu/tests/parser_test.rs:624 `test_parser_when_allow_ago_with_invalid_delimiter`.  The test hands a word that is not valid UTF-8 to `from_utf8_unchecked` (finding F10): the model reports the broken contract instead of the result of the run -/
example : (panics (((custom.timeUnit muUnit).allowAgo).innerDelimiter mu |>.build.parse (b! "1µ ago"))) = true := by decide +kernel

/-- fundu/tests/parser_test.rs:638 `test_parser_parse_multiple_and_keywords_with_invalid_delimiter`.  The test hands a word that is not valid UTF-8 to `from_utf8_unchecked` (finding F10): the model reports the broken contract instead of the result of the run -/
example : (panics ((((custom.timeUnit muUnit).keyword (get (TimeKeyword.new .microSecond [b! "manµ"] none))).parseMultiple none).outerDelimiter mu |>.build.parse (b! "someµ"))) = true := by decide +kernel

/-- fundu/tests/parser_test.rs:660 `test_parser_when_parse_multiple_without_time_units`: 4 cases -/
example : ([
  ((b! "1 1"), .ok ⟨false, ⟨2, 0⟩⟩),
  ((b! "1ns 1ns"), .error (.invalidInput (b! "ns 1ns"))),
  ((b! "1 1ns"), .error (.invalidInput (b! "ns"))),
  ((b! "1 ago"), .error (.invalidInput (b! "ago")))] : List (Bytes × Except Err Duration)).all
    (fun (s, r) => resultIs ((custom.parseMultiple (some [b! "and"])).allowAgo.build.parse s) r) = true := by decide +kernel

/-- fundu/tests/parser_test.rs:672 `test_parser_when_parse_multiple_without_time_units_default_unit_is_not_seconds` -/
example : (okIs (((DurationParserBuilder.new.parseMultiple (some [b! "and"])).defaultUnit .nanoSecond).build.parse (b! "1 1")) ⟨false, ⟨0, 2⟩⟩) = true := by decide +kernel

/-- fundu/tests/parser_test.rs:691 `test_custom_duration_parser_parse_when_systemd_time_units`: 10 cases -/
example : ([
  ([(b! "ns"), (b! "nsec")], ⟨false, ⟨0, 1⟩⟩),
  ([(b! "us"), (b! "µs"), (b! "usec")], ⟨false, ⟨0, 1000⟩⟩),
  ([(b! "ms"), (b! "msec")], ⟨false, ⟨0, 1000000⟩⟩),
  ([(b! "s"), (b! "sec"), (b! "second"), (b! "seconds")], ⟨false, ⟨1, 0⟩⟩),
  ([(b! "m"), (b! "min"), (b! "minute"), (b! "minutes")], ⟨false, ⟨60, 0⟩⟩),
  ([(b! "h"), (b! "hr"), (b! "hour"), (b! "hours")], ⟨false, ⟨3600, 0⟩⟩),
  ([(b! "d"), (b! "day"), (b! "days")], ⟨false, ⟨86400, 0⟩⟩),
  ([(b! "w"), (b! "week"), (b! "weeks")], ⟨false, ⟨604800, 0⟩⟩),
  ([(b! "M"), (b! "month"), (b! "months")], ⟨false, ⟨2629800, 0⟩⟩),
  ([(b! "y"), (b! "year"), (b! "years")], ⟨false, ⟨31557600, 0⟩⟩)] : List (List Bytes × Duration)).all
    (fun (l, d) => l.all fun s => okIs ((CustomDurationParser.withTimeUnits SYSTEMD_TIME_UNITS).parse (b! "1" ++ s)) d) = true := by decide +kernel

/-- fundu/tests/parser_test.rs:736 `test_parse_negative`: 28 cases -/
example : ([
  ((b! "-0"), ⟨false, ⟨0, 0⟩⟩),
  ((b! "-0.000000001"), ⟨true, ⟨0, 1⟩⟩),
  ((b! "-0.0000000001"), ⟨true, ⟨0, 0⟩⟩),
  ((b! "+0"), ⟨false, ⟨0, 0⟩⟩),
  ((b! "0.000000001"), ⟨false, ⟨0, 1⟩⟩),
  ((b! "0.0000000001"), ⟨false, ⟨0, 0⟩⟩),
  ((b! "0"), ⟨false, ⟨0, 0⟩⟩),
  ((b! "-1"), ⟨true, ⟨1, 0⟩⟩),
  ((b! "-1.2"), ⟨true, ⟨1, 200000000⟩⟩),
  ((b! "-1e-9"), ⟨true, ⟨0, 1⟩⟩),
  ((b! "-18446744073709551615"), ⟨true, ⟨18446744073709551615, 0⟩⟩),
  ((b! "-18446744073709551615.000000001"), ⟨true, ⟨18446744073709551615, 1⟩⟩),
  ((b! "-18446744073709551615.999999999"), ⟨true, ⟨18446744073709551615, 999999999⟩⟩),
  ((b! "-18446744073709551615.9999999999"), ⟨true, ⟨18446744073709551615, 999999999⟩⟩),
  ((b! "-18446744073709551616"), ⟨true, ⟨18446744073709551615, 999999999⟩⟩),
  ((b! "-1122334455.123456789e-4"), ⟨true, ⟨112233, 445512345⟩⟩),
  ((b! "-1.000000001y"), ⟨true, ⟨31557600, 31557600⟩⟩),
  ((b! "-" ++ List.replicate 1000 49 ++ b! "." ++ List.replicate 1000 49 ++ b! "e1000"), ⟨true, ⟨18446744073709551615, 999999999⟩⟩),
  ((b! "1"), ⟨false, ⟨1, 0⟩⟩),
  ((b! "18446744073709551615"), ⟨false, ⟨18446744073709551615, 0⟩⟩),
  ((b! "18446744073709551615.000000001"), ⟨false, ⟨18446744073709551615, 1⟩⟩),
  ((b! "18446744073709551615.999999999"), ⟨false, ⟨18446744073709551615, 999999999⟩⟩),
  ((b! "18446744073709551616"), ⟨false, ⟨18446744073709551615, 999999999⟩⟩),
  ((b! "18446744073709551616.000000001"), ⟨false, ⟨18446744073709551615, 999999999⟩⟩),
  ((b! "1122334455.123456789e-4"), ⟨false, ⟨112233, 445512345⟩⟩),
  ((b! "1.000000001y"), ⟨false, ⟨31557600, 31557600⟩⟩),
  ((List.replicate 1000 49 ++ b! "." ++ List.replicate 1000 49 ++ b! "e1000"), ⟨false, ⟨18446744073709551615, 999999999⟩⟩),
  ((b! "-18446744073709551615y"), ⟨true, ⟨18446744073709551615, 999999999⟩⟩)] : List (Bytes × Duration)).all
    (fun (s, d) => okIs (allNegative.parse s) d) = true := by decide +kernel

/-- fundu/tests/parser_test.rs:768 `test_parse_negative_when_multiple`: 20 cases -/
example : ([
  ((b! "0"), ⟨false, ⟨0, 0⟩⟩),
  ((b! "0 0"), ⟨false, ⟨0, 0⟩⟩),
  ((b! "1 1"), ⟨false, ⟨2, 0⟩⟩),
  ((b! "-1 1"), ⟨false, ⟨0, 0⟩⟩),
  ((b! "-1 -1"), ⟨true, ⟨2, 0⟩⟩),
  ((b! "-1 and -1"), ⟨true, ⟨2, 0⟩⟩),
  ((b! "-1ns -1s"), ⟨true, ⟨1, 1⟩⟩),
  ((b! "-1ns and -1s"), ⟨true, ⟨1, 1⟩⟩),
  ((b! "1ns -1s"), ⟨true, ⟨0, 999999999⟩⟩),
  ((b! "-1.1ms -1e-9s"), ⟨true, ⟨0, 1100001⟩⟩),
  ((b! "-18446744073709551615s -1s"), ⟨true, ⟨18446744073709551615, 999999999⟩⟩),
  ((b! "18446744073709551615s 1s"), ⟨false, ⟨18446744073709551615, 999999999⟩⟩),
  ((b! "-inf"), ⟨true, ⟨18446744073709551615, 999999999⟩⟩),
  ((b! "-inf -inf"), ⟨true, ⟨18446744073709551615, 999999999⟩⟩),
  ((b! "-infinity"), ⟨true, ⟨18446744073709551615, 999999999⟩⟩),
  ((b! "-infinity -infinity"), ⟨true, ⟨18446744073709551615, 999999999⟩⟩),
  ((b! "-infinity and -infinity"), ⟨true, ⟨18446744073709551615, 999999999⟩⟩),
  ((b! "infinity infinity"), ⟨false, ⟨18446744073709551615, 999999999⟩⟩),
  ((b! "-inf +inf"), ⟨false, ⟨0, 0⟩⟩),
  ((b! "-inf and +inf"), ⟨false, ⟨0, 0⟩⟩)] : List (Bytes × Duration)).all
    (fun (s, d) => okIs (allMultiple.allowNegative.build.parse s) d) = true := by decide +kernel

/-- fundu/tests/parser_test.rs:792 `test_custom_parser_when_disable_infinity_then_no_problems_with_infinity_like_ids`: 10 cases -/
example : ([
  ((b! "i"), (b! "i")),
  ((b! "I"), (b! "I")),
  ((b! "i"), (b! "+i")),
  ((b! "i"), (b! "1i")),
  ((b! "i"), (b! "1.0i")),
  ((b! "i"), (b! "1.0e0i")),
  ((b! "inf"), (b! "inf")),
  ((b! "infi"), (b! "infi")),
  ((b! "infinity"), (b! "infinity")),
  ((b! "infinity"), (b! "1infinity"))] : List (Bytes × Bytes)).all
    (fun (i, s) => okIs ((custom.disableInfinity.numberIsOptional.addTimeUnits [CustomTimeUnit.withDefault .nanoSecond [i]]).build.parse s) ⟨false, ⟨0, 1⟩⟩) = true := by decide +kernel

/-- fundu/tests/parser_test.rs:816 `test_custom_parser_when_negative_multiplier`: 10 cases -/
example : ([
  ((b! "0s"), ⟨false, ⟨0, 0⟩⟩),
  ((b! "-0s"), ⟨false, ⟨0, 0⟩⟩),
  ((b! "1s"), ⟨true, ⟨1, 0⟩⟩),
  ((b! "-1s"), ⟨false, ⟨1, 0⟩⟩),
  ((b! "2s"), ⟨true, ⟨2, 0⟩⟩),
  ((b! "-2s"), ⟨false, ⟨2, 0⟩⟩),
  ((b! "0.1s"), ⟨true, ⟨0, 100000000⟩⟩),
  ((b! "-0.1s"), ⟨false, ⟨0, 100000000⟩⟩),
  ((b! "340282366920938463463374607431768211455s"), ⟨true, ⟨18446744073709551615, 999999999⟩⟩),
  ((b! "-340282366920938463463374607431768211455s"), ⟨false, ⟨18446744073709551615, 999999999⟩⟩)] : List (Bytes × Duration)).all
    (fun (s, d) => okIs ((custom.timeUnit (get (CustomTimeUnit.new .second [b! "s"] (some ⟨-1, 0⟩)))).allowNegative.build.parse s) d) = true := by decide +kernel

/-- fundu/tests/parser_test.rs:832 `test_custom_parser_when_multiplier_is_zero`: 6 cases -/
example : ([
  (b! "0s"),
  (b! "-0s"),
  (b! "1s"),
  (b! "1234567.89s"),
  (b! "18446744073709551615s"),
  (b! "-18446744073709551615s")] : List Bytes).all
    (fun s => okIs ((custom.timeUnit (get (CustomTimeUnit.new .second [b! "s"] (some ⟨0, 0⟩)))).allowNegative.build.parse s) Duration.ZERO) = true := by decide +kernel

/-- fundu/tests/parser_test.rs:848 `test_custom_parser_with_keywords`: 7 cases -/
example : ([
  ((b! "yesterday"), ⟨true, ⟨86400, 0⟩⟩),
  ((b! "-yesterday"), ⟨false, ⟨86400, 0⟩⟩),
  ((b! "+yesterday"), ⟨true, ⟨86400, 0⟩⟩),
  ((b! "tomorrow"), ⟨false, ⟨86400, 0⟩⟩),
  ((b! "-tomorrow"), ⟨true, ⟨86400, 0⟩⟩),
  ((b! "today"), ⟨false, ⟨0, 0⟩⟩),
  ((b! "-today"), ⟨false, ⟨0, 0⟩⟩)] : List (Bytes × Duration)).all
    (fun (s, d) => okIs (((((custom.keyword (keyword (b! "yesterday") (-1))).keyword (keyword (b! "tomorrow") 1)).keyword (keyword (b! "today") 0)).addTimeUnits nsAndSeconds).allowNegative.build.parse s) d) = true := by decide +kernel

/-- fundu/tests/parser_test.rs:873 `test_custom_parser_with_keywords_then_error`: 5 cases -/
example : ([
  ((b! " tomorrow"), (.invalidInput (b! " tomorrow"))),
  ((b! "tomorrow "), (.invalidInput (b! "tomorrow "))),
  ((b! "tomorro"), (.invalidInput (b! "tomorro"))),
  ((b! "1tomorrow"), (.timeUnit 1 (b! "Invalid time unit: 'tomorrow'"))),
  ((b! "1 tomorrow"), (.timeUnit 1 (b! "Invalid time unit: ' tomorrow'")))] : List (Bytes × Err)).all
    (fun (s, e) => errIs (((custom.keyword (keyword (b! "tomorrow") 1)).addTimeUnits nsAndSeconds).build.parse s) e) = true := by decide +kernel

/-- fundu/tests/parser_test.rs:894 `test_custom_parser_with_keywords_when_parse_multiple`: 9 cases -/
example : ([
  ((b! "tomorrow"), ⟨false, ⟨86400, 0⟩⟩),
  ((b! "tomorrow1.1"), ⟨false, ⟨86401, 100000000⟩⟩),
  ((b! "tomorrow tomorrow"), ⟨false, ⟨172800, 0⟩⟩),
  ((b! "yesterday tomorrow"), ⟨false, ⟨0, 0⟩⟩),
  ((b! "1 tomorrow"), ⟨false, ⟨86401, 0⟩⟩),
  ((b! ".1 tomorrow"), ⟨false, ⟨86400, 100000000⟩⟩),
  ((b! ".1 and tomorrow"), ⟨false, ⟨86400, 100000000⟩⟩),
  ((b! "tomorrow and .1"), ⟨false, ⟨86400, 100000000⟩⟩),
  ((b! "tomorrow and1.1"), ⟨false, ⟨86401, 100000000⟩⟩)] : List (Bytes × Duration)).all
    (fun (s, d) => okIs (((((custom.keyword (keyword (b! "yesterday") (-1))).keyword (keyword (b! "tomorrow") 1)).addTimeUnits nsAndSeconds).parseMultiple (some [b! "and"])).allowNegative.build.parse s) d) = true := by decide +kernel

/-- fundu/tests/parser_test.rs:925 `test_custom_parser_with_keywords_when_parse_multiple_and_number_is_optional`: 9 cases -/
example : ([
  ((b! "ns"), ⟨false, ⟨0, 1⟩⟩),
  ((b! "ns ns"), ⟨false, ⟨0, 2⟩⟩),
  ((b! "ns and ns"), ⟨false, ⟨0, 2⟩⟩),
  ((b! "tomorrow ns"), ⟨false, ⟨86400, 1⟩⟩),
  ((b! "tomorrow and ns"), ⟨false, ⟨86400, 1⟩⟩),
  ((b! "ns tomorrow"), ⟨false, ⟨86400, 1⟩⟩),
  ((b! "ns and tomorrow"), ⟨false, ⟨86400, 1⟩⟩),
  ((b! "1 tomorrow ns"), ⟨false, ⟨86401, 1⟩⟩),
  ((b! "1 and tomorrow and ns"), ⟨false, ⟨86401, 1⟩⟩)] : List (Bytes × Duration)).all
    (fun (s, d) => okIs ((((custom.keyword (keyword (b! "tomorrow") 1)).addTimeUnits nsAndSeconds).parseMultiple (some [b! "and"])).numberIsOptional.build.parse s) d) = true := by decide +kernel

/-- fundu/tests/parser_test.rs:959 `test_custom_parser_multiplier_when_number_is_optional_and_time_unit_without_number`: 11 cases -/
example : ([
  (⟨0, 0⟩, ⟨false, ⟨0, 0⟩⟩),
  (⟨1, 32767⟩, ⟨false, ⟨18446744073709551615, 999999999⟩⟩),
  (⟨1, -32768⟩, ⟨false, ⟨0, 0⟩⟩),
  (⟨1, 19⟩, ⟨false, ⟨10000000000000000000, 0⟩⟩),
  (⟨1, -19⟩, ⟨false, ⟨0, 0⟩⟩),
  (⟨1, -10⟩, ⟨false, ⟨0, 0⟩⟩),
  (⟨1, 20⟩, ⟨false, ⟨18446744073709551615, 999999999⟩⟩),
  (⟨-1, 20⟩, ⟨true, ⟨18446744073709551615, 999999999⟩⟩),
  (⟨1, -18⟩, ⟨false, ⟨0, 0⟩⟩),
  (⟨1234567, 8⟩, ⟨false, ⟨123456700000000, 0⟩⟩),
  (⟨-1234567, 8⟩, ⟨true, ⟨123456700000000, 0⟩⟩)] : List (Multiplier × Duration)).all
    (fun (m, d) => okIs ((custom.timeUnit (get (CustomTimeUnit.new .second [b! "my"] (some m)))).numberIsOptional.allowNegative.build.parse (b! "my")) d) = true := by decide +kernel

/-- fundu/tests/parser_test.rs:973 `test_custom_parser_with_negative_keyword_when_not_allow_negative_then_error` -/
example : (errIs ((custom.keyword (keyword (b! "yesterday") (-1))).build.parse (b! "yesterday")) .negativeNumber) = true := by decide +kernel

/-- fundu/tests/parser_test.rs:993 `test_custom_parser_with_allow_ago`: 8 cases -/
example : ([
  ((b! "1"), ⟨false, ⟨1, 0⟩⟩),
  ((b! "1s"), ⟨false, ⟨1, 0⟩⟩),
  ((b! "1s ago"), ⟨true, ⟨1, 0⟩⟩),
  ((b! "1s AGO"), ⟨true, ⟨1, 0⟩⟩),
  ((b! "1s aGO"), ⟨true, ⟨1, 0⟩⟩),
  ((b! "-1s ago"), ⟨false, ⟨1, 0⟩⟩),
  ((b! "1day ago"), ⟨true, ⟨86400, 0⟩⟩),
  ((b! "1 s ago"), ⟨true, ⟨1, 0⟩⟩)] : List (Bytes × Duration)).all
    (fun (s, d) => okIs (ago.build.parse s) d) = true := by decide +kernel

/-- fundu/tests/parser_test.rs:1009 `test_custom_parser_with_allow_ago_then_error`: 5 cases -/
example : ([
  ((b! "1 ago"), (.timeUnit 2 (b! "Invalid time unit: 'ago'"))),
  ((b! "1 ago"), (.timeUnit 2 (b! "Invalid time unit: 'ago'"))),
  ((b! "ago"), (.invalidInput (b! "ago"))),
  ((b! "1s ag"), (.timeUnit 1 (b! "Invalid time unit: 's ag'"))),
  ((b! "1s 1s"), (.timeUnit 1 (b! "Invalid time unit: 's 1s'")))] : List (Bytes × Err)).all
    (fun (s, e) => errIs (ago.build.parse s) e) = true := by decide +kernel

/-- fundu/tests/parser_test.rs:1049 `test_custom_parser_with_allow_ago_when_parse_multiple`: 11 cases -/
example : ([
  ((b! "1s"), ⟨false, ⟨1, 0⟩⟩),
  ((b! "1s ago"), ⟨true, ⟨1, 0⟩⟩),
  ((b! "1s ago 1s ago"), ⟨true, ⟨2, 0⟩⟩),
  ((b! "1s ago 1day ago"), ⟨true, ⟨86401, 0⟩⟩),
  ((b! "1s ago1s ago"), ⟨true, ⟨2, 0⟩⟩),
  ((b! "1 s ago 1 day ago"), ⟨true, ⟨86401, 0⟩⟩),
  ((b! "1 s ago and 1 day ago"), ⟨true, ⟨86401, 0⟩⟩),
  ((b! "1 s and 1 day ago"), ⟨true, ⟨86399, 0⟩⟩),
  ((b! "1 s 1 day ago"), ⟨true, ⟨86399, 0⟩⟩),
  ((b! "1s ago 1 day"), ⟨false, ⟨86399, 0⟩⟩),
  ((b! "1s ago and 1 day"), ⟨false, ⟨86399, 0⟩⟩)] : List (Bytes × Duration)).all
    (fun (s, d) => okIs ((ago.parseMultiple (some [b! "and"])).build.parse s) d) = true := by decide +kernel

end Fundu.Conformance.Parser
