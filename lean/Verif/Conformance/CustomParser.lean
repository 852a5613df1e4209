import Verif.Conformance.Basic
/-! Generated by tools/conformance.py from fundu/src/custom/parser.rs: 16 cases. -/
namespace Fundu.Conformance.CustomParser

/-- fundu/src/custom/parser.rs:876 `test_custom_duration_parser_init_new` -/
example : (CustomDurationParser.new.isEmpty && okIs (CustomDurationParser.new.parse (b! "1.0")) ⟨false, ⟨1, 0⟩⟩ && errIs (CustomDurationParser.new.parse (b! "1.0s")) (.timeUnit 3 (b! "No time units allowed but found: 's'"))) = true := by decide +kernel

/-- fundu/src/custom/parser.rs:891 `test_custom_duration_parser_init_with_time_units` -/
example : (let p := CustomDurationParser.withTimeUnits DEFAULT_ALL_TIME_UNITS; p.config.defaultUnit = .second && DEFAULT_ALL_TIME_UNITS.all (fun u => u.identifiers.all fun i => p.getTimeUnitById i = some (u.baseUnit, ⟨1, 0⟩)) && okIs (p.parse (b! "1.0")) ⟨false, ⟨1, 0⟩⟩) = true := by decide +kernel

/-- fundu/src/custom/parser.rs:917 `test_custom_duration_parser_when_add_custom_time_units` -/
example : ([b! "century", b! "centuries"].all fun i => (CustomDurationParser.new.timeUnit (get (CustomTimeUnit.new .year [b! "century", b! "centuries"] (some ⟨100, 0⟩)))).getTimeUnitById i = some (.year, ⟨100, 0⟩)) = true := by decide +kernel

/-- fundu/src/custom/parser.rs:930 `test_custom_duration_parser_when_setting_default_time_unit` -/
example : (okIs ((CustomDurationParser.new.defaultUnit .nanoSecond).parse (b! "1")) ⟨false, ⟨0, 1⟩⟩) = true := by decide +kernel

/-- fundu/src/custom/parser.rs:949 `test_custom_duration_parser_parse_when_default_time_units`: 10 cases -/
example : ([
  ((b! "1ns"), ⟨false, ⟨0, 1⟩⟩),
  ((b! "1Ms"), ⟨false, ⟨0, 1000⟩⟩),
  ((b! "1ms"), ⟨false, ⟨0, 1000000⟩⟩),
  ((b! "1s"), ⟨false, ⟨1, 0⟩⟩),
  ((b! "1m"), ⟨false, ⟨60, 0⟩⟩),
  ((b! "1h"), ⟨false, ⟨3600, 0⟩⟩),
  ((b! "1d"), ⟨false, ⟨86400, 0⟩⟩),
  ((b! "1w"), ⟨false, ⟨604800, 0⟩⟩),
  ((b! "1M"), ⟨false, ⟨2629800, 0⟩⟩),
  ((b! "1y"), ⟨false, ⟨31557600, 0⟩⟩)] : List (Bytes × Duration)).all
    (fun (s, d) => okIs ((CustomDurationParser.withTimeUnits DEFAULT_ALL_TIME_UNITS).parse s) d) = true := by decide +kernel

/-- fundu/src/custom/parser.rs:958 `test_custom_duration_parser_parse_when_non_ascii` -/
example : (okIs ((CustomDurationParser.withTimeUnits [CustomTimeUnit.withDefault .milliSecond [b! "мілісекунда"]]).parse (b! "1мілісекунда")) ⟨false, ⟨0, 1000000⟩⟩) = true := by decide +kernel

/-- fundu/src/custom/parser.rs:1030 `test_custom_duration_parser_when_adding_custom_time_units` -/
example : (let p := CustomDurationParser.new.addTimeUnits [get (CustomTimeUnit.new .second [b! "sec"] (some ⟨1, 0⟩)), get (CustomTimeUnit.new .second [b! "secs"] (some ⟨2, 0⟩))]; p.getTimeUnitById (b! "sec") = some (.second, ⟨1, 0⟩) && p.getTimeUnitById (b! "secs") = some (.second, ⟨2, 0⟩)) = true := by decide +kernel

end Fundu.Conformance.CustomParser
