import Verif.Conformance.Basic
/-! Generated by tools/doctests.py from the documentation of the project: 99 assertions in 42 examples. -/
set_option linter.unusedVariables false
set_option maxRecDepth 4000
namespace Fundu.Conformance.DocsStandard

/-- fundu/src/standard/builder.rs:30, 4 assertions -/
example : (let v_parser := (DurationParserBuilder.build (DurationParserBuilder.allowTimeUnitDelimiter (DurationParserBuilder.defaultUnit (DurationParserBuilder.allTimeUnits DurationParserBuilder.new) TimeUnit.microSecond))); okIs (DurationParser.parse v_parser (b! "1   ns")) (get (Duration.positive 0 1)) && okIs (DurationParser.parse v_parser (b! "1")) (get (Duration.positive 0 1000)) && (let v_parser := DurationParser.withAllTimeUnits; (let v_parser := (DurationParser.allowTimeUnitDelimiter (DurationParser.defaultUnit v_parser TimeUnit.microSecond) true); okIs (DurationParser.parse v_parser (b! "1    ns")) (get (Duration.positive 0 1)) && okIs (DurationParser.parse v_parser (b! "1")) (get (Duration.positive 0 1000)) && true))) = true := by decide +kernel

/-- fundu/src/standard/builder.rs:56, 1 assertion -/
example : (let v_PARSER := (DurationParserBuilder.build (DurationParserBuilder.parseMultiple (DurationParserBuilder.allowNegative (DurationParserBuilder.timeUnits DurationParserBuilder.new [TimeUnit.second, TimeUnit.minute, TimeUnit.hour, TimeUnit.day])) none)); okIs (DurationParser.parse v_PARSER (b! "1h")) (get (Duration.positive (60 * 60) 0)) && true) = true := by decide +kernel

/-- fundu/src/standard/builder.rs:132, 1 assertion -/
example : (decide ((DurationParser.getCurrentTimeUnits (DurationParserBuilder.build (DurationParserBuilder.defaultTimeUnits DurationParserBuilder.new))) = [TimeUnit.nanoSecond, TimeUnit.microSecond, TimeUnit.milliSecond, TimeUnit.second, TimeUnit.minute, TimeUnit.hour, TimeUnit.day, TimeUnit.week]) && true) = true := by decide +kernel

/-- fundu/src/standard/builder.rs:182, 1 assertion -/
example : (decide ((DurationParser.getCurrentTimeUnits (DurationParserBuilder.build (DurationParserBuilder.allTimeUnits DurationParserBuilder.new))) = [TimeUnit.nanoSecond, TimeUnit.microSecond, TimeUnit.milliSecond, TimeUnit.second, TimeUnit.minute, TimeUnit.hour, TimeUnit.day, TimeUnit.week, TimeUnit.month, TimeUnit.year]) && true) = true := by decide +kernel

/-- fundu/src/standard/builder.rs:220, 1 assertion -/
example : (decide ((DurationParser.getCurrentTimeUnits (DurationParserBuilder.build (DurationParserBuilder.timeUnits DurationParserBuilder.new [TimeUnit.nanoSecond, TimeUnit.second, TimeUnit.year]))) = [TimeUnit.nanoSecond, TimeUnit.second, TimeUnit.year]) && true) = true := by decide +kernel

/-- fundu/src/standard/builder.rs:243, 1 assertion -/
example : (okIs (DurationParser.parse (DurationParserBuilder.build (DurationParserBuilder.defaultUnit (DurationParserBuilder.allTimeUnits DurationParserBuilder.new) TimeUnit.nanoSecond)) (b! "42")) (get (Duration.positive 0 42)) && true) = true := by decide +kernel

/-- fundu/src/standard/builder.rs:268, 3 assertions -/
example : (let v_parser := (DurationParserBuilder.build (DurationParserBuilder.allowTimeUnitDelimiter (DurationParserBuilder.defaultTimeUnits DurationParserBuilder.new))); okIs (DurationParser.parse v_parser ([49, 50, 51, 32, 9, 10, 12, 13, 110, 115] : Bytes)) (get (Duration.positive 0 123)) && okIs (DurationParser.parse v_parser (b! "123ns")) (get (Duration.positive 0 123)) && okIs (DurationParser.parse v_parser (b! "123   ns")) (get (Duration.positive 0 123)) && true) = true := by decide +kernel

/-- fundu/src/standard/builder.rs:294, 4 assertions -/
example : (let v_parser := (DurationParserBuilder.build (DurationParserBuilder.allowSignDelimiter (DurationParserBuilder.defaultTimeUnits DurationParserBuilder.new))); okIs (DurationParser.parse v_parser (b! "+123ns")) (get (Duration.positive 0 123)) && okIs (DurationParser.parse v_parser ([43, 9, 10, 32, 49, 50, 51, 110, 115] : Bytes)) (get (Duration.positive 0 123)) && okIs (DurationParser.parse v_parser (b! "+ 123ns")) (get (Duration.positive 0 123)) && okIs (DurationParser.parse v_parser (b! "+     123ns")) (get (Duration.positive 0 123)) && true) = true := by decide +kernel

/-- fundu/src/standard/builder.rs:318, 2 assertions -/
example : (let v_parser := (DurationParserBuilder.build (DurationParserBuilder.allowNegative DurationParserBuilder.new)); okIs (DurationParser.parse v_parser (b! "-123")) (get (Duration.negative 123 0)) && okIs (DurationParser.parse v_parser (b! "-1.23e-7")) (get (Duration.negative 0 123)) && true) = true := by decide +kernel

/-- fundu/src/standard/builder.rs:338, 2 assertions -/
example : (let v_parser := (DurationParserBuilder.build (DurationParserBuilder.allowAgo (DurationParserBuilder.allTimeUnits DurationParserBuilder.new))); okIs (DurationParser.parse v_parser (b! "123ns ago")) (get (Duration.negative 0 123)) && okIs (DurationParser.parse v_parser (b! "-123ns ago")) (get (Duration.positive 0 123)) && true) = true := by decide +kernel

/-- fundu/src/standard/builder.rs:352, 2 assertions -/
example : (let v_parser := (DurationParserBuilder.build (DurationParserBuilder.allowAgo (DurationParserBuilder.allTimeUnits DurationParserBuilder.new))); errIs (DurationParser.parse v_parser (b! "123 ago")) (.timeUnit 3 (b! "Invalid time unit: ' ago'")) && errIs (DurationParser.parse v_parser (b! "123ns ago ago")) (.syntax 9 (b! "Expected end of input but found: ' ago'")) && true) = true := by decide +kernel

/-- fundu/src/standard/builder.rs:390, 1 assertion -/
example : (errIs (DurationParser.parse (DurationParserBuilder.build (DurationParserBuilder.disableExponent (DurationParserBuilder.defaultTimeUnits DurationParserBuilder.new))) (b! "123e+1")) (.syntax 3 (b! "No exponent allowed")) && true) = true := by decide +kernel

/-- fundu/src/standard/builder.rs:413, 3 assertions -/
example : (let v_parser := (DurationParserBuilder.build (DurationParserBuilder.disableFraction (DurationParserBuilder.defaultTimeUnits DurationParserBuilder.new))); errIs (DurationParser.parse v_parser (b! "123.456")) (.syntax 3 (b! "No fraction allowed")) && okIs (DurationParser.parse v_parser (b! "123e-2")) (get (Duration.positive 1 230000000)) && okIs (DurationParser.parse v_parser (b! "123ns")) (get (Duration.positive 0 123)) && true) = true := by decide +kernel

/-- fundu/src/standard/builder.rs:443, 3 assertions -/
example : (let v_parser := (DurationParserBuilder.build (DurationParserBuilder.disableInfinity DurationParserBuilder.new)); errIs (DurationParser.parse v_parser (b! "inf")) (.invalidInput (b! "inf")) && errIs (DurationParser.parse v_parser (b! "infinity")) (.invalidInput (b! "infinity")) && errIs (DurationParser.parse v_parser (b! "+inf")) (.invalidInput (b! "inf")) && true) = true := by decide +kernel

/-- fundu/src/standard/builder.rs:472, 2 assertions -/
example : (let v_parser := (DurationParserBuilder.build (DurationParserBuilder.numberIsOptional (DurationParserBuilder.defaultTimeUnits DurationParserBuilder.new))); okIs (DurationParser.parse v_parser (b! "ns")) (get (Duration.positive 0 1)) && okIs (DurationParser.parse v_parser (b! "+ns")) (get (Duration.positive 0 1)) && true) = true := by decide +kernel

/-- fundu/src/standard/builder.rs:494, 6 assertions -/
example : (let v_parser := (DurationParserBuilder.build (DurationParserBuilder.parseMultiple (DurationParserBuilder.defaultTimeUnits DurationParserBuilder.new) (some [(b! "and")]))); okIs (DurationParser.parse v_parser (b! "1.5h 2e+2ns")) (get (Duration.positive 5400 200)) && okIs (DurationParser.parse v_parser (b! "55s500ms")) (get (Duration.positive 55 500000000)) && okIs (DurationParser.parse v_parser (b! "1m and 1ns")) (get (Duration.positive 60 1)) && okIs (DurationParser.parse v_parser (b! "1.   .1")) (get (Duration.positive 1 100000000)) && okIs (DurationParser.parse v_parser (b! "2h")) (get (Duration.positive ((2 * 60) * 60) 0)) && okIs (DurationParser.parse v_parser (b! "300ms20s 5d")) (get (Duration.positive ((((5 * 60) * 60) * 24) + 20) 300000000)) && true) = true := by decide +kernel

/-- fundu/src/standard/builder.rs:534, 2 assertions -/
example : (let v_parser := (DurationParserBuilder.build (DurationParserBuilder.innerDelimiter (DurationParserBuilder.allowAgo (DurationParserBuilder.allTimeUnits DurationParserBuilder.new)) (fun b => decide (b = 35)))); okIs (DurationParser.parse v_parser (b! "1.5h#ago")) (get (Duration.negative 5400 0)) && (let v_parser := (DurationParserBuilder.build (DurationParserBuilder.innerDelimiter (DurationParserBuilder.allowSignDelimiter (DurationParserBuilder.allTimeUnits DurationParserBuilder.new)) (fun b => decide (b = 35)))); okIs (DurationParser.parse v_parser (b! "+##1.5h")) (get (Duration.positive 5400 0)) && true)) = true := by decide +kernel

/-- fundu/src/standard/builder.rs:565, 2 assertions -/
example : (let v_parser := (DurationParserBuilder.build (DurationParserBuilder.outerDelimiter (DurationParserBuilder.parseMultiple (DurationParserBuilder.allTimeUnits DurationParserBuilder.new) none) (fun b => decide (b = 59)))); okIs (DurationParser.parse v_parser (b! "1.5h;2e+2ns")) (get (Duration.positive 5400 200)) && (let v_parser := (DurationParserBuilder.build (DurationParserBuilder.outerDelimiter (DurationParserBuilder.parseMultiple (DurationParserBuilder.allTimeUnits DurationParserBuilder.new) (some [(b! "and")])) (fun b => decide (b = 59)))); okIs (DurationParser.parse v_parser (b! "1.5h;and;2e+2ns")) (get (Duration.positive 5400 200)) && true)) = true := by decide +kernel

/-- fundu/src/standard/builder.rs:599, 2 assertions -/
example : (let v_parser := (DurationParserBuilder.build (DurationParserBuilder.defaultTimeUnits DurationParserBuilder.new)); okIs (DurationParser.parse v_parser (b! "1m")) (get (Duration.positive 60 0)) && okIs (DurationParser.parse v_parser (b! "60s")) (get (Duration.positive 60 0)) && true) = true := by decide +kernel

/-- fundu/src/standard/parser.rs:24, 1 assertion -/
example : (let v_parser := DurationParser.new; okIs (DurationParser.parse v_parser (b! "42Ms")) (get (Duration.positive 0 42000)) && true) = true := by decide +kernel

/-- fundu/src/standard/parser.rs:57, 4 assertions -/
example : (okIs (DurationParser.parse DurationParser.new (b! "1")) (get (Duration.positive 1 0)) && okIs (DurationParser.parse DurationParser.new (b! "1s")) (get (Duration.positive 1 0)) && okIs (DurationParser.parse DurationParser.new (b! "42.0e9ns")) (get (Duration.positive 42 0)) && decide ((DurationParser.getCurrentTimeUnits DurationParser.new) = [TimeUnit.nanoSecond, TimeUnit.microSecond, TimeUnit.milliSecond, TimeUnit.second, TimeUnit.minute, TimeUnit.hour, TimeUnit.day, TimeUnit.week]) && true) = true := by decide +kernel

/-- fundu/src/standard/parser.rs:99, 1 assertion -/
example : (okIs (DurationParser.parse (DurationParser.withTimeUnits [TimeUnit.nanoSecond, TimeUnit.hour, TimeUnit.week]) (b! "1.5w")) (get (Duration.positive ((((60 * 60) * 24) * 7) + ((((60 * 60) * 24) * 7) / 2)) 0)) && true) = true := by decide +kernel

/-- fundu/src/standard/parser.rs:121, 2 assertions -/
example : (okIs (DurationParser.parse DurationParser.withoutTimeUnits (b! "33.33")) (get (Duration.positive 33 330000000)) && decide ((DurationParser.getCurrentTimeUnits DurationParser.withoutTimeUnits) = []) && true) = true := by decide +kernel

/-- fundu/src/standard/parser.rs:145, 1 assertion -/
example : (decide ((DurationParser.getCurrentTimeUnits DurationParser.withAllTimeUnits) = [TimeUnit.nanoSecond, TimeUnit.microSecond, TimeUnit.milliSecond, TimeUnit.second, TimeUnit.minute, TimeUnit.hour, TimeUnit.day, TimeUnit.week, TimeUnit.month, TimeUnit.year]) && true) = true := by decide +kernel

/-- fundu/src/standard/parser.rs:182, 4 assertions -/
example : (let v_parser := (DurationParserBuilder.build (DurationParserBuilder.allowTimeUnitDelimiter (DurationParserBuilder.defaultUnit (DurationParserBuilder.allTimeUnits DurationParserBuilder.new) TimeUnit.microSecond))); okIs (DurationParser.parse v_parser ([49, 32, 9, 10, 110, 115] : Bytes)) (get (Duration.positive 0 1)) && okIs (DurationParser.parse v_parser (b! "1")) (get (Duration.positive 0 1000)) && (let v_parser := DurationParser.withAllTimeUnits; (let v_parser := (DurationParser.allowTimeUnitDelimiter (DurationParser.defaultUnit v_parser TimeUnit.microSecond) true); okIs (DurationParser.parse v_parser (b! "1 ns")) (get (Duration.positive 0 1)) && okIs (DurationParser.parse v_parser (b! "1")) (get (Duration.positive 0 1000)) && true))) = true := by decide +kernel

/-- fundu/src/standard/parser.rs:219, 1 assertion -/
example : (okIs (DurationParser.parse DurationParser.new (b! "1.2e-1s")) (get (Duration.positive 0 120000000)) && true) = true := by decide +kernel

/-- fundu/src/standard/parser.rs:239, 1 assertion -/
example : (okIs (DurationParser.parse (DurationParser.defaultUnit DurationParser.withAllTimeUnits TimeUnit.nanoSecond) (b! "42")) (get (Duration.positive 0 42)) && true) = true := by decide +kernel

/-- fundu/src/standard/parser.rs:264, 6 assertions -/
example : (let v_parser := DurationParser.new; errIs (DurationParser.parse v_parser (b! "123 ns")) (.timeUnit 3 (b! "Invalid time unit: ' ns'")) && (let v_parser := (DurationParser.allowTimeUnitDelimiter v_parser true); okIs (DurationParser.parse v_parser (b! "123 ns")) (get (Duration.positive 0 123)) && okIs (DurationParser.parse v_parser (b! "123    ns")) (get (Duration.positive 0 123)) && okIs (DurationParser.parse v_parser (b! "123ns")) (get (Duration.positive 0 123)) && (let v_parser := (DurationParser.allowTimeUnitDelimiter v_parser true); okIs (DurationParser.parse v_parser ([49, 50, 51, 13, 10, 110, 115] : Bytes)) (get (Duration.positive 0 123)) && okIs (DurationParser.parse v_parser ([49, 50, 51, 9, 10, 13, 32, 110, 115] : Bytes)) (get (Duration.positive 0 123)) && true))) = true := by decide +kernel

/-- fundu/src/standard/parser.rs:298, 4 assertions -/
example : (let v_parser := DurationParser.new; (let v_parser := (DurationParser.allowSignDelimiter v_parser true); okIs (DurationParser.parse v_parser (b! "+123ns")) (get (Duration.positive 0 123)) && okIs (DurationParser.parse v_parser ([43, 9, 10, 32, 49, 50, 51, 110, 115] : Bytes)) (get (Duration.positive 0 123)) && okIs (DurationParser.parse v_parser (b! "+ 123ns")) (get (Duration.positive 0 123)) && okIs (DurationParser.parse v_parser (b! "+     123ns")) (get (Duration.positive 0 123)) && true)) = true := by decide +kernel

/-- fundu/src/standard/parser.rs:321, 2 assertions -/
example : (let v_parser := DurationParser.new; (let v_parser := (DurationParser.allowNegative v_parser true); okIs (DurationParser.parse v_parser (b! "-123")) (get (Duration.negative 123 0)) && okIs (DurationParser.parse v_parser (b! "-1.23e-7")) (get (Duration.negative 0 123)) && true)) = true := by decide +kernel

/-- fundu/src/standard/parser.rs:344, 2 assertions -/
example : (let v_parser := DurationParser.withAllTimeUnits; (let v_parser := (DurationParser.allowAgo v_parser true); okIs (DurationParser.parse v_parser (b! "123ns ago")) (get (Duration.negative 0 123)) && okIs (DurationParser.parse v_parser (b! "-123ns ago")) (get (Duration.positive 0 123)) && true)) = true := by decide +kernel

/-- fundu/src/standard/parser.rs:356, 2 assertions -/
example : (let v_parser := DurationParser.withAllTimeUnits; (let v_parser := (DurationParser.allowAgo v_parser true); errIs (DurationParser.parse v_parser (b! "123 ago")) (.timeUnit 3 (b! "Invalid time unit: ' ago'")) && errIs (DurationParser.parse v_parser (b! "123ns ago ago")) (.syntax 9 (b! "Expected end of input but found: ' ago'")) && true)) = true := by decide +kernel

/-- fundu/src/standard/parser.rs:396, 1 assertion -/
example : (let v_parser := DurationParser.new; (let v_parser := (DurationParser.disableExponent v_parser true); errIs (DurationParser.parse v_parser (b! "123e+1")) (.syntax 3 (b! "No exponent allowed")) && true)) = true := by decide +kernel

/-- fundu/src/standard/parser.rs:419, 3 assertions -/
example : (let v_parser := DurationParser.new; (let v_parser := (DurationParser.disableFraction v_parser true); errIs (DurationParser.parse v_parser (b! "123.456")) (.syntax 3 (b! "No fraction allowed")) && okIs (DurationParser.parse v_parser (b! "123e-2")) (get (Duration.positive 1 230000000)) && okIs (DurationParser.parse v_parser (b! "123ns")) (get (Duration.positive 0 123)) && true)) = true := by decide +kernel

/-- fundu/src/standard/parser.rs:448, 3 assertions -/
example : (let v_parser := DurationParser.new; (let v_parser := (DurationParser.disableInfinity v_parser true); errIs (DurationParser.parse v_parser (b! "inf")) (.invalidInput (b! "inf")) && errIs (DurationParser.parse v_parser (b! "infinity")) (.invalidInput (b! "infinity")) && errIs (DurationParser.parse v_parser (b! "+inf")) (.invalidInput (b! "inf")) && true)) = true := by decide +kernel

/-- fundu/src/standard/parser.rs:481, 2 assertions -/
example : (let v_parser := DurationParser.new; (let v_parser := (DurationParser.numberIsOptional v_parser true); okIs (DurationParser.parse v_parser (b! "ns")) (get (Duration.positive 0 1)) && okIs (DurationParser.parse v_parser (b! "+ns")) (get (Duration.positive 0 1)) && true)) = true := by decide +kernel

/-- fundu/src/standard/parser.rs:521, 2 assertions -/
example : (let v_parser := DurationParser.new; (let v_parser := (DurationParser.numberIsOptional (DurationParser.parseMultiple v_parser true none) true); okIs (DurationParser.parse v_parser (b! "1 s 1 ns")) (get (Duration.positive 3 1)) && (let v_parser := (DurationParser.allowTimeUnitDelimiter v_parser true); okIs (DurationParser.parse v_parser (b! "1 s 1 ns")) (get (Duration.positive 1 1)) && true))) = true := by decide +kernel

/-- fundu/src/standard/parser.rs:537, 6 assertions -/
example : (let v_parser := DurationParser.new; (let v_parser := (DurationParser.parseMultiple v_parser true (some [(b! "and")])); okIs (DurationParser.parse v_parser (b! "1.5h 2e+2ns")) (get (Duration.positive 5400 200)) && okIs (DurationParser.parse v_parser (b! "55s500ms")) (get (Duration.positive 55 500000000)) && okIs (DurationParser.parse v_parser (b! "1m and 1ns")) (get (Duration.positive 60 1)) && okIs (DurationParser.parse v_parser (b! "1.   .1")) (get (Duration.positive 1 100000000)) && okIs (DurationParser.parse v_parser (b! "2h")) (get (Duration.positive ((2 * 60) * 60) 0)) && okIs (DurationParser.parse v_parser (b! "300ms20s 5d")) (get (Duration.positive ((((5 * 60) * 60) * 24) + 20) 300000000)) && true)) = true := by decide +kernel

/-- fundu/src/standard/parser.rs:582, 2 assertions -/
example : (let v_parser := DurationParser.withAllTimeUnits; (let v_parser := (DurationParser.setInnerDelimiter (DurationParser.allowAgo v_parser true) (fun b => decide (b = 35))); okIs (DurationParser.parse v_parser (b! "1.5h#ago")) (get (Duration.negative 5400 0)) && (let v_parser := DurationParser.withAllTimeUnits; (let v_parser := (DurationParser.setInnerDelimiter (DurationParser.allowSignDelimiter v_parser true) (fun b => decide (b = 35))); okIs (DurationParser.parse v_parser (b! "+##1.5h")) (get (Duration.positive 5400 0)) && true)))) = true := by decide +kernel

/-- fundu/src/standard/parser.rs:614, 2 assertions -/
example : (let v_parser := DurationParser.withAllTimeUnits; (let v_parser := (DurationParser.setOuterDelimiter (DurationParser.parseMultiple v_parser true none) (fun b => decide (b = 59))); okIs (DurationParser.parse v_parser (b! "1.5h;2e+2ns")) (get (Duration.positive 5400 200)) && (let v_parser := DurationParser.withAllTimeUnits; (let v_parser := (DurationParser.setOuterDelimiter (DurationParser.parseMultiple v_parser true (some [(b! "and")])) (fun b => decide (b = 59))); okIs (DurationParser.parse v_parser (b! "1.5h;and;2e+2ns")) (get (Duration.positive 5400 200)) && true)))) = true := by decide +kernel

/-- fundu/src/standard/parser.rs:646, 2 assertions -/
example : (let v_parser := DurationParser.withoutTimeUnits; decide ((DurationParser.getCurrentTimeUnits v_parser) = []) && decide ((DurationParser.getCurrentTimeUnits (DurationParser.withTimeUnits [TimeUnit.nanoSecond])) = [TimeUnit.nanoSecond]) && true) = true := by decide +kernel

/-- fundu/src/standard/parser.rs:686, 2 assertions -/
example : (let v_duration := (getR (parseDuration (b! "+1.09e1"))); decide (v_duration = (get (StdDuration.new 10 900000000))) && errIs (parseDuration (b! "Not a number")) (.invalidInput (b! "Not a number")) && true) = true := by decide +kernel

end Fundu.Conformance.DocsStandard
