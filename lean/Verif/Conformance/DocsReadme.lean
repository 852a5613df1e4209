import Verif.Conformance.Basic
/-! Generated by tools/doctests.py from the documentation of the project: 48 assertions in 21 examples. -/
set_option linter.unusedVariables false
set_option maxRecDepth 4000
namespace Fundu.Conformance.DocsReadme

/-- fundu/src/lib.rs:166, 1 assertion -/
example : (valIs (parseDuration (b! "1.0e2s")) (get (StdDuration.new 100 0)) && true) = true := by decide +kernel

/-- fundu/src/lib.rs:178, 1 assertion -/
example : (okIs (DurationParser.parse DurationParser.withAllTimeUnits (b! "3m")) (get (Duration.positive 180 0)) && true) = true := by decide +kernel

/-- fundu/src/lib.rs:190, 1 assertion -/
example : (okIs (DurationParser.parse DurationParser.withoutTimeUnits (b! "1.0e2")) (get (Duration.positive 100 0)) && true) = true := by decide +kernel

/-- fundu/src/lib.rs:202, 1 assertion -/
example : (isErr (DurationParser.parse DurationParser.new (b! "3y")) && true) = true := by decide +kernel

/-- fundu/src/lib.rs:211, 4 assertions -/
example : (let v_parser := (DurationParser.withTimeUnits [TimeUnit.nanoSecond, TimeUnit.minute, TimeUnit.hour]); okIs (DurationParser.parse v_parser (b! "9e3ns")) (get (Duration.positive 0 9000)) && okIs (DurationParser.parse v_parser (b! "10m")) (get (Duration.positive 600 0)) && okIs (DurationParser.parse v_parser (b! "1.1h")) (get (Duration.positive 3960 0)) && okIs (DurationParser.parse v_parser (b! "7")) (get (Duration.positive 7 0)) && true) = true := by decide +kernel

/-- fundu/src/lib.rs:226, 1 assertion -/
example : (okIs (DurationParser.parse (DurationParser.defaultUnit DurationParser.withoutTimeUnits TimeUnit.milliSecond) (b! "1000")) (get (Duration.positive 1 0)) && true) = true := by decide +kernel

/-- fundu/src/lib.rs:242, 3 assertions -/
example : (let v_parser := (CustomDurationParser.withTimeUnits [(CustomTimeUnit.withDefault TimeUnit.milliSecond [([207, 135, 206, 185, 206, 187, 206, 185, 206, 191, 207, 131, 207, 132, 207, 140, 32, 207, 132, 206, 191, 207, 133, 32, 206, 180, 206, 181, 207, 133, 207, 132, 206, 181, 207, 129, 206, 191, 206, 187, 206, 173, 207, 128, 207, 132, 206, 191, 207, 133] : Bytes)]), (CustomTimeUnit.withDefault TimeUnit.second [(b! "s"), (b! "secs")]), (CustomTimeUnit.withDefault TimeUnit.hour [([226, 143, 179] : Bytes)])]); okIs (CustomDurationParser.parse v_parser ([46, 51, 207, 135, 206, 185, 206, 187, 206, 185, 206, 191, 207, 131, 207, 132, 207, 140, 32, 207, 132, 206, 191, 207, 133, 32, 206, 180, 206, 181, 207, 133, 207, 132, 206, 181, 207, 129, 206, 191, 206, 187, 206, 173, 207, 128, 207, 132, 206, 191, 207, 133] : Bytes)) (get (Duration.positive 0 300000)) && okIs (CustomDurationParser.parse v_parser (b! "1e3secs")) (get (Duration.positive 1000 0)) && okIs (CustomDurationParser.parse v_parser ([49, 46, 49, 226, 143, 179] : Bytes)) (get (Duration.positive 3960 0)) && true) = true := by decide +kernel

/-- fundu/src/lib.rs:262, 1 assertion -/
example : (errDisplays (DurationParser.parse DurationParser.withoutTimeUnits (b! "1y")) (b! "Time unit error: No time units allowed but found: 'y' at column 1") && true) = true := by decide +kernel

/-- fundu/src/lib.rs:278, 4 assertions -/
example : (let v_PARSER := (DurationParserBuilder.build (DurationParserBuilder.disableExponent (DurationParserBuilder.disableFraction (DurationParserBuilder.numberIsOptional (DurationParserBuilder.allowTimeUnitDelimiter (DurationParserBuilder.timeUnits DurationParserBuilder.new [TimeUnit.nanoSecond])))))); okIs (DurationParser.parse v_PARSER (b! "ns")) (get (Duration.positive 0 1)) && okIs (DurationParser.parse v_PARSER ([49, 48, 48, 48, 9, 10, 13, 32, 110, 115] : Bytes)) (get (Duration.positive 0 1000)) && errIs (DurationParser.parse v_PARSER (b! "1.0ns")) (.syntax 1 (b! "No fraction allowed")) && errIs (DurationParser.parse v_PARSER (b! "1e9ns")) (.syntax 1 (b! "No exponent allowed")) && true) = true := by decide +kernel

/-- README.md:139, 1 assertion -/
example : (valIs (parseDuration (b! "1.0e2s")) (get (StdDuration.new 100 0)) && true) = true := by decide +kernel

/-- README.md:151, 1 assertion -/
example : (okIs (DurationParser.parse DurationParser.withAllTimeUnits (b! "3m")) (get (Duration.positive 180 0)) && true) = true := by decide +kernel

/-- README.md:163, 1 assertion -/
example : (okIs (DurationParser.parse DurationParser.withoutTimeUnits (b! "1.0e2")) (get (Duration.positive 100 0)) && true) = true := by decide +kernel

/-- README.md:175, 1 assertion -/
example : (isErr (DurationParser.parse DurationParser.new (b! "3y")) && true) = true := by decide +kernel

/-- README.md:184, 4 assertions -/
example : (let v_parser := (DurationParser.withTimeUnits [TimeUnit.nanoSecond, TimeUnit.minute, TimeUnit.hour]); okIs (DurationParser.parse v_parser (b! "9e3ns")) (get (Duration.positive 0 9000)) && okIs (DurationParser.parse v_parser (b! "10m")) (get (Duration.positive 600 0)) && okIs (DurationParser.parse v_parser (b! "1.1h")) (get (Duration.positive 3960 0)) && okIs (DurationParser.parse v_parser (b! "7")) (get (Duration.positive 7 0)) && true) = true := by decide +kernel

/-- README.md:199, 1 assertion -/
example : (okIs (DurationParser.parse (DurationParser.defaultUnit DurationParser.withoutTimeUnits TimeUnit.milliSecond) (b! "1000")) (get (Duration.positive 1 0)) && true) = true := by decide +kernel

/-- README.md:215, 3 assertions -/
example : (let v_parser := (CustomDurationParser.withTimeUnits [(CustomTimeUnit.withDefault TimeUnit.milliSecond [([207, 135, 206, 185, 206, 187, 206, 185, 206, 191, 207, 131, 207, 132, 207, 140, 32, 207, 132, 206, 191, 207, 133, 32, 206, 180, 206, 181, 207, 133, 207, 132, 206, 181, 207, 129, 206, 191, 206, 187, 206, 173, 207, 128, 207, 132, 206, 191, 207, 133] : Bytes)]), (CustomTimeUnit.withDefault TimeUnit.second [(b! "s"), (b! "secs")]), (CustomTimeUnit.withDefault TimeUnit.hour [([226, 143, 179] : Bytes)])]); okIs (CustomDurationParser.parse v_parser ([46, 51, 207, 135, 206, 185, 206, 187, 206, 185, 206, 191, 207, 131, 207, 132, 207, 140, 32, 207, 132, 206, 191, 207, 133, 32, 206, 180, 206, 181, 207, 133, 207, 132, 206, 181, 207, 129, 206, 191, 206, 187, 206, 173, 207, 128, 207, 132, 206, 191, 207, 133] : Bytes)) (get (Duration.positive 0 300000)) && okIs (CustomDurationParser.parse v_parser (b! "1e3secs")) (get (Duration.positive 1000 0)) && okIs (CustomDurationParser.parse v_parser ([49, 46, 49, 226, 143, 179] : Bytes)) (get (Duration.positive 3960 0)) && true) = true := by decide +kernel

/-- README.md:235, 1 assertion -/
example : (errDisplays (DurationParser.parse DurationParser.withoutTimeUnits (b! "1y")) (b! "Time unit error: No time units allowed but found: 'y' at column 1") && true) = true := by decide +kernel

/-- README.md:252, 4 assertions -/
example : (let v_PARSER := (DurationParserBuilder.build (DurationParserBuilder.disableExponent (DurationParserBuilder.disableFraction (DurationParserBuilder.numberIsOptional (DurationParserBuilder.allowTimeUnitDelimiter (DurationParserBuilder.timeUnits DurationParserBuilder.new [TimeUnit.nanoSecond])))))); okIs (DurationParser.parse v_PARSER (b! "ns")) (get (Duration.positive 0 1)) && okIs (DurationParser.parse v_PARSER ([49, 48, 48, 48, 9, 10, 13, 32, 110, 115] : Bytes)) (get (Duration.positive 0 1000)) && errIs (DurationParser.parse v_PARSER (b! "1.0ns")) (.syntax 1 (b! "No fraction allowed")) && errIs (DurationParser.parse v_PARSER (b! "1e9ns")) (.syntax 1 (b! "No exponent allowed")) && true) = true := by decide +kernel

/-- README.md:284, 7 assertions -/
example : (let v_parser := (DurationParserBuilder.build (DurationParserBuilder.parseMultiple (DurationParserBuilder.defaultTimeUnits DurationParserBuilder.new) (some [(b! "and")]))); okIs (DurationParser.parse v_parser (b! "1.5h 2e+2ns")) (get (Duration.positive 5400 200)) && okIs (DurationParser.parse v_parser (b! "55s500ms")) (get (Duration.positive 55 500000000)) && okIs (DurationParser.parse v_parser ([49, 9, 49] : Bytes)) (get (Duration.positive 2 0)) && okIs (DurationParser.parse v_parser (b! "1.   .1")) (get (Duration.positive 1 100000000)) && okIs (DurationParser.parse v_parser (b! "2h")) (get (Duration.positive ((2 * 60) * 60) 0)) && okIs (DurationParser.parse v_parser (b! "300ms20s 5d")) (get (Duration.positive ((((5 * 60) * 60) * 24) + 20) 300000000)) && okIs (DurationParser.parse v_parser (b! "300.0ms and 5d")) (get (Duration.positive (((5 * 60) * 60) * 24) 300000000)) && true) = true := by decide +kernel

/-- README.md:374, 4 assertions -/
example : (let v_parser := (DurationParserBuilder.build (DurationParserBuilder.disableExponent (DurationParserBuilder.disableFraction (DurationParserBuilder.numberIsOptional (DurationParserBuilder.allowTimeUnitDelimiter (DurationParserBuilder.timeUnits DurationParserBuilder.new [TimeUnit.nanoSecond])))))); okIs (DurationParser.parse v_parser (b! "ns")) (get (Duration.positive 0 1)) && okIs (DurationParser.parse v_parser ([49, 48, 48, 48, 9, 10, 13, 32, 110, 115] : Bytes)) (get (Duration.positive 0 1000)) && errIs (DurationParser.parse v_parser (b! "1.0ns")) (.syntax 1 (b! "No fraction allowed")) && errIs (DurationParser.parse v_parser (b! "1e9ns")) (.syntax 1 (b! "No exponent allowed")) && true) = true := by decide +kernel

/-- README.md:413, 3 assertions -/
example : (let v_FORTNIGHT := (get (CustomTimeUnit.new TimeUnit.week [(b! "f"), (b! "fortnight"), (b! "fortnights")] (some (⟨2, 0⟩ : Multiplier)))); let v_parser := (CustomDurationParserBuilder.build (CustomDurationParserBuilder.keyword (CustomDurationParserBuilder.addTimeUnits CustomDurationParserBuilder.new [(CustomTimeUnit.withDefault TimeUnit.second [(b! "s"), (b! "secs"), (b! "seconds")]), (CustomTimeUnit.withDefault TimeUnit.minute [(b! "min")]), (CustomTimeUnit.withDefault TimeUnit.hour [([207, 142, 207, 129, 206, 177] : Bytes)]), v_FORTNIGHT]) (get (TimeKeyword.new TimeUnit.day [(b! "tomorrow")] (some (⟨1, 0⟩ : Multiplier)))))); okIs (CustomDurationParser.parse v_parser ([52, 50, 101, 45, 49, 207, 142, 207, 129, 206, 177] : Bytes)) (get (Duration.positive 15120 0)) && okIs (CustomDurationParser.parse v_parser (b! "tomorrow")) (get (Duration.positive ((60 * 60) * 24) 0)) && okIs (CustomDurationParser.parse v_parser (b! "1fortnight")) (get (Duration.positive ((((60 * 60) * 24) * 7) * 2) 0)) && true) = true := by decide +kernel

end Fundu.Conformance.DocsReadme
