import Verif.Conformance.Basic
/-! Generated by tools/doctests.py from the documentation of the project: 135 assertions in 53 examples. -/
set_option linter.unusedVariables false
set_option maxRecDepth 4000
namespace Fundu.Conformance.DocsCustom

/-- fundu/src/custom/builder.rs:18, 4 assertions -/
example : (let v_parser := (CustomDurationParserBuilder.build (CustomDurationParserBuilder.allowTimeUnitDelimiter (CustomDurationParserBuilder.defaultUnit (CustomDurationParserBuilder.addTimeUnits CustomDurationParserBuilder.new [(CustomTimeUnit.withDefault TimeUnit.nanoSecond [(b! "ns")])]) TimeUnit.microSecond))); okIs (CustomDurationParser.parse v_parser (b! "1 ns")) (get (Duration.positive 0 1)) && okIs (CustomDurationParser.parse v_parser (b! "1")) (get (Duration.positive 0 1000)) && (let v_parser := (CustomDurationParser.withTimeUnits [(CustomTimeUnit.withDefault TimeUnit.nanoSecond [(b! "ns")])]); (let v_parser := (CustomDurationParser.allowTimeUnitDelimiter (CustomDurationParser.defaultUnit v_parser TimeUnit.microSecond) true); okIs (CustomDurationParser.parse v_parser (b! "1 ns")) (get (Duration.positive 0 1)) && okIs (CustomDurationParser.parse v_parser (b! "1")) (get (Duration.positive 0 1000)) && true))) = true := by decide +kernel

/-- fundu/src/custom/builder.rs:88, 1 assertion -/
example : (let v_parser := (CustomDurationParserBuilder.build (CustomDurationParserBuilder.timeUnit CustomDurationParserBuilder.new (get (CustomTimeUnit.new TimeUnit.week [(b! "fortnight"), (b! "fortnights")] (some (⟨2, 0⟩ : Multiplier)))))); okIs (CustomDurationParser.parse v_parser (b! "1fortnight")) (get (Duration.positive ((((2 * 7) * 24) * 60) * 60) 0)) && true) = true := by decide +kernel

/-- fundu/src/custom/builder.rs:113, 1 assertion -/
example : (let v_CUSTOM_TIME_UNITS := [(get (CustomTimeUnit.new TimeUnit.week [(b! "fortnight"), (b! "fortnights")] (some (⟨2, 0⟩ : Multiplier)))), (get (CustomTimeUnit.new TimeUnit.second [(b! "shake"), (b! "shakes")] (some (⟨1, (-8)⟩ : Multiplier))))]; let v_parser := (CustomDurationParserBuilder.build (CustomDurationParserBuilder.addTimeUnits CustomDurationParserBuilder.new v_CUSTOM_TIME_UNITS)); okIs (CustomDurationParser.parse v_parser (b! "1fortnight")) (get (Duration.positive ((((2 * 7) * 24) * 60) * 60) 0)) && true) = true := by decide +kernel

/-- fundu/src/custom/builder.rs:146, 3 assertions -/
example : (let v_parser := (CustomDurationParserBuilder.build (CustomDurationParserBuilder.keyword (CustomDurationParserBuilder.timeUnit CustomDurationParserBuilder.new (CustomTimeUnit.withDefault TimeUnit.nanoSecond [(b! "ns")])) (get (TimeKeyword.new TimeUnit.day [(b! "tomorrow")] (some (⟨1, 0⟩ : Multiplier)))))); okIs (CustomDurationParser.parse v_parser (b! "123ns")) (get (Duration.positive 0 123)) && okIs (CustomDurationParser.parse v_parser (b! "tomorrow")) (get (Duration.positive ((60 * 60) * 24) 0)) && errIs (CustomDurationParser.parse v_parser (b! "123tomorrow")) (.timeUnit 3 (b! "Invalid time unit: 'tomorrow'")) && true) = true := by decide +kernel

/-- fundu/src/custom/builder.rs:183, 2 assertions -/
example : (let v_parser := (CustomDurationParserBuilder.build (CustomDurationParserBuilder.addKeywords (CustomDurationParserBuilder.allowNegative CustomDurationParserBuilder.new) [(get (TimeKeyword.new TimeUnit.day [(b! "yesterday")] (some (⟨(-1), 0⟩ : Multiplier)))), (get (TimeKeyword.new TimeUnit.day [(b! "tomorrow")] (some (⟨1, 0⟩ : Multiplier))))])); okIs (CustomDurationParser.parse v_parser (b! "yesterday")) (get (Duration.negative ((60 * 60) * 24) 0)) && okIs (CustomDurationParser.parse v_parser (b! "tomorrow")) (get (Duration.positive ((60 * 60) * 24) 0)) && true) = true := by decide +kernel

/-- fundu/src/custom/builder.rs:220, 2 assertions -/
example : (let v_parser := (CustomDurationParserBuilder.build (CustomDurationParserBuilder.allowNegative (CustomDurationParserBuilder.timeUnit (CustomDurationParserBuilder.numeral CustomDurationParserBuilder.new (⟨[(b! "one"), (b! "next")], (⟨1, 0⟩ : Multiplier)⟩ : Numeral)) (CustomTimeUnit.withDefault TimeUnit.nanoSecond [(b! "nano"), (b! "nanos")])))); okIs (CustomDurationParser.parse v_parser (b! "next nano")) (get (Duration.positive 0 1)) && okIs (CustomDurationParser.parse v_parser (b! "one nano")) (get (Duration.positive 0 1)) && true) = true := by decide +kernel

/-- fundu/src/custom/builder.rs:245, 4 assertions -/
example : (let v_parser := (CustomDurationParserBuilder.build (CustomDurationParserBuilder.allowNegative (CustomDurationParserBuilder.timeUnit (CustomDurationParserBuilder.addNumerals CustomDurationParserBuilder.new [(⟨[(b! "last")], (⟨(-1), 0⟩ : Multiplier)⟩ : Numeral), (⟨[(b! "this")], (⟨0, 0⟩ : Multiplier)⟩ : Numeral), (⟨[(b! "one"), (b! "next")], (⟨1, 0⟩ : Multiplier)⟩ : Numeral), (⟨[(b! "two")], (⟨2, 0⟩ : Multiplier)⟩ : Numeral)]) (CustomTimeUnit.withDefault TimeUnit.nanoSecond [(b! "nano"), (b! "nanos")])))); okIs (CustomDurationParser.parse v_parser (b! "last nano")) (get (Duration.negative 0 1)) && okIs (CustomDurationParser.parse v_parser (b! "this nano")) (get (Duration.negative 0 0)) && okIs (CustomDurationParser.parse v_parser (b! "next nano")) (get (Duration.positive 0 1)) && okIs (CustomDurationParser.parse v_parser (b! "two nanos")) (get (Duration.positive 0 2)) && true) = true := by decide +kernel

/-- fundu/src/custom/builder.rs:278, 1 assertion -/
example : (okIs (CustomDurationParser.parse (CustomDurationParserBuilder.build (CustomDurationParserBuilder.defaultUnit CustomDurationParserBuilder.new TimeUnit.nanoSecond)) (b! "42")) (get (Duration.positive 0 42)) && true) = true := by decide +kernel

/-- fundu/src/custom/builder.rs:302, 3 assertions -/
example : (let v_parser := (CustomDurationParserBuilder.build (CustomDurationParserBuilder.allowTimeUnitDelimiter (CustomDurationParserBuilder.addTimeUnits CustomDurationParserBuilder.new [(CustomTimeUnit.withDefault TimeUnit.nanoSecond [(b! "ns")])]))); okIs (CustomDurationParser.parse v_parser (b! "123 ns")) (get (Duration.positive 0 123)) && okIs (CustomDurationParser.parse v_parser (b! "123   ns")) (get (Duration.positive 0 123)) && okIs (CustomDurationParser.parse v_parser (b! "123ns")) (get (Duration.positive 0 123)) && true) = true := by decide +kernel

/-- fundu/src/custom/builder.rs:326, 4 assertions -/
example : (let v_parser := (CustomDurationParserBuilder.build (CustomDurationParserBuilder.allowSignDelimiter (CustomDurationParserBuilder.addTimeUnits CustomDurationParserBuilder.new [(CustomTimeUnit.withDefault TimeUnit.nanoSecond [(b! "ns")])]))); okIs (CustomDurationParser.parse v_parser (b! "+123ns")) (get (Duration.positive 0 123)) && okIs (CustomDurationParser.parse v_parser ([43, 9, 10, 32, 49, 50, 51, 110, 115] : Bytes)) (get (Duration.positive 0 123)) && okIs (CustomDurationParser.parse v_parser (b! "+ 123ns")) (get (Duration.positive 0 123)) && okIs (CustomDurationParser.parse v_parser (b! "+     123ns")) (get (Duration.positive 0 123)) && true) = true := by decide +kernel

/-- fundu/src/custom/builder.rs:351, 3 assertions -/
example : (let v_parser := (CustomDurationParserBuilder.build (CustomDurationParserBuilder.keyword (CustomDurationParserBuilder.addTimeUnits (CustomDurationParserBuilder.allowNegative CustomDurationParserBuilder.new) [(CustomTimeUnit.withDefault TimeUnit.nanoSecond [(b! "ns")]), (get (CustomTimeUnit.new TimeUnit.second [(b! "neg")] (some (⟨(-1), 0⟩ : Multiplier))))]) (get (TimeKeyword.new TimeUnit.day [(b! "yesterday")] (some (⟨(-1), 0⟩ : Multiplier)))))); okIs (CustomDurationParser.parse v_parser (b! "-123ns")) (get (Duration.negative 0 123)) && okIs (CustomDurationParser.parse v_parser (b! "1.23e-7neg")) (get (Duration.negative 0 123)) && okIs (CustomDurationParser.parse v_parser (b! "yesterday")) (get (Duration.negative ((60 * 60) * 24) 0)) && true) = true := by decide +kernel

/-- fundu/src/custom/builder.rs:386, 3 assertions -/
example : (let v_parser := (CustomDurationParserBuilder.build (CustomDurationParserBuilder.keyword (CustomDurationParserBuilder.addTimeUnits (CustomDurationParserBuilder.allowAgo CustomDurationParserBuilder.new) [(CustomTimeUnit.withDefault TimeUnit.nanoSecond [(b! "ns")]), (get (CustomTimeUnit.new TimeUnit.second [(b! "neg")] (some (⟨(-1), 0⟩ : Multiplier))))]) (get (TimeKeyword.new TimeUnit.day [(b! "yesterday")] (some (⟨(-1), 0⟩ : Multiplier)))))); okIs (CustomDurationParser.parse v_parser (b! "123ns ago")) (get (Duration.negative 0 123)) && okIs (CustomDurationParser.parse v_parser (b! "-123ns ago")) (get (Duration.positive 0 123)) && okIs (CustomDurationParser.parse v_parser (b! "123neg ago")) (get (Duration.positive 123 0)) && true) = true := by decide +kernel

/-- fundu/src/custom/builder.rs:410, 3 assertions -/
example : (let v_parser := (CustomDurationParserBuilder.build (CustomDurationParserBuilder.keyword (CustomDurationParserBuilder.addTimeUnits (CustomDurationParserBuilder.allowAgo CustomDurationParserBuilder.new) [(CustomTimeUnit.withDefault TimeUnit.nanoSecond [(b! "ns")])]) (get (TimeKeyword.new TimeUnit.day [(b! "yesterday")] (some (⟨(-1), 0⟩ : Multiplier)))))); errIs (CustomDurationParser.parse v_parser (b! "123 ago")) (.timeUnit 3 (b! "Invalid time unit: ' ago'")) && errIs (CustomDurationParser.parse v_parser (b! "123ns ago ago")) (.syntax 9 (b! "Expected end of input but found: ' ago'")) && errIs (CustomDurationParser.parse v_parser (b! "yesterday ago")) (.invalidInput (b! "yesterday ago")) && true) = true := by decide +kernel

/-- fundu/src/custom/builder.rs:460, 1 assertion -/
example : (errIs (CustomDurationParser.parse (CustomDurationParserBuilder.build (CustomDurationParserBuilder.disableExponent CustomDurationParserBuilder.new)) (b! "123e+1")) (.syntax 3 (b! "No exponent allowed")) && true) = true := by decide +kernel

/-- fundu/src/custom/builder.rs:482, 3 assertions -/
example : (let v_parser := (CustomDurationParserBuilder.build (CustomDurationParserBuilder.disableFraction (CustomDurationParserBuilder.addTimeUnits CustomDurationParserBuilder.new [(CustomTimeUnit.withDefault TimeUnit.nanoSecond [(b! "ns")])]))); errIs (CustomDurationParser.parse v_parser (b! "123.456")) (.syntax 3 (b! "No fraction allowed")) && okIs (CustomDurationParser.parse v_parser (b! "123e-2")) (get (Duration.positive 1 230000000)) && okIs (CustomDurationParser.parse v_parser (b! "123ns")) (get (Duration.positive 0 123)) && true) = true := by decide +kernel

/-- fundu/src/custom/builder.rs:513, 3 assertions -/
example : (let v_parser := (CustomDurationParserBuilder.build (CustomDurationParserBuilder.disableInfinity CustomDurationParserBuilder.new)); errIs (CustomDurationParser.parse v_parser (b! "inf")) (.invalidInput (b! "inf")) && errIs (CustomDurationParser.parse v_parser (b! "infinity")) (.invalidInput (b! "infinity")) && errIs (CustomDurationParser.parse v_parser (b! "+inf")) (.invalidInput (b! "inf")) && true) = true := by decide +kernel

/-- fundu/src/custom/builder.rs:544, 3 assertions -/
example : (let v_parser := (CustomDurationParserBuilder.build (CustomDurationParserBuilder.numberIsOptional (CustomDurationParserBuilder.addTimeUnits CustomDurationParserBuilder.new DEFAULT_TIME_UNITS))); okIs (CustomDurationParser.parse v_parser (b! "ns")) (get (Duration.positive 0 1)) && okIs (CustomDurationParser.parse v_parser (b! ".001e-6s")) (get (Duration.positive 0 1)) && okIs (CustomDurationParser.parse v_parser (b! "+ns")) (get (Duration.positive 0 1)) && true) = true := by decide +kernel

/-- fundu/src/custom/builder.rs:569, 6 assertions -/
example : (let v_parser := (CustomDurationParserBuilder.build (CustomDurationParserBuilder.parseMultiple (CustomDurationParserBuilder.addTimeUnits CustomDurationParserBuilder.new DEFAULT_TIME_UNITS) (some [(b! "and")]))); okIs (CustomDurationParser.parse v_parser (b! "1.5h 2e+2ns")) (get (Duration.positive 5400 200)) && okIs (CustomDurationParser.parse v_parser (b! "55s500ms")) (get (Duration.positive 55 500000000)) && okIs (CustomDurationParser.parse v_parser (b! "1m and 1ns")) (get (Duration.positive 60 1)) && okIs (CustomDurationParser.parse v_parser (b! "1.   .1")) (get (Duration.positive 1 100000000)) && okIs (CustomDurationParser.parse v_parser (b! "2h")) (get (Duration.positive ((2 * 60) * 60) 0)) && okIs (CustomDurationParser.parse v_parser (b! "300ms20s 5d")) (get (Duration.positive ((((5 * 60) * 60) * 24) + 20) 300000000)) && true) = true := by decide +kernel

/-- fundu/src/custom/builder.rs:609, 2 assertions -/
example : (let v_parser := (CustomDurationParserBuilder.build (CustomDurationParserBuilder.outerDelimiter (CustomDurationParserBuilder.parseMultiple (CustomDurationParserBuilder.addTimeUnits CustomDurationParserBuilder.new DEFAULT_TIME_UNITS) none) (fun b => decide (b = 59)))); okIs (CustomDurationParser.parse v_parser (b! "1.5h;2e+2ns")) (get (Duration.positive 5400 200)) && (let v_parser := (CustomDurationParserBuilder.build (CustomDurationParserBuilder.outerDelimiter (CustomDurationParserBuilder.parseMultiple (CustomDurationParserBuilder.addTimeUnits CustomDurationParserBuilder.new DEFAULT_TIME_UNITS) (some [(b! "and")])) (fun b => decide (b = 59)))); okIs (CustomDurationParser.parse v_parser (b! "1.5h;and;2e+2ns")) (get (Duration.positive 5400 200)) && true)) = true := by decide +kernel

/-- fundu/src/custom/builder.rs:646, 2 assertions -/
example : (let v_parser := (CustomDurationParserBuilder.build (CustomDurationParserBuilder.innerDelimiter (CustomDurationParserBuilder.allowAgo (CustomDurationParserBuilder.addTimeUnits CustomDurationParserBuilder.new DEFAULT_TIME_UNITS)) (fun b => decide (b = 35)))); okIs (CustomDurationParser.parse v_parser (b! "1.5h#ago")) (get (Duration.negative 5400 0)) && (let v_parser := (CustomDurationParserBuilder.build (CustomDurationParserBuilder.innerDelimiter (CustomDurationParserBuilder.allowSignDelimiter (CustomDurationParserBuilder.addTimeUnits CustomDurationParserBuilder.new DEFAULT_TIME_UNITS)) (fun b => decide (b = 35)))); okIs (CustomDurationParser.parse v_parser (b! "+##1.5h")) (get (Duration.positive 5400 0)) && true)) = true := by decide +kernel

/-- fundu/src/custom/builder.rs:674, 3 assertions -/
example : (let v_parser := (CustomDurationParserBuilder.build (CustomDurationParserBuilder.allowTimeUnitDelimiter (CustomDurationParserBuilder.addTimeUnits CustomDurationParserBuilder.new [(CustomTimeUnit.withDefault TimeUnit.minute [(b! "min")]), (CustomTimeUnit.withDefault TimeUnit.hour [(b! "h"), (b! "hr")])]))); okIs (CustomDurationParser.parse v_parser (b! "60 min")) (get (Duration.positive (60 * 60) 0)) && okIs (CustomDurationParser.parse v_parser (b! "1h")) (get (Duration.positive (60 * 60) 0)) && okIs (CustomDurationParser.parse v_parser ([49, 9, 10, 32, 104, 114] : Bytes)) (get (Duration.positive (60 * 60) 0)) && true) = true := by decide +kernel

/-- fundu/src/custom/mod.rs:22, 4 assertions -/
example : (let v_parser := (CustomDurationParserBuilder.build (CustomDurationParserBuilder.allowNegative (CustomDurationParserBuilder.timeUnit (CustomDurationParserBuilder.addNumerals CustomDurationParserBuilder.new [(⟨[(b! "last")], (⟨(-1), 0⟩ : Multiplier)⟩ : Numeral), (⟨[(b! "this")], (⟨0, 0⟩ : Multiplier)⟩ : Numeral), (⟨[(b! "one"), (b! "next")], (⟨1, 0⟩ : Multiplier)⟩ : Numeral), (⟨[(b! "two")], (⟨2, 0⟩ : Multiplier)⟩ : Numeral)]) (CustomTimeUnit.withDefault TimeUnit.nanoSecond [(b! "nano"), (b! "nanos")])))); okIs (CustomDurationParser.parse v_parser (b! "last nano")) (get (Duration.negative 0 1)) && okIs (CustomDurationParser.parse v_parser (b! "this nano")) (get (Duration.negative 0 0)) && okIs (CustomDurationParser.parse v_parser (b! "next nano")) (get (Duration.positive 0 1)) && okIs (CustomDurationParser.parse v_parser (b! "two nanos")) (get (Duration.positive 0 2)) && true) = true := by decide +kernel

/-- fundu/src/custom/parser.rs:49, 1 assertion -/
example : (okIs (CustomDurationParser.parse CustomDurationParser.new (b! "100.0")) (get (Duration.positive 100 0)) && true) = true := by decide +kernel

/-- fundu/src/custom/parser.rs:83, 5 assertions -/
example : (let v_parser := (CustomDurationParser.withTimeUnits [(CustomTimeUnit.withDefault TimeUnit.second [(b! "s")]), (CustomTimeUnit.withDefault TimeUnit.minute [(b! "Min")]), (CustomTimeUnit.withDefault TimeUnit.hour [([207, 142, 207, 129, 206, 177] : Bytes)])]); decide ((CustomDurationParser.getTimeUnitById v_parser (b! "s")) = (some (TimeUnit.second, (⟨1, 0⟩ : Multiplier)))) && decide ((CustomDurationParser.getTimeUnitById v_parser (b! "Min")) = (some (TimeUnit.minute, (⟨1, 0⟩ : Multiplier)))) && decide ((CustomDurationParser.getTimeUnitById v_parser ([207, 142, 207, 129, 206, 177] : Bytes)) = (some (TimeUnit.hour, (⟨1, 0⟩ : Multiplier)))) && isErr (CustomDurationParser.parse v_parser (b! "42.0min")) && okIs (CustomDurationParser.parse v_parser ([52, 50, 101, 45, 49, 207, 142, 207, 129, 206, 177] : Bytes)) (get (Duration.positive 15120 0)) && true) = true := by decide +kernel

/-- fundu/src/custom/parser.rs:131, 4 assertions -/
example : (let v_parser := (DurationParserBuilder.build (DurationParserBuilder.allowTimeUnitDelimiter (DurationParserBuilder.defaultUnit (DurationParserBuilder.allTimeUnits DurationParserBuilder.new) TimeUnit.microSecond))); okIs (DurationParser.parse v_parser (b! "1 ns")) (get (Duration.positive 0 1)) && okIs (DurationParser.parse v_parser (b! "1")) (get (Duration.positive 0 1000)) && (let v_parser := DurationParser.withAllTimeUnits; (let v_parser := (DurationParser.allowTimeUnitDelimiter (DurationParser.defaultUnit v_parser TimeUnit.microSecond) true); okIs (DurationParser.parse v_parser (b! "1 ns")) (get (Duration.positive 0 1)) && okIs (DurationParser.parse v_parser (b! "1")) (get (Duration.positive 0 1000)) && true))) = true := by decide +kernel

/-- fundu/src/custom/parser.rs:165, 1 assertion -/
example : (let v_parser := CustomDurationParser.new; (let v_parser := (CustomDurationParser.timeUnit (CustomDurationParser.timeUnit (CustomDurationParser.timeUnit v_parser (get (CustomTimeUnit.new TimeUnit.week [(b! "fortnight"), (b! "fortnights")] (some (⟨2, 0⟩ : Multiplier))))) (get (CustomTimeUnit.new TimeUnit.second [(b! "kilosecond"), (b! "kiloseconds"), (b! "kilos")] (some (⟨1000, 0⟩ : Multiplier))))) (get (CustomTimeUnit.new TimeUnit.second [(b! "shakes")] (some (⟨1, (-8)⟩ : Multiplier))))); okIs (CustomDurationParser.parse v_parser (b! "1fortnights")) (get (Duration.positive ((((2 * 7) * 24) * 60) * 60) 0)) && true)) = true := by decide +kernel

/-- fundu/src/custom/parser.rs:197, 1 assertion -/
example : (let v_parser := (CustomDurationParser.withTimeUnits DEFAULT_TIME_UNITS); (let v_parser := (CustomDurationParser.timeUnit v_parser (get (CustomTimeUnit.new TimeUnit.day [(b! "y"), (b! "year"), (b! "years")] (some (⟨365, 0⟩ : Multiplier))))); okIs (CustomDurationParser.parse v_parser (b! "1year")) (get (Duration.positive (((365 * 24) * 60) * 60) 0)) && true)) = true := by decide +kernel

/-- fundu/src/custom/parser.rs:227, 1 assertion -/
example : (let v_CUSTOM_TIME_UNITS := [(get (CustomTimeUnit.new TimeUnit.week [(b! "fortnight"), (b! "fortnights")] (some (⟨2, 0⟩ : Multiplier)))), (get (CustomTimeUnit.new TimeUnit.second [(b! "shake"), (b! "shakes")] (some (⟨1, (-8)⟩ : Multiplier))))]; let v_parser := CustomDurationParser.new; (let v_parser := (CustomDurationParser.addTimeUnits v_parser v_CUSTOM_TIME_UNITS); okIs (CustomDurationParser.parse v_parser (b! "1fortnight")) (get (Duration.positive ((((2 * 7) * 24) * 60) * 60) 0)) && true)) = true := by decide +kernel

/-- fundu/src/custom/parser.rs:259, 3 assertions -/
example : (let v_parser := (CustomDurationParser.withTimeUnits [(CustomTimeUnit.withDefault TimeUnit.nanoSecond [(b! "ns")])]); (let v_parser := (CustomDurationParser.keyword v_parser (get (TimeKeyword.new TimeUnit.day [(b! "tomorrow")] (some (⟨1, 0⟩ : Multiplier))))); okIs (CustomDurationParser.parse v_parser (b! "123ns")) (get (Duration.positive 0 123)) && okIs (CustomDurationParser.parse v_parser (b! "tomorrow")) (get (Duration.positive ((60 * 60) * 24) 0)) && errIs (CustomDurationParser.parse v_parser (b! "123tomorrow")) (.timeUnit 3 (b! "Invalid time unit: 'tomorrow'")) && true)) = true := by decide +kernel

/-- fundu/src/custom/parser.rs:294, 2 assertions -/
example : (let v_parser := CustomDurationParser.new; (let v_parser := (CustomDurationParser.addKeywords (CustomDurationParser.allowNegative v_parser true) [(get (TimeKeyword.new TimeUnit.day [(b! "yesterday")] (some (⟨(-1), 0⟩ : Multiplier)))), (get (TimeKeyword.new TimeUnit.day [(b! "tomorrow")] (some (⟨1, 0⟩ : Multiplier))))]); okIs (CustomDurationParser.parse v_parser (b! "yesterday")) (get (Duration.negative ((60 * 60) * 24) 0)) && okIs (CustomDurationParser.parse v_parser (b! "tomorrow")) (get (Duration.positive ((60 * 60) * 24) 0)) && true)) = true := by decide +kernel

/-- fundu/src/custom/parser.rs:326, 2 assertions -/
example : (let v_parser := (CustomDurationParser.withTimeUnits [(CustomTimeUnit.withDefault TimeUnit.nanoSecond [(b! "nano"), (b! "nanos")])]); (let v_parser := (CustomDurationParser.numeral v_parser (⟨[(b! "one"), (b! "next")], (⟨1, 0⟩ : Multiplier)⟩ : Numeral)); okIs (CustomDurationParser.parse v_parser (b! "next nano")) (get (Duration.positive 0 1)) && okIs (CustomDurationParser.parse v_parser (b! "one nano")) (get (Duration.positive 0 1)) && true)) = true := by decide +kernel

/-- fundu/src/custom/parser.rs:350, 4 assertions -/
example : (let v_parser := (CustomDurationParser.withTimeUnits [(CustomTimeUnit.withDefault TimeUnit.nanoSecond [(b! "nano"), (b! "nanos")])]); (let v_parser := (CustomDurationParser.addNumerals (CustomDurationParser.allowNegative v_parser true) [(⟨[(b! "last")], (⟨(-1), 0⟩ : Multiplier)⟩ : Numeral), (⟨[(b! "this")], (⟨0, 0⟩ : Multiplier)⟩ : Numeral), (⟨[(b! "one"), (b! "next")], (⟨1, 0⟩ : Multiplier)⟩ : Numeral), (⟨[(b! "two")], (⟨2, 0⟩ : Multiplier)⟩ : Numeral)]); okIs (CustomDurationParser.parse v_parser (b! "last nano")) (get (Duration.negative 0 1)) && okIs (CustomDurationParser.parse v_parser (b! "this nano")) (get (Duration.negative 0 0)) && okIs (CustomDurationParser.parse v_parser (b! "next nano")) (get (Duration.positive 0 1)) && okIs (CustomDurationParser.parse v_parser (b! "two nanos")) (get (Duration.positive 0 2)) && true)) = true := by decide +kernel

/-- fundu/src/custom/parser.rs:389, 1 assertion -/
example : (okIs (CustomDurationParser.parse CustomDurationParser.new (b! "1.2e-1")) (get (Duration.positive 0 120000000)) && true) = true := by decide +kernel

/-- fundu/src/custom/parser.rs:414, 1 assertion -/
example : (okIs (CustomDurationParser.parse (CustomDurationParser.defaultUnit CustomDurationParser.new TimeUnit.nanoSecond) (b! "42")) (get (Duration.positive 0 42)) && true) = true := by decide +kernel

/-- fundu/src/custom/parser.rs:437, 5 assertions -/
example : (let v_parser := (CustomDurationParser.withTimeUnits [(CustomTimeUnit.withDefault TimeUnit.nanoSecond [(b! "ns")])]); errIs (CustomDurationParser.parse v_parser (b! "123 ns")) (.timeUnit 3 (b! "Invalid time unit: ' ns'")) && (let v_parser := (CustomDurationParser.allowTimeUnitDelimiter v_parser true); okIs (CustomDurationParser.parse v_parser (b! "123 ns")) (get (Duration.positive 0 123)) && okIs (CustomDurationParser.parse v_parser (b! "123     ns")) (get (Duration.positive 0 123)) && okIs (CustomDurationParser.parse v_parser (b! "123ns")) (get (Duration.positive 0 123)) && okIs (CustomDurationParser.parse v_parser ([49, 50, 51, 9, 10, 13, 32, 110, 115] : Bytes)) (get (Duration.positive 0 123)) && true)) = true := by decide +kernel

/-- fundu/src/custom/parser.rs:468, 4 assertions -/
example : (let v_parser := (CustomDurationParser.withTimeUnits [(CustomTimeUnit.withDefault TimeUnit.nanoSecond [(b! "ns")])]); (let v_parser := (CustomDurationParser.allowSignDelimiter v_parser true); okIs (CustomDurationParser.parse v_parser (b! "+123ns")) (get (Duration.positive 0 123)) && okIs (CustomDurationParser.parse v_parser ([43, 9, 10, 32, 49, 50, 51, 110, 115] : Bytes)) (get (Duration.positive 0 123)) && okIs (CustomDurationParser.parse v_parser (b! "+ 123ns")) (get (Duration.positive 0 123)) && okIs (CustomDurationParser.parse v_parser (b! "+     123ns")) (get (Duration.positive 0 123)) && true)) = true := by decide +kernel

/-- fundu/src/custom/parser.rs:497, 3 assertions -/
example : (let v_parser := (CustomDurationParser.withTimeUnits [(CustomTimeUnit.withDefault TimeUnit.nanoSecond [(b! "ns")]), (get (CustomTimeUnit.new TimeUnit.second [(b! "neg")] (some (⟨(-1), 0⟩ : Multiplier))))]); (let v_parser := (CustomDurationParser.keyword (CustomDurationParser.allowNegative v_parser true) (get (TimeKeyword.new TimeUnit.day [(b! "yesterday")] (some (⟨(-1), 0⟩ : Multiplier))))); okIs (CustomDurationParser.parse v_parser (b! "-123ns")) (get (Duration.negative 0 123)) && okIs (CustomDurationParser.parse v_parser (b! "1.23e-7neg")) (get (Duration.negative 0 123)) && okIs (CustomDurationParser.parse v_parser (b! "yesterday")) (get (Duration.negative ((60 * 60) * 24) 0)) && true)) = true := by decide +kernel

/-- fundu/src/custom/parser.rs:534, 3 assertions -/
example : (let v_parser := (CustomDurationParser.withTimeUnits [(CustomTimeUnit.withDefault TimeUnit.nanoSecond [(b! "ns")]), (get (CustomTimeUnit.new TimeUnit.second [(b! "neg")] (some (⟨(-1), 0⟩ : Multiplier))))]); (let v_parser := (CustomDurationParser.keyword (CustomDurationParser.allowAgo v_parser true) (get (TimeKeyword.new TimeUnit.day [(b! "yesterday")] (some (⟨(-1), 0⟩ : Multiplier))))); okIs (CustomDurationParser.parse v_parser (b! "123ns ago")) (get (Duration.negative 0 123)) && okIs (CustomDurationParser.parse v_parser (b! "-123ns ago")) (get (Duration.positive 0 123)) && okIs (CustomDurationParser.parse v_parser (b! "123neg ago")) (get (Duration.positive 123 0)) && true)) = true := by decide +kernel

/-- fundu/src/custom/parser.rs:555, 3 assertions -/
example : (let v_parser := (CustomDurationParser.withTimeUnits [(CustomTimeUnit.withDefault TimeUnit.nanoSecond [(b! "ns")])]); (let v_parser := (CustomDurationParser.keyword (CustomDurationParser.allowAgo v_parser true) (get (TimeKeyword.new TimeUnit.day [(b! "yesterday")] (some (⟨(-1), 0⟩ : Multiplier))))); errIs (CustomDurationParser.parse v_parser (b! "123 ago")) (.timeUnit 3 (b! "Invalid time unit: ' ago'")) && errIs (CustomDurationParser.parse v_parser (b! "123ns ago ago")) (.syntax 9 (b! "Expected end of input but found: ' ago'")) && errIs (CustomDurationParser.parse v_parser (b! "yesterday ago")) (.invalidInput (b! "yesterday ago")) && true)) = true := by decide +kernel

/-- fundu/src/custom/parser.rs:605, 1 assertion -/
example : (let v_parser := (CustomDurationParser.withTimeUnits DEFAULT_TIME_UNITS); (let v_parser := (CustomDurationParser.disableExponent v_parser true); errIs (CustomDurationParser.parse v_parser (b! "123e+1")) (.syntax 3 (b! "No exponent allowed")) && true)) = true := by decide +kernel

/-- fundu/src/custom/parser.rs:626, 3 assertions -/
example : (let v_parser := (CustomDurationParser.withTimeUnits [(CustomTimeUnit.withDefault TimeUnit.nanoSecond [(b! "ns")])]); (let v_parser := (CustomDurationParser.disableFraction v_parser true); errIs (CustomDurationParser.parse v_parser (b! "123.456")) (.syntax 3 (b! "No fraction allowed")) && okIs (CustomDurationParser.parse v_parser (b! "123e-2")) (get (Duration.positive 1 230000000)) && okIs (CustomDurationParser.parse v_parser (b! "123ns")) (get (Duration.positive 0 123)) && true)) = true := by decide +kernel

/-- fundu/src/custom/parser.rs:657, 3 assertions -/
example : (let v_parser := CustomDurationParser.new; (let v_parser := (CustomDurationParser.disableInfinity v_parser true); errIs (CustomDurationParser.parse v_parser (b! "inf")) (.invalidInput (b! "inf")) && errIs (CustomDurationParser.parse v_parser (b! "infinity")) (.invalidInput (b! "infinity")) && errIs (CustomDurationParser.parse v_parser (b! "+inf")) (.invalidInput (b! "inf")) && true)) = true := by decide +kernel

/-- fundu/src/custom/parser.rs:687, 3 assertions -/
example : (let v_parser := (CustomDurationParser.withTimeUnits DEFAULT_TIME_UNITS); (let v_parser := (CustomDurationParser.numberIsOptional v_parser true); okIs (CustomDurationParser.parse v_parser (b! "ns")) (get (Duration.positive 0 1)) && okIs (CustomDurationParser.parse v_parser (b! ".001e-6s")) (get (Duration.positive 0 1)) && okIs (CustomDurationParser.parse v_parser (b! "+ns")) (get (Duration.positive 0 1)) && true)) = true := by decide +kernel

/-- fundu/src/custom/parser.rs:708, 6 assertions -/
example : (let v_parser := (CustomDurationParser.withTimeUnits DEFAULT_TIME_UNITS); (let v_parser := (CustomDurationParser.parseMultiple v_parser true (some [(b! "and")])); okIs (CustomDurationParser.parse v_parser (b! "1.5h 2e+2ns")) (get (Duration.positive 5400 200)) && okIs (CustomDurationParser.parse v_parser (b! "55s500ms")) (get (Duration.positive 55 500000000)) && okIs (CustomDurationParser.parse v_parser (b! "1m and 1ns")) (get (Duration.positive 60 1)) && okIs (CustomDurationParser.parse v_parser (b! "1.   .1")) (get (Duration.positive 1 100000000)) && okIs (CustomDurationParser.parse v_parser (b! "2h")) (get (Duration.positive ((2 * 60) * 60) 0)) && okIs (CustomDurationParser.parse v_parser (b! "300ms20s 5d")) (get (Duration.positive ((((5 * 60) * 60) * 24) + 20) 300000000)) && true)) = true := by decide +kernel

/-- fundu/src/custom/parser.rs:754, 2 assertions -/
example : (let v_parser := (CustomDurationParser.withTimeUnits DEFAULT_TIME_UNITS); (let v_parser := (CustomDurationParser.setInnerDelimiter (CustomDurationParser.allowAgo v_parser true) (fun b => decide (b = 35))); okIs (CustomDurationParser.parse v_parser (b! "1.5h#ago")) (get (Duration.negative 5400 0)) && (let v_parser := (CustomDurationParser.withTimeUnits DEFAULT_TIME_UNITS); (let v_parser := (CustomDurationParser.setInnerDelimiter (CustomDurationParser.allowSignDelimiter v_parser true) (fun b => decide (b = 35))); okIs (CustomDurationParser.parse v_parser (b! "+##1.5h")) (get (Duration.positive 5400 0)) && true)))) = true := by decide +kernel

/-- fundu/src/custom/parser.rs:786, 2 assertions -/
example : (let v_parser := (CustomDurationParser.withTimeUnits DEFAULT_TIME_UNITS); (let v_parser := (CustomDurationParser.setOuterDelimiter (CustomDurationParser.parseMultiple v_parser true none) (fun b => decide (b = 59))); okIs (CustomDurationParser.parse v_parser (b! "1.5h;2e+2ns")) (get (Duration.positive 5400 200)) && (let v_parser := (CustomDurationParser.withTimeUnits DEFAULT_TIME_UNITS); (let v_parser := (CustomDurationParser.setOuterDelimiter (CustomDurationParser.parseMultiple v_parser true (some [(b! "and")])) (fun b => decide (b = 59))); okIs (CustomDurationParser.parse v_parser (b! "1.5h;and;2e+2ns")) (get (Duration.positive 5400 200)) && true)))) = true := by decide +kernel

/-- fundu/src/custom/parser.rs:818, 3 assertions -/
example : (let v_parser := (CustomDurationParser.withTimeUnits [(CustomTimeUnit.withDefault TimeUnit.nanoSecond [(b! "ns")]), (CustomTimeUnit.withDefault TimeUnit.microSecond [(b! "Ms")])]); decide ((CustomDurationParser.getTimeUnitById v_parser (b! "does_not_exist")) = none) && decide ((CustomDurationParser.getTimeUnitById v_parser (b! "ns")) = (some (TimeUnit.nanoSecond, (⟨1, 0⟩ : Multiplier)))) && decide ((CustomDurationParser.getTimeUnitById v_parser (b! "Ms")) = (some (TimeUnit.microSecond, (⟨1, 0⟩ : Multiplier)))) && true) = true := by decide +kernel

/-- fundu/src/custom/parser.rs:844, 1 assertion -/
example : (let v_parser := CustomDurationParser.new; (CustomDurationParser.isEmpty v_parser) && true) = true := by decide +kernel

/-- fundu/src/custom/time_units.rs:141, 1 assertion -/
example : (!(CustomTimeUnit.eq (get (CustomTimeUnit.new TimeUnit.week [(b! "fortnight"), (b! "fortnights")] (some (⟨2, 0⟩ : Multiplier)))) (get (CustomTimeUnit.new TimeUnit.day [(b! "fortnight"), (b! "fortnights")] (some (⟨14, 0⟩ : Multiplier))))) && true) = true := by decide +kernel

/-- fundu/src/custom/time_units.rs:157, 1 assertion -/
example : (let v_parser := (CustomDurationParserBuilder.build (CustomDurationParserBuilder.addTimeUnits CustomDurationParserBuilder.new [(get (CustomTimeUnit.new TimeUnit.week [(b! "fortnight"), (b! "fortnights")] (some (⟨2, 0⟩ : Multiplier)))), (get (CustomTimeUnit.new TimeUnit.day [(b! "fortnight"), (b! "fortnights")] (some (⟨14, 0⟩ : Multiplier))))])); okIs (CustomDurationParser.parse v_parser (b! "1fortnight")) (get (Duration.positive 1209600 0)) && true) = true := by decide +kernel

/-- fundu/src/custom/time_units.rs:201, 1 assertion -/
example : (let v_time_unit := (get (CustomTimeUnit.new TimeUnit.second [(b! "shake"), (b! "shakes")] (some (⟨1, (-8)⟩ : Multiplier)))); let v_parser := (CustomDurationParserBuilder.build (CustomDurationParserBuilder.timeUnit CustomDurationParserBuilder.new v_time_unit)); okIs (CustomDurationParser.parse v_parser (b! "1shake")) (get (Duration.positive 0 10)) && true) = true := by decide +kernel

/-- fundu/src/custom/time_units.rs:239, 1 assertion -/
example : (CustomTimeUnit.eq (CustomTimeUnit.withDefault TimeUnit.second [(b! "sec"), (b! "secs")]) (get (CustomTimeUnit.new TimeUnit.second [(b! "sec"), (b! "secs")] (some (⟨1, 0⟩ : Multiplier)))) && true) = true := by decide +kernel

/-- fundu/src/custom/time_units.rs:404, 2 assertions -/
example : (let v_parser := (CustomDurationParser.withTimeUnits [(CustomTimeUnit.withDefault TimeUnit.nanoSecond [(b! "ns")])]); (let v_parser := (CustomDurationParser.keyword v_parser (get (TimeKeyword.new TimeUnit.day [(b! "tomorrow")] (some (⟨1, 0⟩ : Multiplier))))); okIs (CustomDurationParser.parse v_parser (b! "tomorrow")) (get (Duration.positive ((60 * 60) * 24) 0)) && errIs (CustomDurationParser.parse v_parser (b! "123tomorrow")) (.timeUnit 3 (b! "Invalid time unit: 'tomorrow'")) && true)) = true := by decide +kernel

end Fundu.Conformance.DocsCustom
