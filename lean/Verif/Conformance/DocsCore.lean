import Verif.Conformance.Basic
/-! Generated by tools/doctests.py from the documentation of the project: 156 assertions in 61 examples. -/
set_option linter.unusedVariables false
set_option maxRecDepth 4000
namespace Fundu.Conformance.DocsCore

/-- fundu-core/src/config.rs:90, 2 assertions -/
example : (let v_CONFIG := (ConfigBuilder.build (ConfigBuilder.allowNegative (ConfigBuilder.defaultUnit ConfigBuilder.new TimeUnit.milliSecond))); let v_PARSER := v_CONFIG; okIs (parse v_PARSER (⟨true, fun _ => none⟩ : TimeUnitsLike) none none (b! "1000")) (get (Duration.positive 1 0)) && okIs (parse v_PARSER (⟨true, fun _ => none⟩ : TimeUnitsLike) none none (b! "-1")) (get (Duration.negative 0 1000000)) && true) = true := by decide +kernel

/-- fundu-core/src/config.rs:251, 11 assertions -/
example : (let v_DEFAULT_CONFIG := ({} : Config); decide (v_DEFAULT_CONFIG.defaultUnit = TimeUnit.second) && decide (v_DEFAULT_CONFIG.allowTimeUnitDelimiter = false) && decide (v_DEFAULT_CONFIG.defaultMultiplier = (⟨1, 0⟩ : Multiplier)) && decide (v_DEFAULT_CONFIG.disableExponent = false) && decide (v_DEFAULT_CONFIG.disableFraction = false) && decide (v_DEFAULT_CONFIG.numberIsOptional = false) && decide (v_DEFAULT_CONFIG.disableInfinity = false) && decide (v_DEFAULT_CONFIG.allowMultiple = false) && decide (v_DEFAULT_CONFIG.conjunctions = none) && decide (v_DEFAULT_CONFIG.allowNegative = false) && decide (v_DEFAULT_CONFIG.allowAgo = false) && true) = true := by decide +kernel

/-- fundu-core/src/config.rs:292, 2 assertions -/
example : (let v_config := (ConfigBuilder.build (ConfigBuilder.allowNegative (ConfigBuilder.disableInfinity ConfigBuilder.new))); decide (v_config.disableInfinity = true) && decide (v_config.allowNegative = true) && true) = true := by decide +kernel

/-- fundu-core/src/config.rs:316, 2 assertions -/
example : (let v_CONFIG := (ConfigBuilder.build (ConfigBuilder.disableFraction (ConfigBuilder.defaultUnit ConfigBuilder.new TimeUnit.milliSecond))); decide (v_CONFIG.defaultUnit = TimeUnit.milliSecond) && decide (v_CONFIG.disableFraction = true) && true) = true := by decide +kernel

/-- fundu-core/src/config.rs:340, 1 assertion -/
example : (let v_config := (ConfigBuilder.build (ConfigBuilder.allowNegative ConfigBuilder.new)); decide (v_config.allowNegative = true) && true) = true := by decide +kernel

/-- fundu-core/src/config.rs:357, 1 assertion -/
example : (let v_CONFIG := (ConfigBuilder.build (ConfigBuilder.disableFraction ConfigBuilder.new)); decide (v_CONFIG.disableFraction = true) && true) = true := by decide +kernel

/-- fundu-core/src/config.rs:374, 1 assertion -/
example : (let v_CONFIG := (ConfigBuilder.build (ConfigBuilder.allowTimeUnitDelimiter ConfigBuilder.new)); v_CONFIG.allowTimeUnitDelimiter && true) = true := by decide +kernel

/-- fundu-core/src/config.rs:384, 2 assertions -/
example : (let v_CONFIG := (ConfigBuilder.build (ConfigBuilder.innerDelimiter (ConfigBuilder.allowTimeUnitDelimiter ConfigBuilder.new) (fun b => decide (b = 32)))); v_CONFIG.allowTimeUnitDelimiter && v_CONFIG.innerDelimiter 32 && true) = true := by decide +kernel

/-- fundu-core/src/config.rs:406, 1 assertion -/
example : (let v_CONFIG := (ConfigBuilder.build (ConfigBuilder.defaultUnit ConfigBuilder.new TimeUnit.milliSecond)); decide (v_CONFIG.defaultUnit = TimeUnit.milliSecond) && true) = true := by decide +kernel

/-- fundu-core/src/config.rs:427, 1 assertion -/
example : (let v_CONFIG := (ConfigBuilder.build (ConfigBuilder.disableExponent ConfigBuilder.new)); decide (v_CONFIG.disableExponent = true) && true) = true := by decide +kernel

/-- fundu-core/src/config.rs:445, 1 assertion -/
example : (let v_CONFIG := (ConfigBuilder.build (ConfigBuilder.disableFraction ConfigBuilder.new)); decide (v_CONFIG.disableFraction = true) && true) = true := by decide +kernel

/-- fundu-core/src/config.rs:463, 1 assertion -/
example : (let v_CONFIG := (ConfigBuilder.build (ConfigBuilder.disableInfinity ConfigBuilder.new)); decide (v_CONFIG.disableInfinity = true) && true) = true := by decide +kernel

/-- fundu-core/src/config.rs:481, 1 assertion -/
example : (let v_CONFIG := (ConfigBuilder.build (ConfigBuilder.numberIsOptional ConfigBuilder.new)); decide (v_CONFIG.numberIsOptional = true) && true) = true := by decide +kernel

/-- fundu-core/src/config.rs:499, 1 assertion -/
example : (let v_CONFIG := (ConfigBuilder.build (ConfigBuilder.allowNegative ConfigBuilder.new)); decide (v_CONFIG.allowNegative = true) && true) = true := by decide +kernel

/-- fundu-core/src/config.rs:518, 1 assertion -/
example : (let v_CONJUNCTIONS := [(b! "and"), (b! ","), (b! "also")]; let v_CONFIG := (ConfigBuilder.build (ConfigBuilder.parseMultiple ConfigBuilder.new (some v_CONJUNCTIONS))); decide (v_CONFIG.conjunctions = (some v_CONJUNCTIONS)) && true) = true := by decide +kernel

/-- fundu-core/src/config.rs:542, 2 assertions -/
example : (let v_CONFIG := (ConfigBuilder.build (ConfigBuilder.allowAgo ConfigBuilder.new)); v_CONFIG.allowAgo && v_CONFIG.allowNegative && true) = true := by decide +kernel

/-- fundu-core/src/config.rs:562, 1 assertion -/
example : (let v_CONFIG := (ConfigBuilder.build (ConfigBuilder.allowSignDelimiter ConfigBuilder.new)); v_CONFIG.allowSignDelimiter && true) = true := by decide +kernel

/-- fundu-core/src/config.rs:587, 1 assertion -/
example : (let v_CONFIG := (ConfigBuilder.build (ConfigBuilder.innerDelimiter ConfigBuilder.new (fun b => decide (b = 35)))); v_CONFIG.innerDelimiter 35 && true) = true := by decide +kernel

/-- fundu-core/src/config.rs:613, 1 assertion -/
example : (let v_CONFIG := (ConfigBuilder.build (ConfigBuilder.outerDelimiter ConfigBuilder.new (fun b => decide (b = 35)))); v_CONFIG.outerDelimiter 35 && true) = true := by decide +kernel

/-- fundu-core/src/parse.rs:42, 3 assertions -/
example : (let v_parser := ({} : Config); okIs (parse v_parser (⟨false, fun id => if [(b! "s"), (b! "sec"), (b! "secs")].contains id then some (TimeUnit.second, ⟨1, 0⟩) else if [(b! "m"), (b! "min"), (b! "mins")].contains id then some (TimeUnit.minute, ⟨1, 0⟩) else none⟩ : TimeUnitsLike) none none (b! "1.0s")) (get (Duration.positive 1 0)) && okIs (parse v_parser (⟨false, fun id => if [(b! "s"), (b! "sec"), (b! "secs")].contains id then some (TimeUnit.second, ⟨1, 0⟩) else if [(b! "m"), (b! "min"), (b! "mins")].contains id then some (TimeUnit.minute, ⟨1, 0⟩) else none⟩ : TimeUnitsLike) none none (b! "1min")) (get (Duration.positive 60 0)) && errIs (parse v_parser (⟨false, fun id => if [(b! "s"), (b! "sec"), (b! "secs")].contains id then some (TimeUnit.second, ⟨1, 0⟩) else if [(b! "m"), (b! "min"), (b! "mins")].contains id then some (TimeUnit.minute, ⟨1, 0⟩) else none⟩ : TimeUnitsLike) none none (b! "1ms")) (.timeUnit 1 (b! "Invalid time unit: 'ms'")) && true) = true := by decide +kernel

/-- fundu-core/src/parse.rs:178, 3 assertions -/
example : (let v_parser := ({} : Config); okIs (parse v_parser (⟨false, fun id => if [(b! "s"), (b! "sec"), (b! "secs")].contains id then some (TimeUnit.second, ⟨1, 0⟩) else if [(b! "m"), (b! "min"), (b! "mins")].contains id then some (TimeUnit.minute, ⟨1, 0⟩) else none⟩ : TimeUnitsLike) none none (b! "1.0s")) (get (Duration.positive 1 0)) && okIs (parse v_parser (⟨false, fun id => if [(b! "s"), (b! "sec"), (b! "secs")].contains id then some (TimeUnit.second, ⟨1, 0⟩) else if [(b! "m"), (b! "min"), (b! "mins")].contains id then some (TimeUnit.minute, ⟨1, 0⟩) else none⟩ : TimeUnitsLike) none none (b! "1min")) (get (Duration.positive 60 0)) && errIs (parse v_parser (⟨false, fun id => if [(b! "s"), (b! "sec"), (b! "secs")].contains id then some (TimeUnit.second, ⟨1, 0⟩) else if [(b! "m"), (b! "min"), (b! "mins")].contains id then some (TimeUnit.minute, ⟨1, 0⟩) else none⟩ : TimeUnitsLike) none none (b! "1ms")) (.timeUnit 1 (b! "Invalid time unit: 'ms'")) && true) = true := by decide +kernel

/-- fundu-core/src/time.rs:63, 7 assertions -/
example : (decide ((TimeUnit.defaultIdentifier TimeUnit.nanoSecond) = (b! "ns")) && decide ((TimeUnit.defaultIdentifier TimeUnit.second) = (b! "s")) && decide ((TimeUnit.defaultIdentifier TimeUnit.hour) = (b! "h")) && decide ((TimeUnit.multiplier TimeUnit.nanoSecond) = (⟨1, (-9)⟩ : Multiplier)) && decide ((TimeUnit.multiplier TimeUnit.milliSecond) = (⟨1, (-3)⟩ : Multiplier)) && decide ((TimeUnit.multiplier TimeUnit.second) = (⟨1, 0⟩ : Multiplier)) && decide ((TimeUnit.multiplier TimeUnit.hour) = (⟨(60 * 60), 0⟩ : Multiplier)) && true) = true := by decide +kernel

/-- fundu-core/src/time.rs:166, 4 assertions -/
example : (decide ((⟨false, fun id => if [(b! "s"), (b! "sec")].contains id then some (TimeUnit.second, ⟨1, 0⟩) else if [(b! "min"), (b! "minutes")].contains id then some (TimeUnit.minute, ⟨1, 0⟩) else none⟩ : TimeUnitsLike).isEmpty  = false) && decide ((⟨false, fun id => if [(b! "s"), (b! "sec")].contains id then some (TimeUnit.second, ⟨1, 0⟩) else if [(b! "min"), (b! "minutes")].contains id then some (TimeUnit.minute, ⟨1, 0⟩) else none⟩ : TimeUnitsLike).get (b! "sec") = (some (TimeUnit.second, (⟨1, 0⟩ : Multiplier)))) && decide ((⟨false, fun id => if [(b! "s"), (b! "sec")].contains id then some (TimeUnit.second, ⟨1, 0⟩) else if [(b! "min"), (b! "minutes")].contains id then some (TimeUnit.minute, ⟨1, 0⟩) else none⟩ : TimeUnitsLike).get (b! "minutes") = (some (TimeUnit.minute, (⟨1, 0⟩ : Multiplier)))) && decide ((⟨false, fun id => if [(b! "s"), (b! "sec")].contains id then some (TimeUnit.second, ⟨1, 0⟩) else if [(b! "min"), (b! "minutes")].contains id then some (TimeUnit.minute, ⟨1, 0⟩) else none⟩ : TimeUnitsLike).get (b! "does_not_exist") = none) && true) = true := by decide +kernel

/-- fundu-core/src/time.rs:203, 1 assertion -/
example : ((⟨true, fun _ => none⟩ : TimeUnitsLike).isEmpty  && true) = true := by decide +kernel

/-- fundu-core/src/time.rs:225, 1 assertion -/
example : (decide ((⟨false, fun id => if [(b! "s"), (b! "sec")].contains id then some (TimeUnit.second, ⟨1, 0⟩) else if [(b! "min"), (b! "minutes")].contains id then some (TimeUnit.minute, ⟨1, 0⟩) else none⟩ : TimeUnitsLike).isEmpty  = false) && true) = true := by decide +kernel

/-- fundu-core/src/time.rs:268, 5 assertions -/
example : (decide ((⟨false, fun id => if [(b! "ns"), (b! "nsec")].contains id then some (TimeUnit.nanoSecond, ⟨1, 0⟩) else if [([194, 181, 115] : Bytes), (b! "us"), (b! "usec")].contains id then some (TimeUnit.microSecond, ⟨1, 0⟩) else if [(b! "ms"), (b! "msec")].contains id then some (TimeUnit.milliSecond, ⟨1, 0⟩) else if [(b! "s"), (b! "sec")].contains id then some (TimeUnit.second, ⟨1, 0⟩) else if [(b! "m"), (b! "min"), (b! "mins"), (b! "minutes")].contains id then some (TimeUnit.minute, ⟨1, 0⟩) else if [(b! "h"), (b! "hr"), (b! "hrs")].contains id then some (TimeUnit.hour, ⟨1, 0⟩) else if [(b! "d"), (b! "day"), (b! "days")].contains id then some (TimeUnit.day, ⟨1, 0⟩) else if [(b! "w"), (b! "weeks")].contains id then some (TimeUnit.week, ⟨1, 0⟩) else if [(b! "fortnight"), (b! "fortnights")].contains id then some (TimeUnit.week, ⟨2, 0⟩) else if [(b! "month"), (b! "months")].contains id then some (TimeUnit.month, ⟨1, 0⟩) else if [(b! "year"), (b! "years")].contains id then some (TimeUnit.year, ⟨1, 0⟩) else none⟩ : TimeUnitsLike).isEmpty  = false) && decide ((⟨false, fun id => if [(b! "ns"), (b! "nsec")].contains id then some (TimeUnit.nanoSecond, ⟨1, 0⟩) else if [([194, 181, 115] : Bytes), (b! "us"), (b! "usec")].contains id then some (TimeUnit.microSecond, ⟨1, 0⟩) else if [(b! "ms"), (b! "msec")].contains id then some (TimeUnit.milliSecond, ⟨1, 0⟩) else if [(b! "s"), (b! "sec")].contains id then some (TimeUnit.second, ⟨1, 0⟩) else if [(b! "m"), (b! "min"), (b! "mins"), (b! "minutes")].contains id then some (TimeUnit.minute, ⟨1, 0⟩) else if [(b! "h"), (b! "hr"), (b! "hrs")].contains id then some (TimeUnit.hour, ⟨1, 0⟩) else if [(b! "d"), (b! "day"), (b! "days")].contains id then some (TimeUnit.day, ⟨1, 0⟩) else if [(b! "w"), (b! "weeks")].contains id then some (TimeUnit.week, ⟨1, 0⟩) else if [(b! "fortnight"), (b! "fortnights")].contains id then some (TimeUnit.week, ⟨2, 0⟩) else if [(b! "month"), (b! "months")].contains id then some (TimeUnit.month, ⟨1, 0⟩) else if [(b! "year"), (b! "years")].contains id then some (TimeUnit.year, ⟨1, 0⟩) else none⟩ : TimeUnitsLike).get (b! "nsec") = (some (TimeUnit.nanoSecond, (⟨1, 0⟩ : Multiplier)))) && decide ((⟨false, fun id => if [(b! "ns"), (b! "nsec")].contains id then some (TimeUnit.nanoSecond, ⟨1, 0⟩) else if [([194, 181, 115] : Bytes), (b! "us"), (b! "usec")].contains id then some (TimeUnit.microSecond, ⟨1, 0⟩) else if [(b! "ms"), (b! "msec")].contains id then some (TimeUnit.milliSecond, ⟨1, 0⟩) else if [(b! "s"), (b! "sec")].contains id then some (TimeUnit.second, ⟨1, 0⟩) else if [(b! "m"), (b! "min"), (b! "mins"), (b! "minutes")].contains id then some (TimeUnit.minute, ⟨1, 0⟩) else if [(b! "h"), (b! "hr"), (b! "hrs")].contains id then some (TimeUnit.hour, ⟨1, 0⟩) else if [(b! "d"), (b! "day"), (b! "days")].contains id then some (TimeUnit.day, ⟨1, 0⟩) else if [(b! "w"), (b! "weeks")].contains id then some (TimeUnit.week, ⟨1, 0⟩) else if [(b! "fortnight"), (b! "fortnights")].contains id then some (TimeUnit.week, ⟨2, 0⟩) else if [(b! "month"), (b! "months")].contains id then some (TimeUnit.month, ⟨1, 0⟩) else if [(b! "year"), (b! "years")].contains id then some (TimeUnit.year, ⟨1, 0⟩) else none⟩ : TimeUnitsLike).get (b! "fortnight") = (some (TimeUnit.week, (⟨2, 0⟩ : Multiplier)))) && decide ((⟨false, fun id => if [(b! "ns"), (b! "nsec")].contains id then some (TimeUnit.nanoSecond, ⟨1, 0⟩) else if [([194, 181, 115] : Bytes), (b! "us"), (b! "usec")].contains id then some (TimeUnit.microSecond, ⟨1, 0⟩) else if [(b! "ms"), (b! "msec")].contains id then some (TimeUnit.milliSecond, ⟨1, 0⟩) else if [(b! "s"), (b! "sec")].contains id then some (TimeUnit.second, ⟨1, 0⟩) else if [(b! "m"), (b! "min"), (b! "mins"), (b! "minutes")].contains id then some (TimeUnit.minute, ⟨1, 0⟩) else if [(b! "h"), (b! "hr"), (b! "hrs")].contains id then some (TimeUnit.hour, ⟨1, 0⟩) else if [(b! "d"), (b! "day"), (b! "days")].contains id then some (TimeUnit.day, ⟨1, 0⟩) else if [(b! "w"), (b! "weeks")].contains id then some (TimeUnit.week, ⟨1, 0⟩) else if [(b! "fortnight"), (b! "fortnights")].contains id then some (TimeUnit.week, ⟨2, 0⟩) else if [(b! "month"), (b! "months")].contains id then some (TimeUnit.month, ⟨1, 0⟩) else if [(b! "year"), (b! "years")].contains id then some (TimeUnit.year, ⟨1, 0⟩) else none⟩ : TimeUnitsLike).get (b! "years") = (some (TimeUnit.year, (⟨1, 0⟩ : Multiplier)))) && decide ((⟨false, fun id => if [(b! "ns"), (b! "nsec")].contains id then some (TimeUnit.nanoSecond, ⟨1, 0⟩) else if [([194, 181, 115] : Bytes), (b! "us"), (b! "usec")].contains id then some (TimeUnit.microSecond, ⟨1, 0⟩) else if [(b! "ms"), (b! "msec")].contains id then some (TimeUnit.milliSecond, ⟨1, 0⟩) else if [(b! "s"), (b! "sec")].contains id then some (TimeUnit.second, ⟨1, 0⟩) else if [(b! "m"), (b! "min"), (b! "mins"), (b! "minutes")].contains id then some (TimeUnit.minute, ⟨1, 0⟩) else if [(b! "h"), (b! "hr"), (b! "hrs")].contains id then some (TimeUnit.hour, ⟨1, 0⟩) else if [(b! "d"), (b! "day"), (b! "days")].contains id then some (TimeUnit.day, ⟨1, 0⟩) else if [(b! "w"), (b! "weeks")].contains id then some (TimeUnit.week, ⟨1, 0⟩) else if [(b! "fortnight"), (b! "fortnights")].contains id then some (TimeUnit.week, ⟨2, 0⟩) else if [(b! "month"), (b! "months")].contains id then some (TimeUnit.month, ⟨1, 0⟩) else if [(b! "year"), (b! "years")].contains id then some (TimeUnit.year, ⟨1, 0⟩) else none⟩ : TimeUnitsLike).get (b! "does_not_match") = none) && true) = true := by decide +kernel

/-- fundu-core/src/time.rs:389, 1 assertion -/
example : (let v_multiplier := (⟨123, 45⟩ : Multiplier); decide ((Multiplier.coefficient v_multiplier) = 123) && true) = true := by decide +kernel

/-- fundu-core/src/time.rs:404, 1 assertion -/
example : (let v_multiplier := (⟨123, 45⟩ : Multiplier); decide ((Multiplier.exponent v_multiplier) = 45) && true) = true := by decide +kernel

/-- fundu-core/src/time.rs:419, 1 assertion -/
example : (let v_multiplier := (⟨(-123), 45⟩ : Multiplier); (Multiplier.isNegative v_multiplier) && true) = true := by decide +kernel

/-- fundu-core/src/time.rs:434, 1 assertion -/
example : (let v_multiplier := (⟨123, 45⟩ : Multiplier); (Multiplier.isPositive v_multiplier) && true) = true := by decide +kernel

/-- fundu-core/src/time.rs:453, 4 assertions -/
example : (decide ((Multiplier.checkedMul (⟨1, 2⟩ : Multiplier) (⟨3, 4⟩ : Multiplier)) = (some (⟨3, 6⟩ : Multiplier))) && decide ((Multiplier.checkedMul (⟨(-1), 2⟩ : Multiplier) (⟨3, (-4)⟩ : Multiplier)) = (some (⟨(-3), (-2)⟩ : Multiplier))) && decide ((Multiplier.checkedMul (⟨2, 0⟩ : Multiplier) (⟨9223372036854775807, 1⟩ : Multiplier)) = none) && decide ((Multiplier.checkedMul (⟨1, 2⟩ : Multiplier) (⟨1, 32767⟩ : Multiplier)) = none) && true) = true := by decide +kernel

/-- fundu-core/src/time.rs:482, 3 assertions -/
example : (decide ((Multiplier.saturatingNeg (⟨1, 2⟩ : Multiplier)) = (⟨(-1), 2⟩ : Multiplier)) && decide ((Multiplier.saturatingNeg (⟨(-1), 2⟩ : Multiplier)) = (⟨1, 2⟩ : Multiplier)) && decide ((Multiplier.saturatingNeg (⟨(-9223372036854775808), 2⟩ : Multiplier)) = (⟨9223372036854775807, 2⟩ : Multiplier)) && true) = true := by decide +kernel

/-- fundu-core/src/time.rs:527, 4 assertions -/
example : (let v_result := (Duration.toStd (get (Duration.positive 1 2))); convIs v_result (.ok (get (StdDuration.new 1 2))) && (let v_result := (Duration.toStd (get (Duration.negative 1 2))); convIs v_result (.error TryFromDurationError.negativeDuration) && (let v_duration := (get (Duration.saturatingToStd (get (Duration.negative 1 2)))); decide (v_duration = StdDuration.ZERO) && (let v_duration := (get (Duration.saturatingToStd Duration.MAX)); decide (v_duration = StdDuration.MAX) && true)))) = true := by decide +kernel

/-- fundu-core/src/time.rs:559, 1 assertion -/
example : (let v_duration := Duration.ZERO; (Duration.isZero v_duration) && true) = true := by decide +kernel

/-- fundu-core/src/time.rs:574, 1 assertion -/
example : (let v_duration := Duration.MIN; Duration.eq (get (Duration.negative 18446744073709551615 999999999)) v_duration && true) = true := by decide +kernel

/-- fundu-core/src/time.rs:589, 1 assertion -/
example : (let v_duration := Duration.MAX; Duration.eq (get (Duration.positive 18446744073709551615 999999999)) v_duration && true) = true := by decide +kernel

/-- fundu-core/src/time.rs:604, 2 assertions -/
example : (let v_duration := (Duration.fromStd false (get (StdDuration.new 1 0))); Duration.eq (get (Duration.positive 1 0)) v_duration && (let v_duration := (Duration.fromStd true (get (StdDuration.new 1 0))); Duration.eq (get (Duration.negative 1 0)) v_duration && true)) = true := by decide +kernel

/-- fundu-core/src/time.rs:626, 2 assertions -/
example : (let v_duration := (get (Duration.positive 1 0)); (!v_duration.isNegative) && (let v_duration := (get (Duration.positive 0 0)); (!v_duration.isNegative) && true)) = true := by decide +kernel

/-- fundu-core/src/time.rs:651, 1 assertion -/
example : (let v_duration := (get (Duration.negative 1 0)); (Duration.isNegative v_duration) && true) = true := by decide +kernel

/-- fundu-core/src/time.rs:677, 4 assertions -/
example : (pureIs (Duration.asWeeks (get (Duration.positive (86400 * 7) 0))) 1 && pureIs (Duration.asWeeks (get (Duration.negative (86400 * 7) 0))) (-1) && pureIs (Duration.asWeeks (get (Duration.positive 1 0))) 0 && pureIs (Duration.asWeeks (get (Duration.positive 1500000 0))) 2 && true) = true := by decide +kernel

/-- fundu-core/src/time.rs:694, 4 assertions -/
example : (pureIs (Duration.asDays (get (Duration.positive 86400 0))) 1 && pureIs (Duration.asDays (get (Duration.negative 86400 0))) (-1) && pureIs (Duration.asDays (get (Duration.positive 1 0))) 0 && pureIs (Duration.asDays (get (Duration.positive 1500000 0))) 17 && true) = true := by decide +kernel

/-- fundu-core/src/time.rs:711, 4 assertions -/
example : (pureIs (Duration.asHours (get (Duration.positive 3600 0))) 1 && pureIs (Duration.asHours (get (Duration.negative 3600 0))) (-1) && pureIs (Duration.asHours (get (Duration.positive 1 0))) 0 && pureIs (Duration.asHours (get (Duration.positive 1500000 0))) 416 && true) = true := by decide +kernel

/-- fundu-core/src/time.rs:728, 4 assertions -/
example : (pureIs (Duration.asMinutes (get (Duration.positive 60 0))) 1 && pureIs (Duration.asMinutes (get (Duration.negative 60 0))) (-1) && pureIs (Duration.asMinutes (get (Duration.positive 1 0))) 0 && pureIs (Duration.asMinutes (get (Duration.positive 1500000 0))) 25000 && true) = true := by decide +kernel

/-- fundu-core/src/time.rs:745, 4 assertions -/
example : (pureIs (Duration.asSeconds (get (Duration.positive 1 0))) 1 && pureIs (Duration.asSeconds (get (Duration.negative 1 0))) (-1) && pureIs (Duration.asSeconds (get (Duration.positive 0 1000000))) 0 && pureIs (Duration.asSeconds (get (Duration.positive 1500000 0))) 1500000 && true) = true := by decide +kernel

/-- fundu-core/src/time.rs:763, 4 assertions -/
example : (pureIs (Duration.asMillis (get (Duration.positive 1 0))) 1000 && pureIs (Duration.asMillis (get (Duration.negative 1 0))) (-1000) && pureIs (Duration.asMillis (get (Duration.positive 0 1000000))) 1 && pureIs (Duration.asMillis (get (Duration.positive 12 3000000))) 12003 && true) = true := by decide +kernel

/-- fundu-core/src/time.rs:780, 4 assertions -/
example : (pureIs (Duration.asMicros (get (Duration.positive 1 0))) 1000000 && pureIs (Duration.asMicros (get (Duration.negative 1 0))) (-1000000) && pureIs (Duration.asMicros (get (Duration.positive 0 1000))) 1 && pureIs (Duration.asMicros (get (Duration.positive 12 3000))) 12000003 && true) = true := by decide +kernel

/-- fundu-core/src/time.rs:797, 4 assertions -/
example : (pureIs (Duration.asNanos (get (Duration.positive 1 0))) 1000000000 && pureIs (Duration.asNanos (get (Duration.negative 1 0))) (-1000000000) && pureIs (Duration.asNanos (get (Duration.positive 0 1))) 1 && pureIs (Duration.asNanos (get (Duration.positive 12 3))) 12000000003 && true) = true := by decide +kernel

/-- fundu-core/src/time.rs:814, 4 assertions -/
example : (pureIs (Duration.subsecMillis (get (Duration.positive 0 123456789))) 123 && pureIs (Duration.subsecMillis (get (Duration.negative 0 123456789))) (-123) && pureIs (Duration.subsecMillis (get (Duration.positive 1 0))) 0 && pureIs (Duration.subsecMillis (get (Duration.positive 0 1))) 0 && true) = true := by decide +kernel

/-- fundu-core/src/time.rs:882, 4 assertions -/
example : (let v_duration := (get (Duration.positive (86400 * 7) 0)); pureIs (Except.map (·.1) (Duration.extractWeeks v_duration)) 1 && (let v_duration := (get (Duration.extractWeeks v_duration)).2; Duration.eq v_duration Duration.ZERO && (let v_duration := (get (Duration.positive 123 456)); pureIs (Except.map (·.1) (Duration.extractWeeks v_duration)) 0 && (let v_duration := (get (Duration.extractWeeks v_duration)).2; Duration.eq v_duration (get (Duration.positive 123 456)) && true)))) = true := by decide +kernel

/-- fundu-core/src/time.rs:902, 4 assertions -/
example : (let v_duration := (get (Duration.positive 86400 0)); pureIs (Except.map (·.1) (Duration.extractDays v_duration)) 1 && (let v_duration := (get (Duration.extractDays v_duration)).2; Duration.eq v_duration Duration.ZERO && (let v_duration := (get (Duration.positive 123 456)); pureIs (Except.map (·.1) (Duration.extractDays v_duration)) 0 && (let v_duration := (get (Duration.extractDays v_duration)).2; Duration.eq v_duration (get (Duration.positive 123 456)) && true)))) = true := by decide +kernel

/-- fundu-core/src/time.rs:922, 4 assertions -/
example : (let v_duration := (get (Duration.positive 3600 0)); pureIs (Except.map (·.1) (Duration.extractHours v_duration)) 1 && (let v_duration := (get (Duration.extractHours v_duration)).2; Duration.eq v_duration Duration.ZERO && (let v_duration := (get (Duration.positive 123 456)); pureIs (Except.map (·.1) (Duration.extractHours v_duration)) 0 && (let v_duration := (get (Duration.extractHours v_duration)).2; Duration.eq v_duration (get (Duration.positive 123 456)) && true)))) = true := by decide +kernel

/-- fundu-core/src/time.rs:942, 4 assertions -/
example : (let v_duration := (get (Duration.positive 60 0)); pureIs (Except.map (·.1) (Duration.extractMinutes v_duration)) 1 && (let v_duration := (get (Duration.extractMinutes v_duration)).2; Duration.eq v_duration Duration.ZERO && (let v_duration := (get (Duration.positive 12 456)); pureIs (Except.map (·.1) (Duration.extractMinutes v_duration)) 0 && (let v_duration := (get (Duration.extractMinutes v_duration)).2; Duration.eq v_duration (get (Duration.positive 12 456)) && true)))) = true := by decide +kernel

/-- fundu-core/src/time.rs:962, 4 assertions -/
example : (let v_duration := (get (Duration.positive 1 0)); pureIs (Except.map (·.1) (Duration.extractSeconds v_duration)) 1 && (let v_duration := (get (Duration.extractSeconds v_duration)).2; Duration.eq v_duration Duration.ZERO && (let v_duration := (get (Duration.positive 12 456)); pureIs (Except.map (·.1) (Duration.extractSeconds v_duration)) 12 && (let v_duration := (get (Duration.extractSeconds v_duration)).2; Duration.eq v_duration (get (Duration.positive 0 456)) && true)))) = true := by decide +kernel

/-- fundu-core/src/time.rs:988, 2 assertions -/
example : (let v_duration := Duration.MIN; (Duration.isNegative v_duration) && (let v_duration := (get (Duration.negative 0 1)); (Duration.isNegative v_duration) && true)) = true := by decide +kernel

/-- fundu-core/src/time.rs:1006, 2 assertions -/
example : (let v_duration := Duration.ZERO; (!v_duration.isNegative) && (let v_duration := (get (Duration.positive 0 1)); (!v_duration.isNegative) && true)) = true := by decide +kernel

/-- fundu-core/src/time.rs:1024, 3 assertions -/
example : (let v_duration := Duration.ZERO; (Duration.isZero v_duration) && (let v_duration := (get (Duration.positive 0 0)); (Duration.isZero v_duration) && (let v_duration := (get (Duration.negative 0 0)); (Duration.isZero v_duration) && true))) = true := by decide +kernel

/-- fundu-core/src/time.rs:1047, 3 assertions -/
example : (let v_duration := Duration.MIN; Duration.eq (Duration.abs v_duration) Duration.MAX && (let v_duration := (get (Duration.negative 1 0)); Duration.eq (Duration.abs v_duration) (get (Duration.positive 1 0)) && (let v_duration := (get (Duration.positive 1 0)); Duration.eq (Duration.abs v_duration) (get (Duration.positive 1 0)) && true))) = true := by decide +kernel

/-- fundu-core/src/time.rs:1068, 3 assertions -/
example : (someDurIs (Duration.checkedAdd (get (Duration.positive 1 0)) (get (Duration.positive 1 0))) ((get (Duration.positive 2 0))) && pureIs (Duration.checkedAdd (get (Duration.positive 18446744073709551615 0)) (get (Duration.positive 1 0))) none && pureIs (Duration.checkedAdd (get (Duration.negative 18446744073709551615 0)) (get (Duration.negative 1 0))) none && true) = true := by decide +kernel

/-- fundu-core/src/time.rs:1118, 2 assertions -/
example : (someDurIs (Duration.checkedSub (get (Duration.positive 1 0)) (get (Duration.positive 1 0))) (Duration.ZERO) && pureIs (Duration.checkedSub (get (Duration.negative 18446744073709551615 0)) (get (Duration.positive 1 0))) none && true) = true := by decide +kernel

/-- fundu-core/src/time.rs:1140, 2 assertions -/
example : (durIs (Duration.saturatingAdd (get (Duration.positive 1 0)) (get (Duration.positive 0 1))) (get (Duration.positive 1 1)) && durIs (Duration.saturatingAdd (get (Duration.positive 18446744073709551615 0)) (get (Duration.positive 1 0))) Duration.MAX && true) = true := by decide +kernel

/-- fundu-core/src/time.rs:1167, 2 assertions -/
example : (durIs (Duration.saturatingSub (get (Duration.positive 1 0)) (get (Duration.positive 1 0))) Duration.ZERO && durIs (Duration.saturatingSub (get (Duration.negative 18446744073709551615 0)) (get (Duration.positive 1 0))) Duration.MIN && true) = true := by decide +kernel

end Fundu.Conformance.DocsCore
