import Verif.Conformance.Basic
/-! Generated by tools/doctests.py from the documentation of the project: 108 assertions in 31 examples. -/
set_option linter.unusedVariables false
set_option maxRecDepth 4000
namespace Fundu.Conformance.DocsGnu

/-- fundu-gnu/src/datetime.rs:59, 4 assertions -/
example : (pureIs (JulianDay.toGregorian (0 : Int)) (some ((-4713), 11, 24)) && pureIs (JulianDay.toGregorian ((-365) : Int)) (some ((-4714), 11, 24)) && pureIs (JulianDay.toGregorian (1721060 : Int)) (some (0, 1, 1)) && pureIs (JulianDay.toGregorian (2440588 : Int)) (some (1970, 1, 1)) && true) = true := by decide +kernel

/-- fundu-gnu/src/datetime.rs:88, 4 assertions -/
example : (pureIs (JulianDay.fromGregorian (-4713) 11 24) (0 : Int) && pureIs (JulianDay.fromGregorian (-4714) 11 24) ((-365) : Int) && pureIs (JulianDay.fromGregorian 0 1 1) (1721060 : Int) && pureIs (JulianDay.fromGregorian 1970 1 1) (2440588 : Int) && true) = true := by decide +kernel

/-- fundu-gnu/src/datetime.rs:123, 4 assertions -/
example : (pureIs (JulianDay.tryFromGregorian (-4713) 11 24) (some (0 : Int)) && pureIs (JulianDay.tryFromGregorian (-4714) 11 24) (some ((-365) : Int)) && pureIs (JulianDay.tryFromGregorian 0 1 1) (some (1721060 : Int)) && pureIs (JulianDay.tryFromGregorian 1970 1 1) (some (2440588 : Int)) && true) = true := by decide +kernel

/-- fundu-gnu/src/datetime.rs:175, 1 assertion -/
example : (decide (((-1) : Int) = (-1)) && true) = true := by decide +kernel

/-- fundu-gnu/src/datetime.rs:193, 4 assertions -/
example : (pureIs (JulianDay.toGregorian ((-365) : Int)) (some ((-4714), 11, 24)) && pureIs (JulianDay.toGregorian (0 : Int)) (some ((-4713), 11, 24)) && pureIs (JulianDay.toGregorian (1721060 : Int)) (some (0, 1, 1)) && pureIs (JulianDay.toGregorian (2440588 : Int)) (some (1970, 1, 1)) && true) = true := by decide +kernel

/-- fundu-gnu/src/datetime.rs:239, 2 assertions -/
example : (decide ((JulianDay.checkedAddDays (0 : Int) 10000) = (some (10000 : Int))) && decide ((JulianDay.checkedAddDays (0 : Int) (-1)) = (some ((-1) : Int))) && true) = true := by decide +kernel

/-- fundu-gnu/src/datetime.rs:259, 2 assertions -/
example : (decide ((JulianDay.checkedSubDays (1700000 : Int) 1) = (some (1699999 : Int))) && decide ((JulianDay.checkedSubDays (0 : Int) 366) = (some ((-366) : Int))) && true) = true := by decide +kernel

/-- fundu-gnu/src/datetime.rs:279, 2 assertions -/
example : (decide ((JulianDay.checkedAddDays (0 : Int) (10000 : Int)) = (some (10000 : Int))) && decide ((JulianDay.checkedAddDays (0 : Int) ((-1) : Int)) = (some ((-1) : Int))) && true) = true := by decide +kernel

/-- fundu-gnu/src/datetime.rs:299, 2 assertions -/
example : (decide ((JulianDay.checkedSubDays (1700000 : Int) (1 : Int)) = (some (1699999 : Int))) && decide ((JulianDay.checkedSubDays (0 : Int) (366 : Int)) = (some ((-366) : Int))) && true) = true := by decide +kernel

/-- fundu-gnu/src/datetime.rs:335, 1 assertion -/
example : (let v_date_time := (get (DateTime.fromGregorianDateTime 1970 1 1 0 0 0 0)); decide (v_date_time = DateTime.UNIX_EPOCH) && true) = true := by decide +kernel

/-- fundu-gnu/src/datetime.rs:423, 3 assertions -/
example : (decide ((get (DateTime.fromGregorianDateTime 1970 1 1 0 0 0 0)) = DateTime.UNIX_EPOCH) && (let v_date_time := (get (DateTime.fromGregorianDateTime 1972 2 29 1 30 59 700000000)); pureIs (DateTime.toGregorianDateTime v_date_time) (some ((1972, 2, 29), 1, 30, 59, 700000000)) && decide ((get (DateTime.fromGregorianDateTime 1960 4 31 1 30 59 700000000)) = (get (DateTime.fromGregorianDateTime 1960 5 1 1 30 59 700000000))) && true)) = true := by decide +kernel

/-- fundu-gnu/src/datetime.rs:471, 2 assertions -/
example : (pureIs (DateTime.toGregorianDate DateTime.UNIX_EPOCH) (some (1970, 1, 1)) && pureIs (DateTime.toGregorianDate (get (DateTime.fromGregorianDateTime 1959 1 12 10 3 59 0))) (some (1959, 1, 12)) && true) = true := by decide +kernel

/-- fundu-gnu/src/datetime.rs:488, 2 assertions -/
example : (pureIs (DateTime.toGregorianDateTime DateTime.UNIX_EPOCH) (some ((1970, 1, 1), 0, 0, 0, 0)) && pureIs (DateTime.toGregorianDateTime (get (DateTime.fromGregorianDateTime 1959 1 12 10 3 59 500000000))) (some ((1959, 1, 12), 10, 3, 59, 500000000)) && true) = true := by decide +kernel

/-- fundu-gnu/src/datetime.rs:513, 2 assertions -/
example : (decide ((DateTime.asHmsn DateTime.UNIX_EPOCH) = (0, 0, 0, 0)) && decide ((DateTime.asHmsn (get (DateTime.fromGregorianDateTime 1959 1 12 10 3 59 500000000))) = (10, 3, 59, 500000000)) && true) = true := by decide +kernel

/-- fundu-gnu/src/datetime.rs:545, 3 assertions -/
example : (decide ((DateTime.asJulianDay DateTime.UNIX_EPOCH) = (2440588 : Int)) && decide ((DateTime.asJulianDay (get (DateTime.fromGregorianDateTime (-4713) 11 24 10 3 59 500000000))) = (0 : Int)) && decide ((DateTime.asJulianDay (get (DateTime.fromGregorianDateTime 2023 3 9 23 59 59 999999999))) = (2460013 : Int)) && true) = true := by decide +kernel

/-- fundu-gnu/src/datetime.rs:597, 1 assertion -/
example : (let v_date_time := (get (DateTime.fromGregorianDateTime 1970 1 1 23 59 59 0)); pureIs (DateTime.checkedAddDuration v_date_time (get (Duration.positive 3600 0))) (some (get (DateTime.fromGregorianDateTime 1970 1 2 0 59 59 0))) && true) = true := by decide +kernel

/-- fundu-gnu/src/datetime.rs:643, 1 assertion -/
example : (let v_date_time := (get (DateTime.fromGregorianDateTime 1970 1 1 0 0 0 0)); pureIs (DateTime.checkedSubDuration v_date_time (get (Duration.positive 3600 0))) (some (get (DateTime.fromGregorianDateTime 1969 12 31 23 0 0 0))) && true) = true := by decide +kernel

/-- fundu-gnu/src/datetime.rs:664, 4 assertions -/
example : (let v_date_time := (get (DateTime.fromGregorianDateTime 1970 1 1 0 0 0 0)); pureIs (DateTime.checkedAddGregorian v_date_time 2000 0 0) (some (get (DateTime.fromGregorianDateTime 3970 1 1 0 0 0 0))) && (let v_date_time := (get (DateTime.fromGregorianDateTime 1970 1 1 0 0 0 0)); pureIs (DateTime.checkedAddGregorian v_date_time 0 121 0) (some (get (DateTime.fromGregorianDateTime 1980 2 1 0 0 0 0))) && (let v_date_time := (get (DateTime.fromGregorianDateTime 1970 1 1 0 0 0 0)); pureIs (DateTime.checkedAddGregorian v_date_time 0 0 365) (some (get (DateTime.fromGregorianDateTime 1971 1 1 0 0 0 0))) && (let v_date_time := (get (DateTime.fromGregorianDateTime 1972 1 1 0 0 0 0)); pureIs (DateTime.checkedAddGregorian v_date_time 0 0 366) (some (get (DateTime.fromGregorianDateTime 1973 1 1 0 0 0 0))) && true)))) = true := by decide +kernel

/-- fundu-gnu/src/datetime.rs:726, 3 assertions -/
example : (let v_dt := (get (DateTime.fromGregorianDateTime 1971 1 1 23 0 0 0)); someDurIs (DateTime.durationSince v_dt DateTime.UNIX_EPOCH) ((get (Duration.positive ((365 * 86400) + (23 * 3600)) 0))) && (let v_dt := (get (DateTime.fromGregorianDateTime 1973 1 1 0 0 10 123456789)); let v_other := (get (DateTime.fromGregorianDateTime 1972 1 1 0 0 0 0)); someDurIs (DateTime.durationSince v_dt v_other) ((get (Duration.positive ((366 * 86400) + 10) 123456789))) && someDurIs (DateTime.durationSince v_other v_dt) ((get (Duration.negative ((366 * 86400) + 10) 123456789))) && true)) = true := by decide +kernel

/-- fundu-gnu/src/lib.rs:79, 14 assertions -/
example : (let v_parser := Gnu.RelativeTimeParser.new; okIs (Gnu.RelativeTimeParser.parse v_parser DateTime.UNIX_EPOCH (b! "1hour")) (get (Duration.positive (60 * 60) 0)) && okIs (Gnu.RelativeTimeParser.parse v_parser DateTime.UNIX_EPOCH (b! "minute")) (get (Duration.positive 60 0)) && okIs (Gnu.RelativeTimeParser.parse v_parser DateTime.UNIX_EPOCH (b! "2 hours")) (get (Duration.positive ((2 * 60) * 60) 0)) && okIs (Gnu.RelativeTimeParser.parse v_parser DateTime.UNIX_EPOCH (b! "second")) (get (Duration.positive 1 0)) && okIs (Gnu.RelativeTimeParser.parse v_parser DateTime.UNIX_EPOCH (b! "-3minutes")) (get (Duration.negative (3 * 60) 0)) && okIs (Gnu.RelativeTimeParser.parse v_parser DateTime.UNIX_EPOCH (b! "3 mins ago")) (get (Duration.negative (3 * 60) 0)) && okIs (Gnu.RelativeTimeParser.parse v_parser DateTime.UNIX_EPOCH (b! "999sec +1day")) (get (Duration.positive (86400 + 999) 0)) && okIs (Gnu.RelativeTimeParser.parse v_parser DateTime.UNIX_EPOCH (b! "55secs500week")) (get (Duration.positive (55 + ((((500 * 7) * 24) * 60) * 60)) 0)) && okIs (Gnu.RelativeTimeParser.parse v_parser DateTime.UNIX_EPOCH (b! "300mins20secs 5hour")) (get (Duration.positive (((300 * 60) + 20) + ((5 * 60) * 60)) 0)) && okIs (Gnu.RelativeTimeParser.parse v_parser DateTime.UNIX_EPOCH (b! "123456789")) (get (Duration.positive 123456789 0)) && okIs (Gnu.RelativeTimeParser.parse v_parser DateTime.UNIX_EPOCH (b! "42fortnight")) (get (Duration.positive (((((42 * 2) * 7) * 24) * 60) * 60) 0)) && okIs (Gnu.RelativeTimeParser.parse v_parser DateTime.UNIX_EPOCH (b! "yesterday")) (get (Duration.negative ((24 * 60) * 60) 0)) && okIs (Gnu.RelativeTimeParser.parse v_parser DateTime.UNIX_EPOCH (b! "now")) (get (Duration.positive 0 0)) && okIs (Gnu.RelativeTimeParser.parse v_parser DateTime.UNIX_EPOCH (b! "today -10seconds")) (get (Duration.negative 10 0)) && true) = true := by decide +kernel

/-- fundu-gnu/src/lib.rs:129, 4 assertions -/
example : (let v_parser := Gnu.RelativeTimeParser.new; let v_date_time := (get (DateTime.fromGregorianDateTime 1970 1 1 0 0 0 0)); okIs (Gnu.RelativeTimeParser.parseWithDate v_parser DateTime.UNIX_EPOCH (b! "+1year") (some v_date_time)) (get (Duration.positive (365 * 86400) 0)) && okIs (Gnu.RelativeTimeParser.parseWithDate v_parser DateTime.UNIX_EPOCH (b! "+2month") (some v_date_time)) (get (Duration.positive ((31 + 28) * 86400) 0)) && (let v_date_time := (get (DateTime.fromGregorianDateTime 1972 1 1 0 0 0 0)); okIs (Gnu.RelativeTimeParser.parseWithDate v_parser DateTime.UNIX_EPOCH (b! "+1year") (some v_date_time)) (get (Duration.positive (366 * 86400) 0)) && okIs (Gnu.RelativeTimeParser.parseWithDate v_parser DateTime.UNIX_EPOCH (b! "+2month") (some v_date_time)) (get (Duration.positive ((31 + 29) * 86400) 0)) && true)) = true := by decide +kernel

/-- fundu-gnu/src/lib.rs:160, 2 assertions -/
example : (okIs (Gnu.parse DateTime.UNIX_EPOCH (b! "123 sec")) (get (Duration.positive 123 0)) && okIs (Gnu.parse DateTime.UNIX_EPOCH (b! "1sec3min")) (get (Duration.positive (1 + (3 * 60)) 0)) && true) = true := by decide +kernel

/-- fundu-gnu/src/lib.rs:170, 2 assertions -/
example : (let v_duration := (getR (Gnu.parse DateTime.UNIX_EPOCH (b! "123 sec"))); convIs (Duration.toStd v_duration) (.ok (get (StdDuration.new 123 0))) && pureIs (Duration.saturatingToStd v_duration) (get (StdDuration.new 123 0)) && true) = true := by decide +kernel

/-- fundu-gnu/src/lib.rs:458, 14 assertions -/
example : (let v_PARSER := Gnu.RelativeTimeParser.new; let v_parser := v_PARSER; okIs (Gnu.RelativeTimeParser.parse v_parser DateTime.UNIX_EPOCH (b! "1hour")) (get (Duration.positive (60 * 60) 0)) && okIs (Gnu.RelativeTimeParser.parse v_parser DateTime.UNIX_EPOCH (b! "minute")) (get (Duration.positive 60 0)) && okIs (Gnu.RelativeTimeParser.parse v_parser DateTime.UNIX_EPOCH (b! "2 hours")) (get (Duration.positive ((2 * 60) * 60) 0)) && okIs (Gnu.RelativeTimeParser.parse v_parser DateTime.UNIX_EPOCH (b! "second")) (get (Duration.positive 1 0)) && okIs (Gnu.RelativeTimeParser.parse v_parser DateTime.UNIX_EPOCH (b! "-3minutes")) (get (Duration.negative (3 * 60) 0)) && okIs (Gnu.RelativeTimeParser.parse v_parser DateTime.UNIX_EPOCH (b! "3 mins ago")) (get (Duration.negative (3 * 60) 0)) && okIs (Gnu.RelativeTimeParser.parse v_parser DateTime.UNIX_EPOCH (b! "999sec +1day")) (get (Duration.positive (86400 + 999) 0)) && okIs (Gnu.RelativeTimeParser.parse v_parser DateTime.UNIX_EPOCH (b! "55secs500week")) (get (Duration.positive (55 + ((((500 * 7) * 24) * 60) * 60)) 0)) && okIs (Gnu.RelativeTimeParser.parse v_parser DateTime.UNIX_EPOCH (b! "300mins20secs 5hour")) (get (Duration.positive (((300 * 60) + 20) + ((5 * 60) * 60)) 0)) && okIs (Gnu.RelativeTimeParser.parse v_parser DateTime.UNIX_EPOCH (b! "123456789")) (get (Duration.positive 123456789 0)) && okIs (Gnu.RelativeTimeParser.parse v_parser DateTime.UNIX_EPOCH (b! "42fortnight")) (get (Duration.positive (((((42 * 2) * 7) * 24) * 60) * 60) 0)) && okIs (Gnu.RelativeTimeParser.parse v_parser DateTime.UNIX_EPOCH (b! "yesterday")) (get (Duration.negative ((24 * 60) * 60) 0)) && okIs (Gnu.RelativeTimeParser.parse v_parser DateTime.UNIX_EPOCH (b! "now")) (get (Duration.positive 0 0)) && okIs (Gnu.RelativeTimeParser.parse v_parser DateTime.UNIX_EPOCH (b! "today -10seconds")) (get (Duration.negative 10 0)) && true) = true := by decide +kernel

/-- fundu-gnu/src/lib.rs:516, 3 assertions -/
example : (let v_parser := Gnu.RelativeTimeParser.new; okIs (Gnu.RelativeTimeParser.parse v_parser DateTime.UNIX_EPOCH (b! "2hours")) (get (Duration.positive ((2 * 60) * 60) 0)) && okIs (Gnu.RelativeTimeParser.parse v_parser DateTime.UNIX_EPOCH (b! "123")) (get (Duration.positive 123 0)) && okIs (Gnu.RelativeTimeParser.parse v_parser DateTime.UNIX_EPOCH (b! "3min +10sec")) (get (Duration.positive ((3 * 60) + 10) 0)) && true) = true := by decide +kernel

/-- fundu-gnu/src/lib.rs:546, 4 assertions -/
example : (let v_parser := Gnu.RelativeTimeParser.new; okIs (Gnu.RelativeTimeParser.parse v_parser DateTime.UNIX_EPOCH (b! "2hours")) (get (Duration.positive ((2 * 60) * 60) 0)) && okIs (Gnu.RelativeTimeParser.parse v_parser DateTime.UNIX_EPOCH (b! "12 seconds")) (get (Duration.positive 12 0)) && okIs (Gnu.RelativeTimeParser.parse v_parser DateTime.UNIX_EPOCH (b! "123456789")) (get (Duration.positive 123456789 0)) && okIs (Gnu.RelativeTimeParser.parse v_parser DateTime.UNIX_EPOCH (b! "yesterday")) (get (Duration.negative ((24 * 60) * 60) 0)) && true) = true := by decide +kernel

/-- fundu-gnu/src/lib.rs:582, 5 assertions -/
example : (let v_parser := Gnu.RelativeTimeParser.new; okIs (Gnu.RelativeTimeParser.parseWithDate v_parser DateTime.UNIX_EPOCH (b! "2hours") none) (get (Duration.positive ((2 * 60) * 60) 0)) && (let v_date_time := (get (DateTime.fromGregorianDateTime 1970 2 1 0 0 0 0)); okIs (Gnu.RelativeTimeParser.parseWithDate v_parser DateTime.UNIX_EPOCH (b! "+1month") (some v_date_time)) (get (Duration.positive (28 * 86400) 0)) && okIs (Gnu.RelativeTimeParser.parseWithDate v_parser DateTime.UNIX_EPOCH (b! "+1year") (some v_date_time)) (get (Duration.positive (365 * 86400) 0)) && (let v_date_time := (get (DateTime.fromGregorianDateTime 1972 2 1 0 0 0 0)); okIs (Gnu.RelativeTimeParser.parseWithDate v_parser DateTime.UNIX_EPOCH (b! "+1month") (some v_date_time)) (get (Duration.positive (29 * 86400) 0)) && okIs (Gnu.RelativeTimeParser.parseWithDate v_parser DateTime.UNIX_EPOCH (b! "+1year") (some v_date_time)) (get (Duration.positive (366 * 86400) 0)) && true))) = true := by decide +kernel

/-- fundu-gnu/src/lib.rs:648, 2 assertions -/
example : (let v_parser := Gnu.RelativeTimeParser.new; fuzzyIs (Gnu.RelativeTimeParser.parseFuzzy v_parser (b! "2hours")) (0, 0, (get (Duration.positive ((2 * 60) * 60) 0))) && fuzzyIs (Gnu.RelativeTimeParser.parseFuzzy v_parser (b! "2hours +123month -10years")) ((-10), 123, (get (Duration.positive ((2 * 60) * 60) 0))) && true) = true := by decide +kernel

/-- fundu-gnu/src/lib.rs:877, 4 assertions -/
example : (okIs (Gnu.parse DateTime.UNIX_EPOCH (b! "2hours")) (get (Duration.positive ((2 * 60) * 60) 0)) && okIs (Gnu.parse DateTime.UNIX_EPOCH (b! "12 seconds")) (get (Duration.positive 12 0)) && okIs (Gnu.parse DateTime.UNIX_EPOCH (b! "123456789")) (get (Duration.positive 123456789 0)) && okIs (Gnu.parse DateTime.UNIX_EPOCH (b! "yesterday")) (get (Duration.negative ((24 * 60) * 60) 0)) && true) = true := by decide +kernel

/-- fundu-gnu/src/lib.rs:905, 5 assertions -/
example : (okIs (Gnu.parseWithDate DateTime.UNIX_EPOCH (b! "2hours") none) (get (Duration.positive ((2 * 60) * 60) 0)) && (let v_date_time := (get (DateTime.fromGregorianDateTime 1970 2 1 0 0 0 0)); okIs (Gnu.parseWithDate DateTime.UNIX_EPOCH (b! "+1month") (some v_date_time)) (get (Duration.positive (28 * 86400) 0)) && okIs (Gnu.parseWithDate DateTime.UNIX_EPOCH (b! "+1year") (some v_date_time)) (get (Duration.positive (365 * 86400) 0)) && (let v_date_time := (get (DateTime.fromGregorianDateTime 1972 2 1 0 0 0 0)); okIs (Gnu.parseWithDate DateTime.UNIX_EPOCH (b! "+1month") (some v_date_time)) (get (Duration.positive (29 * 86400) 0)) && okIs (Gnu.parseWithDate DateTime.UNIX_EPOCH (b! "+1year") (some v_date_time)) (get (Duration.positive (366 * 86400) 0)) && true))) = true := by decide +kernel

/-- fundu-gnu/src/lib.rs:957, 2 assertions -/
example : (fuzzyIs (Gnu.parseFuzzy (b! "2hours")) (0, 0, (get (Duration.positive ((2 * 60) * 60) 0))) && fuzzyIs (Gnu.parseFuzzy (b! "2hours +123month -10years")) ((-10), 123, (get (Duration.positive ((2 * 60) * 60) 0))) && true) = true := by decide +kernel

end Fundu.Conformance.DocsGnu
