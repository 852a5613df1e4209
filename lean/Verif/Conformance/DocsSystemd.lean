import Verif.Conformance.Basic
/-! Generated by tools/doctests.py from the documentation of the project: 69 assertions in 14 examples. -/
set_option linter.unusedVariables false
set_option maxRecDepth 4000
namespace Fundu.Conformance.DocsSystemd

/-- fundu-systemd/src/lib.rs:84, 9 assertions -/
example : (let v_PARSER := Systemd.TimeSpanParser.new; let v_parser := v_PARSER; okIs (Systemd.TimeSpanParser.parse v_parser (b! "2h")) (get (Duration.positive ((2 * 60) * 60) 0)) && okIs (Systemd.TimeSpanParser.parse v_parser (b! "second")) (get (Duration.positive 1 0)) && okIs (Systemd.TimeSpanParser.parse v_parser (b! "48hr")) (get (Duration.positive ((48 * 60) * 60) 0)) && okIs (Systemd.TimeSpanParser.parse v_parser (b! "12.3 seconds")) (get (Duration.positive 12 300000000)) && okIs (Systemd.TimeSpanParser.parse v_parser (b! "300ms20s 5day")) (get (Duration.positive (20 + (((5 * 60) * 60) * 24)) 300000000)) && okIs (Systemd.TimeSpanParser.parse v_parser (b! "123456789")) (get (Duration.positive 123456789 0)) && okIs (Systemd.TimeSpanParser.parse v_parser (b! "infinity")) Systemd.SYSTEMD_MAX_MICRO_DURATION && okIs (Systemd.TimeSpanParser.parseNanos v_parser (b! "7809 nsec")) (get (Duration.positive 0 7809)) && okIs (Systemd.TimeSpanParser.parseNanos v_parser (b! "infinity")) Systemd.SYSTEMD_MAX_NANOS_DURATION && true) = true := by decide +kernel

/-- fundu-systemd/src/lib.rs:123, 2 assertions -/
example : (let v_parser := (Systemd.TimeSpanParser.withDefaultUnit TimeUnit.microSecond); okIs (Systemd.TimeSpanParser.parse v_parser (b! "100")) (get (Duration.positive 0 100000)) && (let v_parser := Systemd.TimeSpanParser.new; (let v_parser := (Systemd.TimeSpanParser.setDefaultUnit v_parser TimeUnit.microSecond); okIs (Systemd.TimeSpanParser.parse v_parser (b! "100")) (get (Duration.positive 0 100000)) && true))) = true := by decide +kernel

/-- fundu-systemd/src/lib.rs:138, 6 assertions -/
example : (okIs (Systemd.parse (b! "123 sec") none none) (get (Duration.positive 123 0)) && errIs (Systemd.parse (b! "123 nsec") none none) (.invalidInput (b! "nsec")) && okIs (Systemd.parseNanos (b! "123 nsec") none none) (get (Duration.positive 0 123)) && okIs (Systemd.parse (b! "infinity") none none) Systemd.SYSTEMD_MAX_MICRO_DURATION && okIs (Systemd.parseNanos (b! "infinity") none none) Systemd.SYSTEMD_MAX_NANOS_DURATION && okIs (Systemd.parseNanos (b! "infinity") none (some Duration.MAX)) Duration.MAX && true) = true := by decide +kernel

/-- fundu-systemd/src/lib.rs:253, 11 assertions -/
example : (let v_PARSER := Systemd.TimeSpanParser.new; let v_parser := v_PARSER; okIs (Systemd.TimeSpanParser.parse v_parser (b! "2h")) (get (Duration.positive ((2 * 60) * 60) 0)) && okIs (Systemd.TimeSpanParser.parse v_parser (b! "2hours")) (get (Duration.positive ((2 * 60) * 60) 0)) && okIs (Systemd.TimeSpanParser.parse v_parser (b! "second")) (get (Duration.positive 1 0)) && okIs (Systemd.TimeSpanParser.parse v_parser (b! "48hr")) (get (Duration.positive ((48 * 60) * 60) 0)) && okIs (Systemd.TimeSpanParser.parse v_parser (b! "12.3 seconds")) (get (Duration.positive 12 300000000)) && okIs (Systemd.TimeSpanParser.parse v_parser (b! "1y 12month")) (get (Duration.positive 63115200 0)) && okIs (Systemd.TimeSpanParser.parse v_parser (b! "999us +1d")) (get (Duration.positive 86400 999000)) && okIs (Systemd.TimeSpanParser.parse v_parser (b! "55s500ms")) (get (Duration.positive 55 500000000)) && okIs (Systemd.TimeSpanParser.parse v_parser (b! "300ms20s 5day")) (get (Duration.positive (20 + (((5 * 60) * 60) * 24)) 300000000)) && okIs (Systemd.TimeSpanParser.parse v_parser (b! "123456789")) (get (Duration.positive 123456789 0)) && okIs (Systemd.TimeSpanParser.parse v_parser (b! "infinity")) Systemd.SYSTEMD_MAX_MICRO_DURATION && true) = true := by decide +kernel

/-- fundu-systemd/src/lib.rs:301, 2 assertions -/
example : (let v_parser := (Systemd.TimeSpanParser.withDefaultUnit TimeUnit.microSecond); okIs (Systemd.TimeSpanParser.parse v_parser (b! "100")) (get (Duration.positive 0 100000)) && (let v_parser := Systemd.TimeSpanParser.new; (let v_parser := (Systemd.TimeSpanParser.setDefaultUnit v_parser TimeUnit.microSecond); okIs (Systemd.TimeSpanParser.parse v_parser (b! "100")) (get (Duration.positive 0 100000)) && true))) = true := by decide +kernel

/-- fundu-systemd/src/lib.rs:323, 3 assertions -/
example : (let v_parser := Systemd.TimeSpanParser.new; okIs (Systemd.TimeSpanParser.parse v_parser (b! "2h")) (get (Duration.positive ((2 * 60) * 60) 0)) && okIs (Systemd.TimeSpanParser.parse v_parser (b! "123")) (get (Duration.positive 123 0)) && okIs (Systemd.TimeSpanParser.parse v_parser (b! "3us +10sec")) (get (Duration.positive 10 3000)) && true) = true := by decide +kernel

/-- fundu-systemd/src/lib.rs:345, 2 assertions -/
example : (let v_parser := (Systemd.TimeSpanParser.withDefaultUnit TimeUnit.microSecond); okIs (Systemd.TimeSpanParser.parse v_parser (b! "123")) (get (Duration.positive 0 123000)) && okIs (Systemd.TimeSpanParser.parse v_parser (b! "3us +10sec")) (get (Duration.positive 10 3000)) && true) = true := by decide +kernel

/-- fundu-systemd/src/lib.rs:381, 6 assertions -/
example : (let v_parser := Systemd.TimeSpanParser.new; okIs (Systemd.TimeSpanParser.parse v_parser (b! "2hours")) (get (Duration.positive ((2 * 60) * 60) 0)) && okIs (Systemd.TimeSpanParser.parse v_parser (b! "12.3 seconds")) (get (Duration.positive 12 300000000)) && okIs (Systemd.TimeSpanParser.parse v_parser (b! "100000000000000000000000000000years")) Systemd.SYSTEMD_MAX_MICRO_DURATION && okIs (Systemd.TimeSpanParser.parse v_parser (b! "1y 12month")) (get (Duration.positive 63115200 0)) && okIs (Systemd.TimeSpanParser.parse v_parser (b! "123456789")) (get (Duration.positive 123456789 0)) && okIs (Systemd.TimeSpanParser.parse v_parser (b! "infinity")) Systemd.SYSTEMD_MAX_MICRO_DURATION && true) = true := by decide +kernel

/-- fundu-systemd/src/lib.rs:427, 3 assertions -/
example : (let v_parser := Systemd.TimeSpanParser.new; okIs (Systemd.TimeSpanParser.parseWithMax v_parser (b! "100000000000000000000000000000years") Duration.MAX) Duration.MAX && okIs (Systemd.TimeSpanParser.parseWithMax v_parser (b! "123 sec") (get (Duration.positive 1 0))) (get (Duration.positive 1 0)) && okIs (Systemd.TimeSpanParser.parseWithMax v_parser (b! "infinity") (get (Duration.positive 9223372036854775807 123))) (get (Duration.positive 9223372036854775807 123)) && true) = true := by decide +kernel

/-- fundu-systemd/src/lib.rs:470, 6 assertions -/
example : (let v_parser := Systemd.TimeSpanParser.new; okIs (Systemd.TimeSpanParser.parseNanos v_parser (b! "2hours")) (get (Duration.positive ((2 * 60) * 60) 0)) && okIs (Systemd.TimeSpanParser.parseNanos v_parser (b! "12.3 seconds")) (get (Duration.positive 12 300000000)) && okIs (Systemd.TimeSpanParser.parseNanos v_parser (b! "100000000000000000000000000000years")) Systemd.SYSTEMD_MAX_NANOS_DURATION && okIs (Systemd.TimeSpanParser.parseNanos v_parser (b! "1y 12month")) (get (Duration.positive 63115200 0)) && okIs (Systemd.TimeSpanParser.parseNanos v_parser (b! "123456789")) (get (Duration.positive 123456789 0)) && okIs (Systemd.TimeSpanParser.parseNanos v_parser (b! "infinity")) Systemd.SYSTEMD_MAX_NANOS_DURATION && true) = true := by decide +kernel

/-- fundu-systemd/src/lib.rs:519, 3 assertions -/
example : (let v_parser := Systemd.TimeSpanParser.new; okIs (Systemd.TimeSpanParser.parseNanosWithMax v_parser (b! "100000000000000000000000000000years") Duration.MAX) Duration.MAX && okIs (Systemd.TimeSpanParser.parseNanosWithMax v_parser (b! "1234567890 nsec") (get (Duration.positive 1 0))) (get (Duration.positive 1 0)) && okIs (Systemd.TimeSpanParser.parseNanosWithMax v_parser (b! "infinity") (get (Duration.positive 9223372036854775807 123))) (get (Duration.positive 9223372036854775807 123)) && true) = true := by decide +kernel

/-- fundu-systemd/src/lib.rs:559, 4 assertions -/
example : (let v_parser := (Systemd.TimeSpanParser.withDefaultUnit TimeUnit.microSecond); okIs (Systemd.TimeSpanParser.parse v_parser (b! "100")) (get (Duration.positive 0 100000)) && (let v_parser := (Systemd.TimeSpanParser.setDefaultUnit v_parser TimeUnit.second); okIs (Systemd.TimeSpanParser.parse v_parser (b! "100")) (get (Duration.positive 100 0)) && (let v_parser := Systemd.TimeSpanParser.new; okIs (Systemd.TimeSpanParser.parse v_parser (b! "123456")) (get (Duration.positive 123456 0)) && (let v_parser := (Systemd.TimeSpanParser.setDefaultUnit v_parser TimeUnit.microSecond); okIs (Systemd.TimeSpanParser.parse v_parser (b! "123456")) (get (Duration.positive 0 123456000)) && true)))) = true := by decide +kernel

/-- fundu-systemd/src/lib.rs:663, 6 assertions -/
example : (okIs (Systemd.parse (b! "2hours") none none) (get (Duration.positive ((2 * 60) * 60) 0)) && okIs (Systemd.parse (b! "1y 12month") none none) (get (Duration.positive 63115200 0)) && okIs (Systemd.parse (b! "12.3") (some TimeUnit.milliSecond) none) (get (Duration.positive 0 12300000)) && okIs (Systemd.parse (b! "100000000000000000000000000000years") none none) Systemd.SYSTEMD_MAX_MICRO_DURATION && okIs (Systemd.parse (b! "100000000000000000000000000000years") none (some Duration.MAX)) Duration.MAX && okIs (Systemd.parse (b! "infinity") none none) Systemd.SYSTEMD_MAX_MICRO_DURATION && true) = true := by decide +kernel

/-- fundu-systemd/src/lib.rs:729, 6 assertions -/
example : (okIs (Systemd.parseNanos (b! "2nsec") none none) (get (Duration.positive 0 2)) && okIs (Systemd.parseNanos (b! "1y 12month") none none) (get (Duration.positive 63115200 0)) && okIs (Systemd.parseNanos (b! "12.3") (some TimeUnit.milliSecond) none) (get (Duration.positive 0 12300000)) && okIs (Systemd.parseNanos (b! "100000000000000000000000000000years") none none) Systemd.SYSTEMD_MAX_NANOS_DURATION && okIs (Systemd.parseNanos (b! "100000000000000000000000000000years") none (some Duration.MAX)) Duration.MAX && okIs (Systemd.parseNanos (b! "infinity") none none) Systemd.SYSTEMD_MAX_NANOS_DURATION && true) = true := by decide +kernel

end Fundu.Conformance.DocsSystemd
