import Verif.Conformance.Basic
/-! Generated by tools/conformance.py from fundu-systemd/tests/test_time_span_parser.rs: 65 cases. -/
namespace Fundu.Conformance.Systemd

def tsp : Systemd.TimeSpanParser := Systemd.TimeSpanParser.new

/-- fundu-systemd/tests/test_time_span_parser.rs:27 `test_parse_parse_when_invalid`: 7 cases -/
example : ([
  ((b! ""), .empty),
  ((b! "-1"), .negativeNumber),
  ((b! "."), (.syntax 0 (b! "Either the whole number part or the fraction must be present"))),
  ((b! "..1"), (.syntax 0 (b! "Either the whole number part or the fraction must be present"))),
  ((b! "1.."), (.syntax 2 (b! "Either the whole number part or the fraction must be present"))),
  ((b! "234e10"), (.syntax 3 (b! "No exponent allowed"))),
  ((b! "3.invalid"), (.invalidInput (b! "invalid")))] : List (Bytes × Err)).all
    (fun (s, e) => errIs (tsp.parse s) e && errIs (Systemd.parse s none none) e && errIs (tsp.parseNanos s) e && errIs (Systemd.parseNanos s none none) e) = true := by decide +kernel

/-- fundu-systemd/tests/test_time_span_parser.rs:42 `test_parser_parse_infinity_when_invalid_then_error`: 4 cases -/
example : ([
  ((b! "inf"), (.invalidInput (b! "inf"))),
  ((b! "Infinity"), (.invalidInput (b! "Infinity"))),
  ((b! "infinit"), (.invalidInput (b! "infinit"))),
  ((b! "infinitys"), (.invalidInput (b! "infinitys")))] : List (Bytes × Err)).all
    (fun (s, e) => errIs (tsp.parse s) e && errIs (Systemd.parse s none none) e && errIs (tsp.parseNanos s) e && errIs (Systemd.parseNanos s none none) e) = true := by decide +kernel

/-- fundu-systemd/tests/test_time_span_parser.rs:61 `test_parser_parse_infinity`: 5 cases -/
example : ([
  (b! "infinity"),
  (b! "    infinity"),
  (b! "\t\n\x0b\x0c\r infinity"),
  (b! "infinity   "),
  (b! "infinity \t\n\x0b\x0c\r")] : List Bytes).all
    (fun s => okIs (tsp.parse s) Systemd.SYSTEMD_MAX_MICRO_DURATION && okIs (Systemd.parse s none none) Systemd.SYSTEMD_MAX_MICRO_DURATION && okIs (tsp.parseNanos s) Systemd.SYSTEMD_MAX_NANOS_DURATION && okIs (Systemd.parseNanos s none none) Systemd.SYSTEMD_MAX_NANOS_DURATION) = true := by decide +kernel

/-- fundu-systemd/tests/test_time_span_parser.rs:89 `test_parser_parse_with_valid_time_units`: 11 cases -/
example : ([
  ([(b! "us"), (b! "μs"), (b! "µs"), (b! "usec")], ⟨false, ⟨0, 1000⟩⟩),
  ([(b! "µs")], ⟨false, ⟨0, 1000⟩⟩),
  ([(b! "μs")], ⟨false, ⟨0, 1000⟩⟩),
  ([(b! "ms"), (b! "msec")], ⟨false, ⟨0, 1000000⟩⟩),
  ([(b! "s"), (b! "sec"), (b! "second"), (b! "seconds")], ⟨false, ⟨1, 0⟩⟩),
  ([(b! "m"), (b! "min"), (b! "minute"), (b! "minutes")], ⟨false, ⟨60, 0⟩⟩),
  ([(b! "h"), (b! "hr"), (b! "hour"), (b! "hours")], ⟨false, ⟨3600, 0⟩⟩),
  ([(b! "d"), (b! "day"), (b! "days")], ⟨false, ⟨86400, 0⟩⟩),
  ([(b! "w"), (b! "week"), (b! "weeks")], ⟨false, ⟨604800, 0⟩⟩),
  ([(b! "M"), (b! "month"), (b! "months")], ⟨false, ⟨2629800, 0⟩⟩),
  ([(b! "y"), (b! "year"), (b! "years")], ⟨false, ⟨31557600, 0⟩⟩)] : List (List Bytes × Duration)).all
    (fun (l, d) => l.all fun s => okIs (tsp.parse s) d) = true := by decide +kernel

/-- fundu-systemd/tests/test_time_span_parser.rs:101 `test_parser_parse_when_invalid_time_units`: 2 cases -/
example : ([
  ((b! "nsec"), (.invalidInput (b! "nsec"))),
  ((b! "ns"), (.invalidInput (b! "ns")))] : List (Bytes × Err)).all
    (fun (s, e) => errIs (tsp.parse s) e && errIs (Systemd.parse s none none) e) = true := by decide +kernel

/-- fundu-systemd/tests/test_time_span_parser.rs:112 `test_parser_parse_when_saturating`: 5 cases -/
example : ([
  (b! "18446744073710.551615000"),
  (b! "18446744073709.551615001"),
  (b! "18446744073709.551615000"),
  (List.replicate 1022 49),
  (b! "1year 10000years 100000years 14975376516109.55s 1616usec")] : List Bytes).all
    (fun s => okIs (tsp.parse s) Systemd.SYSTEMD_MAX_MICRO_DURATION && okIs (Systemd.parse s none none) Systemd.SYSTEMD_MAX_MICRO_DURATION) = true := by decide +kernel

/-- fundu-systemd/tests/test_time_span_parser.rs:126 `test_parser_parse_when_barely_not_saturating`: 5 cases -/
example : ([
  ((b! "18446744073709551615us"), ⟨false, ⟨18446744073709, 551615000⟩⟩),
  ((b! "18446744073709551614us"), ⟨false, ⟨18446744073709, 551614000⟩⟩),
  ((b! "18446744073708.551615000"), ⟨false, ⟨18446744073708, 551615000⟩⟩),
  ((b! "18446744073709.551614999"), ⟨false, ⟨18446744073709, 551614999⟩⟩),
  ((b! "18446744073709.551614000"), ⟨false, ⟨18446744073709, 551614000⟩⟩)] : List (Bytes × Duration)).all
    (fun (s, d) => okIs (tsp.parse s) d && okIs (Systemd.parse s none none) d) = true := by decide +kernel

/-- fundu-systemd/tests/test_time_span_parser.rs:142 `test_parser_parse_with_nanos_with_valid_time_units`: 10 cases -/
example : ([
  ([(b! "ns"), (b! "nsec")], ⟨false, ⟨0, 1⟩⟩),
  ([(b! "us"), (b! "μs"), (b! "μs"), (b! "µs"), (b! "µs"), (b! "usec")], ⟨false, ⟨0, 1000⟩⟩),
  ([(b! "ms"), (b! "msec")], ⟨false, ⟨0, 1000000⟩⟩),
  ([(b! "s"), (b! "sec"), (b! "second"), (b! "seconds")], ⟨false, ⟨1, 0⟩⟩),
  ([(b! "m"), (b! "min"), (b! "minute"), (b! "minutes")], ⟨false, ⟨60, 0⟩⟩),
  ([(b! "h"), (b! "hr"), (b! "hour"), (b! "hours")], ⟨false, ⟨3600, 0⟩⟩),
  ([(b! "d"), (b! "day"), (b! "days")], ⟨false, ⟨86400, 0⟩⟩),
  ([(b! "w"), (b! "week"), (b! "weeks")], ⟨false, ⟨604800, 0⟩⟩),
  ([(b! "M"), (b! "month"), (b! "months")], ⟨false, ⟨2629800, 0⟩⟩),
  ([(b! "y"), (b! "year"), (b! "years")], ⟨false, ⟨31557600, 0⟩⟩)] : List (List Bytes × Duration)).all
    (fun (l, d) => l.all fun s => okIs (tsp.parseNanos s) d && okIs (Systemd.parseNanos s none none) d) = true := by decide +kernel

/-- fundu-systemd/tests/test_time_span_parser.rs:170 `test_parse_and_parse_nanos_with_time_units`: 5 cases -/
example : ([
  ((b! "123.123"), (some .second), ⟨false, ⟨123, 123000000⟩⟩),
  ((b! "123.123"), (some .second), ⟨false, ⟨123, 123000000⟩⟩),
  ((b! "123.123"), (some .microSecond), ⟨false, ⟨0, 123123⟩⟩),
  ((b! "123.123"), (some .year), ⟨false, ⟨3885466384, 800000000⟩⟩),
  ((b! "123.123"), (some .nanoSecond), ⟨false, ⟨0, 123⟩⟩)] : List (Bytes × Option TimeUnit × Duration)).all
    (fun (s, u, d) => okIs (Systemd.parse s u none) d && okIs (Systemd.parseNanos s u none) d) = true := by decide +kernel

/-- fundu-systemd/tests/test_time_span_parser.rs:195 `test_parse_with_max`: 7 cases -/
example : ([
  ((b! "123.123"), none, ⟨false, ⟨123, 123000000⟩⟩),
  ((b! "123456789y"), none, Systemd.SYSTEMD_MAX_MICRO_DURATION),
  ((b! "123.123"), (some ⟨false, ⟨0, 0⟩⟩), ⟨false, ⟨0, 0⟩⟩),
  ((b! "123.123"), (some ⟨false, ⟨18446744073709551615, 999999999⟩⟩), ⟨false, ⟨123, 123000000⟩⟩),
  ((b! "340282366920938463463374607431768211455"), (some ⟨false, ⟨18446744073709551615, 999999999⟩⟩), ⟨false, ⟨18446744073709551615, 999999999⟩⟩),
  ((b! "123456"), (some ⟨false, ⟨123456, 789⟩⟩), ⟨false, ⟨123456, 0⟩⟩),
  ((b! "123457"), (some ⟨false, ⟨123456, 789⟩⟩), ⟨false, ⟨123456, 789⟩⟩)] : List (Bytes × Option Duration × Duration)).all
    (fun (s, m, d) => okIs (Systemd.parse s none m) d) = true := by decide +kernel

/-- fundu-systemd/tests/test_time_span_parser.rs:207 `test_parse_with_invalid_max_then_panic`: 2 cases -/
example : ([
  ⟨true, ⟨0, 0⟩⟩,
  ⟨true, ⟨1, 0⟩⟩] : List Duration).all
    (fun m => panics (Systemd.parse (b! "123") none (some m))) = true := by decide +kernel

/-- fundu-systemd/tests/test_time_span_parser.rs:215 `test_parse_nanos_with_invalid_max_then_panic`: 2 cases -/
example : ([
  ⟨true, ⟨0, 0⟩⟩,
  ⟨true, ⟨1, 0⟩⟩] : List Duration).all
    (fun m => panics (Systemd.parseNanos (b! "123") none (some m))) = true := by decide +kernel

end Fundu.Conformance.Systemd
