import Verif.Conformance.Basic
/-! Generated by tools/conformance.py from fundu-gnu/tests/test_relative_time_parser.rs: 172 cases. -/
namespace Fundu.Conformance.Gnu

/-- The time of the system; no test here depends on it -/
def now : DateTime := DateTime.UNIX_EPOCH
def rtp : Gnu.RelativeTimeParser := Gnu.RelativeTimeParser.new
def epoch : DateTime := get (DateTime.fromGregorianDateTime 1970 8 1 0 0 0 0)
def upper (s : Bytes) : Bytes := s.map fun b => if decide (97 ≤ b.toNat) && decide (b.toNat ≤ 122) then b - 32 else b

/-- fundu-gnu/tests/test_relative_time_parser.rs:55 `test_parser_parse_valid_input`: 31 cases -/
example : ([
  ((b! "0"), ⟨false, ⟨0, 0⟩⟩),
  ((b! "-0"), ⟨false, ⟨0, 0⟩⟩),
  ((b! "1"), ⟨false, ⟨1, 0⟩⟩),
  ((b! "+1"), ⟨false, ⟨1, 0⟩⟩),
  ((b! "sec"), ⟨false, ⟨1, 0⟩⟩),
  ((b! "+sec"), ⟨false, ⟨1, 0⟩⟩),
  ((b! "+   sec"), ⟨false, ⟨1, 0⟩⟩),
  ((b! "-\t\n\x0b\x0c\r sec"), ⟨true, ⟨1, 0⟩⟩),
  ((b! "1 sec"), ⟨false, ⟨1, 0⟩⟩),
  ((b! "1\t\n\x0b\x0c\r sec"), ⟨false, ⟨1, 0⟩⟩),
  ((b! "1 yesterday"), ⟨true, ⟨86399, 0⟩⟩),
  ((b! "-1"), ⟨true, ⟨1, 0⟩⟩),
  ((b! "1 sec ago"), ⟨true, ⟨1, 0⟩⟩),
  ((b! "1 sec\t\n\x0b\x0c\r ago"), ⟨true, ⟨1, 0⟩⟩),
  ((b! "-1 sec ago"), ⟨false, ⟨1, 0⟩⟩),
  ((b! "1 sec 1 sec"), ⟨false, ⟨2, 0⟩⟩),
  ((b! "1 sec\t\n\x0b\x0c\r 1 sec"), ⟨false, ⟨2, 0⟩⟩),
  ((b! "1 sec ago 1 sec"), ⟨false, ⟨0, 0⟩⟩),
  ((b! "1 sec 0 sec"), ⟨false, ⟨1, 0⟩⟩),
  ((b! "1 sec+1 sec"), ⟨false, ⟨2, 0⟩⟩),
  ((b! "3 sec-1 sec"), ⟨false, ⟨2, 0⟩⟩),
  ((b! "3 sec - 1 sec"), ⟨false, ⟨2, 0⟩⟩),
  ((b! "1.1"), ⟨false, ⟨1, 100000000⟩⟩),
  ((b! "1.1sec"), ⟨false, ⟨1, 100000000⟩⟩),
  ((b! "0.1"), ⟨false, ⟨0, 100000000⟩⟩),
  ((b! "0.1sec"), ⟨false, ⟨0, 100000000⟩⟩),
  ((b! "1.0"), ⟨false, ⟨1, 0⟩⟩),
  ((b! "1.0sec"), ⟨false, ⟨1, 0⟩⟩),
  ((b! "0.0123456789sec"), ⟨false, ⟨0, 12345678⟩⟩),
  ((b! "583344214028year"), ⟨false, ⟨18408565361559340800, 0⟩⟩),
  ((b! "sec2"), ⟨false, ⟨3, 0⟩⟩)] : List (Bytes × Duration)).all
    (fun (s, d) => okIs (rtp.parse now s) d && okIs (Gnu.parse now s) d) = true := by decide +kernel

/-- fundu-gnu/tests/test_relative_time_parser.rs:102 `test_parser_parse_invalid_input`: 20 cases -/
example : ([
  ((b! "+minute agotomorrow year"), (.invalidInput (b! "agotomorrow year"))),
  ((b! ""), .empty),
  ((b! "    "), .empty),
  ((b! ".1"), (.invalidInput (b! "Fraction without a whole number"))),
  ((b! ".1sec"), (.invalidInput (b! "Fraction without a whole number"))),
  ((b! "1."), (.invalidInput (b! "Fraction without a fractional number"))),
  ((b! "1.sec"), (.invalidInput (b! "Fraction without a fractional number"))),
  ((b! "2.\n0"), (.invalidInput (b! "Fraction without a fractional number"))),
  ((b! "2..0"), (.invalidInput (b! "Fraction without a fractional number"))),
  ((b! "1e2"), (.syntax 1 (b! "No exponent allowed"))),
  ((b! "inf"), (.invalidInput (b! "inf"))),
  ((b! "infinity"), (.invalidInput (b! "infinity"))),
  ((b! "1 ago"), (.invalidInput (b! "ago"))),
  ((b! "today ago"), (.invalidInput (b! "ago"))),
  ((b! "1.1year"), (.invalidInput (b! "Fraction only allowed together with seconds as time unit"))),
  ((b! "1.1minute"), (.invalidInput (b! "Fraction only allowed together with seconds as time unit"))),
  ((b! "222222222222222222222222222222year"), .overflow),
  ((b! "+"), (.syntax 1 (b! "Unexpected end of input. Sign without a number"))),
  ((b! "1sec +"), (.syntax 6 (b! "Unexpected end of input. Sign without a number"))),
  ((b! "1sec +   "), (.syntax 6 (b! "Unexpected end of input. Sign without a number")))] : List (Bytes × Err)).all
    (fun (s, e) => errIs (rtp.parse now s) e && errIs (Gnu.parse now s) e) = true := by decide +kernel

/-- fundu-gnu/tests/test_relative_time_parser.rs:113 `test_parser_parse_with_invalid_time_units`: 2 cases -/
example : ([
  ((b! "s"), (.invalidInput (b! "s"))),
  ((b! "secondss"), (.invalidInput (b! "secondss")))] : List (Bytes × Err)).all
    (fun (s, e) => errIs (rtp.parse now s) e) = true := by decide +kernel

/-- fundu-gnu/tests/test_relative_time_parser.rs:128 `test_parser_parse_with_valid_time_units_blank`: 6 cases -/
example : ([
  ([(b! "sec"), (b! "secs"), (b! "second"), (b! "seconds")], ⟨false, ⟨1, 0⟩⟩),
  ([(b! "min"), (b! "mins"), (b! "minute"), (b! "minutes")], ⟨false, ⟨60, 0⟩⟩),
  ([(b! "hour"), (b! "hours")], ⟨false, ⟨3600, 0⟩⟩),
  ([(b! "day"), (b! "days")], ⟨false, ⟨86400, 0⟩⟩),
  ([(b! "week"), (b! "weeks")], ⟨false, ⟨604800, 0⟩⟩),
  ([(b! "fortnight"), (b! "fortnights")], ⟨false, ⟨1209600, 0⟩⟩)] : List (List Bytes × Duration)).all
    (fun (l, d) => l.all fun s => okIs (rtp.parse now s) d) = true := by decide +kernel

/-- fundu-gnu/tests/test_relative_time_parser.rs:135 `test_parser_parse_with_valid_time_units_uppercase`: 6 cases -/
example : ([
  ([(b! "sec"), (b! "secs"), (b! "second"), (b! "seconds")], ⟨false, ⟨1, 0⟩⟩),
  ([(b! "min"), (b! "mins"), (b! "minute"), (b! "minutes")], ⟨false, ⟨60, 0⟩⟩),
  ([(b! "hour"), (b! "hours")], ⟨false, ⟨3600, 0⟩⟩),
  ([(b! "day"), (b! "days")], ⟨false, ⟨86400, 0⟩⟩),
  ([(b! "week"), (b! "weeks")], ⟨false, ⟨604800, 0⟩⟩),
  ([(b! "fortnight"), (b! "fortnights")], ⟨false, ⟨1209600, 0⟩⟩)] : List (List Bytes × Duration)).all
    (fun (l, d) => l.all fun s => okIs (rtp.parse now (upper s)) d) = true := by decide +kernel

/-- fundu-gnu/tests/test_relative_time_parser.rs:145 `test_parser_parse_with_valid_time_units_with_number`: 6 cases -/
example : ([
  ([(b! "sec"), (b! "secs"), (b! "second"), (b! "seconds")], ⟨false, ⟨1, 0⟩⟩),
  ([(b! "min"), (b! "mins"), (b! "minute"), (b! "minutes")], ⟨false, ⟨60, 0⟩⟩),
  ([(b! "hour"), (b! "hours")], ⟨false, ⟨3600, 0⟩⟩),
  ([(b! "day"), (b! "days")], ⟨false, ⟨86400, 0⟩⟩),
  ([(b! "week"), (b! "weeks")], ⟨false, ⟨604800, 0⟩⟩),
  ([(b! "fortnight"), (b! "fortnights")], ⟨false, ⟨1209600, 0⟩⟩)] : List (List Bytes × Duration)).all
    (fun (l, d) => l.all fun s => okIs (rtp.parse now (b! "1" ++ s)) d) = true := by decide +kernel

/-- fundu-gnu/tests/test_relative_time_parser.rs:169 `test_parser_parse_with_just_time_unit_when_ago_or_negative`: 14 cases -/
example : ([
  ((b! "-0second"), ⟨false, ⟨0, 0⟩⟩),
  ((b! "-1second"), ⟨true, ⟨1, 0⟩⟩),
  ((b! "-2second"), ⟨true, ⟨2, 0⟩⟩),
  ((b! "-second"), ⟨true, ⟨1, 0⟩⟩),
  ((b! "second ago"), ⟨true, ⟨1, 0⟩⟩),
  ((b! "+second ago"), ⟨true, ⟨1, 0⟩⟩),
  ((b! "-second ago"), ⟨false, ⟨1, 0⟩⟩),
  ((b! "-0minute"), ⟨false, ⟨0, 0⟩⟩),
  ((b! "-1minute"), ⟨true, ⟨60, 0⟩⟩),
  ((b! "-2minute"), ⟨true, ⟨120, 0⟩⟩),
  ((b! "-minute"), ⟨true, ⟨60, 0⟩⟩),
  ((b! "minute ago"), ⟨true, ⟨60, 0⟩⟩),
  ((b! "+minute ago"), ⟨true, ⟨60, 0⟩⟩),
  ((b! "-minute ago"), ⟨false, ⟨60, 0⟩⟩)] : List (Bytes × Duration)).all
    (fun (s, d) => okIs (rtp.parse now s) d) = true := by decide +kernel

/-- fundu-gnu/tests/test_relative_time_parser.rs:180 `test_parser_parse_with_date_when_valid_fuzzy_time_units`: 2 cases -/
example : ([
  ([(b! "month"), (b! "months")], get (DateTime.fromGregorianDateTime 1970 1 1 0 0 0 0), ⟨false, ⟨2678400, 0⟩⟩),
  ([(b! "year"), (b! "years")], get (DateTime.fromGregorianDateTime 1970 1 1 0 0 0 0), ⟨false, ⟨31536000, 0⟩⟩)] : List (List Bytes × DateTime × Duration)).all
    (fun (l, t, d) => l.all fun s => okIs (rtp.parseWithDate now s (some t)) d && okIs (Gnu.parseWithDate now s (some t)) d) = true := by decide +kernel

/-- fundu-gnu/tests/test_relative_time_parser.rs:235 `test_parser_parse_with_date_when_fuzzy`: 19 cases -/
example : ([
  ((b! "+0.000000001sec"), get (DateTime.fromGregorianDateTime 999999 12 31 23 59 59 999999999), ⟨false, ⟨0, 1⟩⟩),
  ((b! "-year"), get (DateTime.fromGregorianDateTime 1970 12 31 23 59 59 999999999), ⟨true, ⟨31536000, 0⟩⟩),
  ((b! "year"), get (DateTime.fromGregorianDateTime 1972 1 1 0 0 0 0), ⟨false, ⟨31622400, 0⟩⟩),
  ((b! "month"), get (DateTime.fromGregorianDateTime 1972 1 29 0 0 0 0), ⟨false, ⟨2678400, 0⟩⟩),
  ((b! "month"), get (DateTime.fromGregorianDateTime 1970 4 30 0 0 0 0), ⟨false, ⟨2592000, 0⟩⟩),
  ((b! "month"), get (DateTime.fromGregorianDateTime (-999999) 1 1 0 0 0 0), ⟨false, ⟨2678400, 0⟩⟩),
  ((b! "-year"), get (DateTime.fromGregorianDateTime 1972 12 31 23 59 59 999999999), ⟨true, ⟨31622400, 0⟩⟩),
  ((b! "-year"), get (DateTime.fromGregorianDateTime 999999 12 31 23 59 59 999999999), ⟨true, ⟨31536000, 0⟩⟩),
  ((b! "-month"), get (DateTime.fromGregorianDateTime 1970 1 31 0 0 0 0), ⟨true, ⟨2678400, 0⟩⟩),
  ((b! "-month"), get (DateTime.fromGregorianDateTime 1970 1 1 0 0 0 0), ⟨true, ⟨2678400, 0⟩⟩),
  ((b! "-year"), get (DateTime.fromGregorianDateTime 1970 1 1 0 0 0 0), ⟨true, ⟨31536000, 0⟩⟩),
  ((b! "-12month"), get (DateTime.fromGregorianDateTime 1970 1 1 0 0 0 0), ⟨true, ⟨31536000, 0⟩⟩),
  ((b! "-2year"), get (DateTime.fromGregorianDateTime 1970 1 1 0 0 0 0), ⟨true, ⟨63158400, 0⟩⟩),
  ((b! "-24month"), get (DateTime.fromGregorianDateTime 1970 1 1 0 0 0 0), ⟨true, ⟨63158400, 0⟩⟩),
  ((b! "4days +month"), get (DateTime.fromGregorianDateTime 1970 1 28 0 0 0 0), ⟨false, ⟨2764800, 0⟩⟩),
  ((b! "1month 1day"), get (DateTime.fromGregorianDateTime 1970 1 28 0 0 0 0), ⟨false, ⟨2764800, 0⟩⟩),
  ((b! "month"), get (DateTime.fromGregorianDateTime 1970 1 29 0 0 0 0), ⟨false, ⟨2678400, 0⟩⟩),
  ((b! "month"), get (DateTime.fromGregorianDateTime 1970 1 31 0 0 0 0), ⟨false, ⟨2678400, 0⟩⟩),
  ((b! "+1year"), get (DateTime.fromGregorianDateTime 999999 12 31 23 59 59 999999999), ⟨false, ⟨31622400, 0⟩⟩)] : List (Bytes × DateTime × Duration)).all
    (fun (s, t, d) => okIs (rtp.parseWithDate now s (some t)) d && okIs (Gnu.parseWithDate now s (some t)) d) = true := by decide +kernel

/-- fundu-gnu/tests/test_relative_time_parser.rs:253 `test_parser_parse_with_date_when_fuzzy_unit_and_normal_units`: 4 cases -/
example : ([
  ((b! "year +9sec"), get (DateTime.fromGregorianDateTime 1972 1 1 0 0 0 0), ⟨false, ⟨31622409, 0⟩⟩),
  ((b! "year +9hour"), get (DateTime.fromGregorianDateTime 1972 1 1 0 0 0 0), ⟨false, ⟨31654800, 0⟩⟩),
  ((b! "year +100hour"), get (DateTime.fromGregorianDateTime 1972 1 1 0 0 0 0), ⟨false, ⟨31982400, 0⟩⟩),
  ((b! "year +100hour +0.000000001"), get (DateTime.fromGregorianDateTime 1972 1 1 0 0 0 0), ⟨false, ⟨31982400, 1⟩⟩)] : List (Bytes × DateTime × Duration)).all
    (fun (s, t, d) => okIs (rtp.parseWithDate now s (some t)) d && okIs (Gnu.parseWithDate now s (some t)) d) = true := by decide +kernel

/-- fundu-gnu/tests/test_relative_time_parser.rs:270 `test_parser_parse_with_valid_keywords`: 4 cases -/
example : ([
  ((b! "yesterday"), ⟨true, ⟨86400, 0⟩⟩),
  ((b! "tomorrow"), ⟨false, ⟨86400, 0⟩⟩),
  ((b! "today"), ⟨false, ⟨0, 0⟩⟩),
  ((b! "now"), ⟨false, ⟨0, 0⟩⟩)] : List (Bytes × Duration)).all
    (fun (s, d) => okIs (rtp.parse now s) d) = true := by decide +kernel

/-- fundu-gnu/tests/test_relative_time_parser.rs:280 `test_parser_trims_whitespace`: 5 cases -/
example : ([
  (b! "    1sec"),
  (b! "\t\n\x0b\x0c\r 1sec"),
  (b! "1sec   "),
  (b! "1sec \t\n\x0b\x0c\r"),
  (b! "  1sec  ")] : List Bytes).all
    (fun s => okIs (rtp.parse now s) ⟨false, ⟨1, 0⟩⟩) = true := by decide +kernel

/-- fundu-gnu/tests/test_relative_time_parser.rs:296 `test_parser_when_overflow`: 8 cases -/
example : ([
  ((b! "18446744073709551616"), ⟨false, ⟨18446744073709551615, 999999999⟩⟩),
  ((b! "18446744073709551616.0"), ⟨false, ⟨18446744073709551615, 999999999⟩⟩),
  ((b! "-18446744073709551616"), ⟨true, ⟨18446744073709551615, 999999999⟩⟩),
  ((b! "-18446744073709551616.0"), ⟨true, ⟨18446744073709551615, 999999999⟩⟩),
  ((b! "340282366920938463463374607431768211455"), ⟨false, ⟨18446744073709551615, 999999999⟩⟩),
  ((b! "-340282366920938463463374607431768211455"), ⟨true, ⟨18446744073709551615, 999999999⟩⟩),
  ((b! "18446744073709551614min"), ⟨false, ⟨18446744073709551615, 999999999⟩⟩),
  ((b! "-18446744073709551614min"), ⟨true, ⟨18446744073709551615, 999999999⟩⟩)] : List (Bytes × Duration)).all
    (fun (s, d) => okIs (rtp.parse now s) d) = true := by decide +kernel

/-- fundu-gnu/tests/test_relative_time_parser.rs:310 `test_parser_parse_fuzzy`: 9 cases -/
example : ([
  ((b! "22222222222222222222days"), (0, 0, ⟨false, ⟨18446744073709551615, 999999999⟩⟩)),
  ((b! "-22222222222222222222days"), (0, 0, ⟨true, ⟨18446744073709551615, 999999999⟩⟩)),
  ((b! "22222222222222222222year"), (9223372036854775807, 0, ⟨false, ⟨0, 0⟩⟩)),
  ((b! "-22222222222222222222year"), ((-9223372036854775808), 0, ⟨false, ⟨0, 0⟩⟩)),
  ((b! "-18446744073709551615year"), ((-9223372036854775808), 0, ⟨false, ⟨0, 0⟩⟩)),
  ((b! "18446744073709551615year"), (9223372036854775807, 0, ⟨false, ⟨0, 0⟩⟩)),
  ((b! "22222222222222222222month"), (0, 9223372036854775807, ⟨false, ⟨0, 0⟩⟩)),
  ((b! "-22222222222222222222month"), (0, (-9223372036854775808), ⟨false, ⟨0, 0⟩⟩)),
  ((b! "22222222222222222222year 22222222222222222222month"), (9223372036854775807, 9223372036854775807, ⟨false, ⟨0, 0⟩⟩))] : List (Bytes × (Int × Int × Duration))).all
    (fun (s, v) => fuzzyIs (rtp.parseFuzzy s) v && fuzzyIs (Gnu.parseFuzzy s) v) = true := by decide +kernel

/-- fundu-gnu/tests/test_relative_time_parser.rs:316 `test_parser_numerals_with_not_fuzzy_time_units` -/
example : (([(b! "last", -1), (b! "this", 0), (b! "next", 1), (b! "first", 1), (b! "third", 3), (b! "fourth", 4), (b! "fifth", 5),
    (b! "sixth", 6), (b! "seventh", 7), (b! "eighth", 8), (b! "ninth", 9), (b! "tenth", 10), (b! "eleventh", 11),
    (b! "twelfth", 12)] : List (Bytes × Int)).all fun (w, k) => [(b! "sec", 1), (b! "min", 60)].all fun (u, c) =>
      okIs (rtp.parse now (w ++ b! " " ++ u)) ⟨decide (k * c < 0), ⟨(k * c).natAbs, 0⟩⟩) = true := by decide +kernel

/-- fundu-gnu/tests/test_relative_time_parser.rs:358 `test_parser_with_invalid_numerals_then_error`: 8 cases -/
example : ([
  (b! "aaa"),
  (b! "aaaa"),
  (b! "aaaaa"),
  (b! "aaaaaa"),
  (b! "aaaaaaa"),
  (b! "aaaaaaaa"),
  (b! "aaaaaaaaa"),
  (b! "aaaaaaaaaaaaaaaaa")] : List Bytes).all
    (fun s => errIs (rtp.parse now (s ++ b! " sec")) (.invalidInput (s ++ b! " sec"))) = true := by decide +kernel

/-- fundu-gnu/tests/test_relative_time_parser.rs:371 `test_parser_numerals_not_fuzzy_time_units_when_ago`: 4 cases -/
example : ([
  ((b! "last minute ago"), ⟨false, ⟨60, 0⟩⟩),
  ((b! "this minute ago"), ⟨false, ⟨0, 0⟩⟩),
  ((b! "next minute ago"), ⟨true, ⟨60, 0⟩⟩),
  ((b! "third minute ago"), ⟨true, ⟨180, 0⟩⟩)] : List (Bytes × Duration)).all
    (fun (s, d) => okIs (rtp.parse now s) d) = true := by decide +kernel

/-- fundu-gnu/tests/test_relative_time_parser.rs:394 `test_parser_numerals_with_fuzzy_time_unit`: 15 cases -/
example : ([
  ((b! "last year"), ⟨true, ⟨31536000, 0⟩⟩),
  ((b! "+last year"), ⟨true, ⟨31536000, 0⟩⟩),
  ((b! "-last year"), ⟨false, ⟨31536000, 0⟩⟩),
  ((b! "last year ago"), ⟨false, ⟨31536000, 0⟩⟩),
  ((b! "this year"), ⟨false, ⟨0, 0⟩⟩),
  ((b! "-this year"), ⟨false, ⟨0, 0⟩⟩),
  ((b! "this year ago"), ⟨false, ⟨0, 0⟩⟩),
  ((b! "next year"), ⟨false, ⟨31536000, 0⟩⟩),
  ((b! "+next year"), ⟨false, ⟨31536000, 0⟩⟩),
  ((b! "-next year"), ⟨true, ⟨31536000, 0⟩⟩),
  ((b! "next year ago"), ⟨true, ⟨31536000, 0⟩⟩),
  ((b! "+next year ago"), ⟨true, ⟨31536000, 0⟩⟩),
  ((b! "-next year ago"), ⟨false, ⟨31536000, 0⟩⟩),
  ((b! "third year"), ⟨false, ⟨94694400, 0⟩⟩),
  ((b! "third year ago"), ⟨true, ⟨94694400, 0⟩⟩)] : List (Bytes × Duration)).all
    (fun (s, d) => okIs (rtp.parseWithDate now s (some epoch)) d) = true := by decide +kernel

/-- fundu-gnu/tests/test_relative_time_parser.rs:413 `test_parser_with_fuzzy_time_unit_when_ago_or_sign`: 8 cases -/
example : ([
  ((b! "+year"), ⟨false, ⟨31536000, 0⟩⟩),
  ((b! "-year"), ⟨true, ⟨31536000, 0⟩⟩),
  ((b! "-year ago"), ⟨false, ⟨31536000, 0⟩⟩),
  ((b! "-1year"), ⟨true, ⟨31536000, 0⟩⟩),
  ((b! "-2year"), ⟨true, ⟨63072000, 0⟩⟩),
  ((b! "-1year ago"), ⟨false, ⟨31536000, 0⟩⟩),
  ((b! "-2year ago"), ⟨false, ⟨63158400, 0⟩⟩),
  ((b! "year ago"), ⟨true, ⟨31536000, 0⟩⟩)] : List (Bytes × Duration)).all
    (fun (s, d) => okIs (rtp.parseWithDate now s (some epoch)) d) = true := by decide +kernel

end Fundu.Conformance.Gnu
