import Verif.Conformance.Basic
/-! Generated by tools/conformance.py from fundu-core/src/parse.rs: 74 cases. -/
namespace Fundu.Conformance.Repr

def rangeIs (r : R (Range × Cursor)) (e : Range) : Bool := match r with | .ok x => x.1 = e | _ => false

/-- fundu-core/src/parse.rs:1802 `test_duration_repr_parser_parse_8_digits`: 4 cases -/
example : ([
  ((b! "00000000"), (some 3472328296227680304)),
  ((b! "00000001"), (some 3544385890265608240)),
  ((b! "10000000"), (some 3472328296227680305)),
  ((b! "99999999"), (some 4123389851770370361))] : List (Bytes × Option Nat)).all
    (fun (s, o) => match (Cursor.new s).parse8 with | .ok r => r.map (·.1) = o | _ => false) = true := by decide +kernel

/-- fundu-core/src/parse.rs:1814 `test_duration_repr_parser_parse_8_digits_when_not_8_digits`: 3 cases -/
example : ([
  ((b! ""), none),
  ((b! "a0000000"), none),
  ((b! "9999999"), none)] : List (Bytes × Option Nat)).all
    (fun (s, o) => match (Cursor.new s).parse8 with | .ok r => r.map (·.1) = o | _ => false) = true := by decide +kernel

/-- fundu-core/src/parse.rs:1826 `test_duration_repr_parser_parse_8_digits_when_more_than_8` -/
example : (match (Cursor.new (b! "00000000a")).parse8 with | .ok (some (n, c)) => n = 0x3030303030303030 && valIs c.getRemainder (b! "a") && c.cur = some 97 && c.pos = 8 | _ => false) = true := by decide +kernel

/-- fundu-core/src/parse.rs:1856 `test_duration_repr_parser_parse_whole_single`: 17 cases -/
example : ([
  ((b! "0"), ⟨1, 1⟩),
  ((b! "1"), ⟨0, 1⟩),
  ((b! "9"), ⟨0, 1⟩),
  ((b! "10"), ⟨0, 2⟩),
  ((b! "00000000"), ⟨8, 8⟩),
  ((b! "000000000000000"), ⟨15, 15⟩),
  ((b! "00000010"), ⟨6, 8⟩),
  ((b! "000000010"), ⟨7, 9⟩),
  ((b! "12345"), ⟨0, 5⟩),
  ((b! "99999999"), ⟨0, 8⟩),
  ((b! "99999998"), ⟨0, 8⟩),
  ((b! "100000000"), ⟨0, 9⟩),
  ((b! "100000001"), ⟨0, 9⟩),
  ((b! "0000000011111111"), ⟨8, 16⟩),
  ((b! "1111111100000000"), ⟨0, 16⟩),
  ((b! "11111111000000001"), ⟨0, 17⟩),
  ((b! "9999999999999999"), ⟨0, 16⟩)] : List (Bytes × Range)).all
    (fun (s, r) => rangeIs (Cursor.new s).parseDigitsStripZeros r) = true := by decide +kernel

/-- fundu-core/src/parse.rs:1862 `test_duration_repr_parser_parse_whole_multiple`: 17 cases -/
example : ([
  ((b! "0"), ⟨1, 1⟩),
  ((b! "1"), ⟨0, 1⟩),
  ((b! "9"), ⟨0, 1⟩),
  ((b! "10"), ⟨0, 2⟩),
  ((b! "00000000"), ⟨8, 8⟩),
  ((b! "000000000000000"), ⟨15, 15⟩),
  ((b! "00000010"), ⟨6, 8⟩),
  ((b! "000000010"), ⟨7, 9⟩),
  ((b! "12345"), ⟨0, 5⟩),
  ((b! "99999999"), ⟨0, 8⟩),
  ((b! "99999998"), ⟨0, 8⟩),
  ((b! "100000000"), ⟨0, 9⟩),
  ((b! "100000001"), ⟨0, 9⟩),
  ((b! "0000000011111111"), ⟨8, 16⟩),
  ((b! "1111111100000000"), ⟨0, 16⟩),
  ((b! "11111111000000001"), ⟨0, 17⟩),
  ((b! "9999999999999999"), ⟨0, 16⟩)] : List (Bytes × Range)).all
    (fun (s, r) => rangeIs (Cursor.new s).parseDigitsStripZeros r) = true := by decide +kernel

/-- fundu-core/src/parse.rs:1920 `test_duration_repr_parser_parse_fract_single`: 11 cases -/
example : ([
  ((b! "0"), ⟨0, 1⟩),
  ((b! "1"), ⟨0, 1⟩),
  ((b! "9"), ⟨0, 1⟩),
  ((b! "10"), ⟨0, 2⟩),
  ((b! "01"), ⟨0, 2⟩),
  ((b! "001"), ⟨0, 3⟩),
  ((b! "000000001"), ⟨0, 9⟩),
  ((b! "12345"), ⟨0, 5⟩),
  ((b! "99999999"), ⟨0, 8⟩),
  ((b! "99999998"), ⟨0, 8⟩),
  ((b! "123456789"), ⟨0, 9⟩)] : List (Bytes × Range)).all
    (fun (s, r) => rangeIs (Cursor.new s).parseDigits r) = true := by decide +kernel

/-- fundu-core/src/parse.rs:1926 `test_duration_repr_parser_parse_fract_multiple`: 11 cases -/
example : ([
  ((b! "0"), ⟨0, 1⟩),
  ((b! "1"), ⟨0, 1⟩),
  ((b! "9"), ⟨0, 1⟩),
  ((b! "10"), ⟨0, 2⟩),
  ((b! "01"), ⟨0, 2⟩),
  ((b! "001"), ⟨0, 3⟩),
  ((b! "000000001"), ⟨0, 9⟩),
  ((b! "12345"), ⟨0, 5⟩),
  ((b! "99999999"), ⟨0, 8⟩),
  ((b! "99999998"), ⟨0, 8⟩),
  ((b! "123456789"), ⟨0, 9⟩)] : List (Bytes × Range)).all
    (fun (s, r) => rangeIs (Cursor.new s).parseDigits r) = true := by decide +kernel

/-- fundu-core/src/parse.rs:1932 `test_fract_is_empty` -/
example : ((⟨0, 0⟩ : Range).isEmpty && (⟨9, 9⟩ : Range).isEmpty) = true := by decide +kernel

/-- fundu-core/src/parse.rs:1938 `test_whole_is_empty` -/
example : ((⟨0, 0⟩ : Range).isEmpty && (⟨9, 9⟩ : Range).isEmpty) = true := by decide +kernel

/-- fundu-core/src/parse.rs:1951 `test_fract`: 7 cases -/
example : ([
  ((b! "1"), none, none, 100000000000000000),
  ((b! "1"), none, (some 1), 10000000000000000),
  ((b! "12"), none, none, 120000000000000000),
  ((b! "12"), none, (some 1), 12000000000000000),
  ((b! "2"), (some (b! "1")), none, 120000000000000000),
  ((b! ""), (some (b! "1")), none, 100000000000000000),
  ((b! "234"), (some (b! "1")), (some 16), 12)] : List (Bytes × Option Bytes × Option Nat × Nat)).all
    (fun (s, p, z, n) => pureIs (Fract.parse s p z) n) = true := by decide +kernel

/-- fundu-core/src/parse.rs:1961 `test_try_consume_delimiter_when_input_starts_with_delimiter_then_error` -/
example : (errIs ((Cursor.new (b! " some")).tryConsumeDelimiter (fun b => b = 32)) (.syntax 0 (b! "Input may not start with a delimiter"))) = true := by decide +kernel

end Fundu.Conformance.Repr
