import Verif.Conformance.Basic
/-! Generated by tools/conformance.py from fundu-core/src/error.rs: 14 cases. -/
namespace Fundu.Conformance.Error

/-- The texts of tests are not texts of the parser: they stand in the reason `text` -/
def shown : Err → Bytes
  | .syntax p t => ParseError.display (.syntax p (.text t))
  | .overflow => ParseError.display .overflow
  | .timeUnit p t => ParseError.display (.timeUnit p (.text t))
  | .negativeExponentOverflow => ParseError.display .negativeExponentOverflow
  | .positiveExponentOverflow => ParseError.display .positiveExponentOverflow
  | .negativeNumber => ParseError.display .negativeNumber
  | .invalidInput t => ParseError.display (.invalidInput (.text t))
  | .empty => ParseError.display .empty

/-- fundu-core/src/error.rs:141 `test_error_messages_parse_error`: 8 cases -/
example : ([
  ((.syntax 10 (b! "Invalid character")), (b! "Syntax error: Invalid character at column 10")),
  (.overflow, (b! "Number overflow")),
  ((.timeUnit 10 (b! "Found invalid 'y'")), (b! "Time unit error: Found invalid 'y' at column 10")),
  (.negativeExponentOverflow, (b! "Negative exponent overflow: Minimum is -32768")),
  (.positiveExponentOverflow, (b! "Positive exponent overflow: Maximum is +32767")),
  (.negativeNumber, (b! "Number was negative")),
  ((.invalidInput (b! "Unexpected")), (b! "Invalid input: Unexpected")),
  (.empty, (b! "Empty input"))] : List (Err × Bytes)).all
    (fun (e, t) => shown e = t) = true := by decide +kernel

/-- fundu-core/src/error.rs:149 `test_from_for_parse_error`: 3 cases -/
example : ([
  (.negativeOverflow, .overflow),
  (.positiveOverflow, .overflow),
  (.negativeDuration, .negativeNumber)] : List (TryFromDurationError × Err)).all
    (fun (a, e) => errOf (ParseError.ofConversion a) = e) = true := by decide +kernel

/-- fundu-core/src/error.rs:166 `test_error_messages_try_from_duration_error`: 3 cases -/
example : ([
  (.negativeDuration, (b! "Error converting duration: value is negative")),
  (.positiveOverflow, (b! "Error converting duration: value overflows the positive value range")),
  (.negativeOverflow, (b! "Error converting duration: value overflows the negative value range"))] : List (TryFromDurationError × Bytes)).all
    (fun (a, t) => a.display = t) = true := by decide +kernel

end Fundu.Conformance.Error
