import Verif.Model.Config
import Verif.Model.Time
/-!
# Model of the texts of errors: `Display` for `ParseError` and `TryFromDurationError`, and the conversion of the second
into the first
-/
namespace Fundu

/-- `format!("{}", byte as char)`: the UTF-8 encoding of the character with the code point `byte` -/
def byteAsChar (byte : UInt8) : Bytes :=
  if byte.toNat < 128 then [byte] else [UInt8.ofNat (192 + byte.toNat / 64), UInt8.ofNat (128 + byte.toNat % 64)]

/-- The format strings of the reasons: parse.rs:871, 882, 900, 1050, 1056, 1064, 1072, 1117, 1139, 1169, 1185, 1229,
1234, 1253, 1320-1323, 1329, 1439, 1448, 1507-1511, 1517, 1573-1576, 1584-1587 and 1604-1607, core/util.rs (utf-8 error,
never returned), gnu/lib.rs:341, 359 and 377 -/
def Reason.message : Reason → Bytes
  | .expectedEndOfInput t => b! "Expected end of input but found: '" ++ t ++ b! "'"
  | .delimiterAtStart => b! "Input may not start with a delimiter"
  | .delimiterAtEnd => b! "Input may not end with a delimiter"
  | .unexpectedEnd => b! "Unexpected end of input"
  | .signWithoutNumber => b! "Unexpected end of input. Sign without a number"
  | .wholeOrFractionMustBePresent => b! "Either the whole number part or the fraction must be present"
  | .noFractionAllowed => b! "No fraction allowed"
  | .expectedExponent => b! "Expected exponent but reached end of input"
  | .exponentWithoutDigit => b! "The exponent must have at least one digit"
  | .noExponentAllowed => b! "No exponent allowed"
  | .infinityInvalidCharacter b => b! "Error parsing infinity: Invalid character '" ++ byteAsChar b ++ b! "'"
  | .infinityPrematureEnd => b! "Error parsing infinity: Premature end of input"
  | .infinityInvalidIdentifier t => b! "Error parsing infinity: 'inf" ++ t ++ b! "' is an invalid identifier for infinity"
  | .infinityExpectedDelimiter b => b! "Error parsing infinity: Expected a delimiter but found '" ++ byteAsChar b ++ b! "'"
  | .invalidTimeUnit t => b! "Invalid time unit: '" ++ t ++ b! "'"
  | .noTimeUnitsAllowed t => b! "No time units allowed but found: '" ++ t ++ b! "'"
  | .numeralWithoutTimeUnitsDefined id => b! "Found numeral '" ++ id ++ b! "' without time units being defined"
  | .numeralWithoutTimeUnit id => b! "Found numeral '" ++ id ++ b! "' without a time unit"
  | .conjunctionNotSeparated b =>
    b! "A conjunction must be separated by a delimiter, sign or digit but found: '" ++ byteAsChar b ++ b! "'"
  | .conjunctionAtEnd w => b! "Input may not end with a conjunction but found: '" ++ w ++ b! "'"
  | .text t => t
  | .utf8Error => b! "invalid utf-8"
  | .fractionWithoutWhole => b! "Fraction without a whole number"
  | .fractionWithoutFraction => b! "Fraction without a fractional number"
  | .fractionOnlyWithSeconds => b! "Fraction only allowed together with seconds as time unit"

/-- error.rs:44-66 `impl Display for ParseError` -/
def ParseError.display : ParseError → Bytes
  | .syntax column reason => b! "Syntax error: " ++ reason.message ++ b! " at column " ++ Duration.decDigits column
  | .overflow => b! "Number overflow"
  | .timeUnit pos reason => b! "Time unit error: " ++ reason.message ++ b! " at column " ++ Duration.decDigits pos
  | .negativeExponentOverflow => b! "Negative exponent overflow: Minimum is -32768"
  | .positiveExponentOverflow => b! "Positive exponent overflow: Maximum is +32767"
  | .negativeNumber => b! "Number was negative"
  | .invalidInput reason => b! "Invalid input: " ++ reason.message
  | .empty => b! "Empty input"

/-- error.rs:81-90 `impl From<TryFromDurationError> for ParseError` -/
def ParseError.ofConversion : TryFromDurationError → ParseError
  | .negativeDuration => .negativeNumber
  | .positiveOverflow | .negativeOverflow => .overflow

/-- error.rs:94-108 `impl Display for TryFromDurationError` -/
def TryFromDurationError.display : TryFromDurationError → Bytes
  | .negativeDuration => b! "Error converting duration: value is negative"
  | .positiveOverflow => b! "Error converting duration: value overflows the positive value range"
  | .negativeOverflow => b! "Error converting duration: value overflows the negative value range"

end Fundu
