import Verif.Model.Time
/-!
# Model of fundu-core/src/config.rs and fundu-core/src/error.rs, and of UTF-8
-/
namespace Fundu

/-! ## UTF-8 -/

/-- a UTF-8 continuation byte -/
def isCont (b : UInt8) : Bool := decide (128 ≤ b.toNat) && decide (b.toNat < 192)

/-- a two byte character -/
def utf8Two (a b : UInt8) : Bool := decide (194 ≤ a.toNat) && decide (a.toNat < 224) && isCont b

/-- a three byte character: no overlong encodings, no surrogates -/
def utf8Three (a b c : UInt8) : Bool :=
  decide (224 ≤ a.toNat) && decide (a.toNat < 240) && isCont b && isCont c &&
    (decide (a.toNat ≠ 224) || decide (160 ≤ b.toNat)) && (decide (a.toNat ≠ 237) || decide (b.toNat < 160))

/-- a four byte character: no overlong encodings, nothing above U+10FFFF -/
def utf8Four (a b c d : UInt8) : Bool :=
  decide (240 ≤ a.toNat) && decide (a.toNat < 245) && isCont b && isCont c && isCont d &&
    (decide (a.toNat ≠ 240) || decide (144 ≤ b.toNat)) && (decide (a.toNat ≠ 244) || decide (b.toNat < 144))

/-- `std::str::from_utf8(..).is_ok()` (Unicode standard, table 3-7) -/
def utf8Valid : Bytes → Bool
  | [] => true
  | a :: l =>
    if a.toNat < 128 then utf8Valid l
    else match l with
      | [] => false
      | b :: l =>
        if utf8Two a b then utf8Valid l
        else match l with
          | [] => false
          | c :: l =>
            if utf8Three a b c then utf8Valid l
            else match l with
              | [] => false
              | d :: l => utf8Four a b c d && utf8Valid l

/-! ## Errors -/

/-- The reasons carried by errors as text. One constructor per format string of fundu-core/src/parse.rs, with
the interpolated bytes. The last three belong to gnu/lib.rs:340-342, gnu/lib.rs:358-360 and gnu/lib.rs:376-378. -/
inductive Reason where
  | expectedEndOfInput (remainder : Bytes)
  | delimiterAtStart
  | delimiterAtEnd
  | unexpectedEnd
  | signWithoutNumber
  | wholeOrFractionMustBePresent
  | noFractionAllowed
  | expectedExponent
  | exponentWithoutDigit
  | noExponentAllowed
  | infinityInvalidCharacter (byte : UInt8)
  | infinityPrematureEnd
  | infinityInvalidIdentifier (text : Bytes)
  | infinityExpectedDelimiter (byte : UInt8)
  | invalidTimeUnit (remainder : Bytes)
  | noTimeUnitsAllowed (remainder : Bytes)
  | numeralWithoutTimeUnitsDefined (id : Bytes)
  | numeralWithoutTimeUnit (id : Bytes)
  | conjunctionNotSeparated (byte : UInt8)
  | conjunctionAtEnd (word : Bytes)
  | text (remainder : Bytes)
  | utf8Error
  | fractionWithoutWhole
  | fractionWithoutFraction
  | fractionOnlyWithSeconds
  deriving DecidableEq, Repr

/-- error.rs:18-40 `enum ParseError` -/
inductive ParseError where
  | empty
  | syntax (pos : Nat) (reason : Reason)
  | overflow
  | timeUnit (pos : Nat) (reason : Reason)
  | negativeExponentOverflow
  | positiveExponentOverflow
  | negativeNumber
  | invalidInput (reason : Reason)
  deriving DecidableEq, Repr

/-- What a function of the parser can end with instead of a value: `Err(ParseError)`, or a panic (or
undefined behaviour). -/
inductive Fail where
  | err (e : ParseError)
  | panic (p : Panic)
  deriving DecidableEq, Repr

/-- result of a function of the parser -/
abbrev R (α : Type) := Except Fail α

/-- `Err(e)` -/
def fail {α} (e : ParseError) : R α := .error (.err e)
/-- a panic -/
def panic {α} (p : Panic) : R α := .error (.panic p)

/-- a computation which can only panic -/
def liftP {α} : Except Panic α → R α
  | .ok a => .ok a
  | .error p => .error (.panic p)

/-! ## Config -/

/-- config.rs:42 `type Delimiter = fn(u8) -> bool` (as a total function) -/
abbrev Delimiter := UInt8 → Bool

/-- time.rs:196-358 `trait TimeUnitsLike`: an implementation is a pair of total functions -/
structure TimeUnitsLike where
  isEmpty : Bool
  get : Bytes → Option (TimeUnit × Multiplier)

/-- config.rs:73-75 `trait NumbersLike` -/
abbrev NumbersLike := Bytes → Option Multiplier

/-- `u8::is_ascii_whitespace`: space, tab, line feed, form feed, carriage return -/
def isAsciiWhitespace (b : UInt8) : Bool := b = 32 || b = 9 || b = 10 || b = 12 || b = 13

/-- config.rs:127-235 `struct Config`, with the defaults of config.rs:269-286 -/
structure Config where
  defaultUnit : TimeUnit := .second
  defaultMultiplier : Multiplier := ⟨1, 0⟩
  disableExponent : Bool := false
  disableFraction : Bool := false
  disableInfinity : Bool := false
  numberIsOptional : Bool := false
  allowMultiple : Bool := false
  conjunctions : Option (List Bytes) := none
  allowNegative : Bool := false
  innerDelimiter : Delimiter := isAsciiWhitespace
  outerDelimiter : Delimiter := isAsciiWhitespace
  allowAgo : Bool := false
  allowSignDelimiter : Bool := false
  allowTimeUnitDelimiter : Bool := false

end Fundu
