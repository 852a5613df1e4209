import Verif.Spec.Grammar
/-!
# Specification of what the errors of a parser say about the text

Each error makes a claim about the text `s`: the position splits it into the part `a` in front and the remainder `r`,
and the reason describes how the remainder starts or how the part in front ends.
-/
namespace Fundu.Spec

/-- `a` ends with a byte satisfying `p` -/
def EndsWith (p : UInt8 → Prop) (a : Bytes) : Prop := ∃ l b, a = l ++ [b] ∧ p b

/-- `a` ends with the word `w` in any case -/
def EndsWithText (a w : Bytes) : Prop := ∃ l x, a = l ++ x ∧ SameText x w

/-- the letter in front of an exponent -/
def ExponentLetter (b : UInt8) : Prop := b = 101 ∨ b = 69

/-- `+` or `-` -/
def SignByte (b : UInt8) : Prop := b = 43 ∨ b = 45

/-- `a` ends with the letter of an exponent and its sign -/
def EndsWithExponentSign (a : Bytes) : Prop := ∃ l x b, a = l ++ [x, b] ∧ ExponentLetter x ∧ SignByte b

/-- the claims of the reasons in syntax errors about the text in front of the error and the remainder -/
def SyntaxClaim (cfg : Config) (a r : Bytes) : Reason → Prop
  | .expectedEndOfInput t => t = r ∧ r ≠ []
  | .delimiterAtStart => a = [] ∧ StartsWith (fun b => cfg.innerDelimiter b = true ∨ cfg.outerDelimiter b = true) r
  | .delimiterAtEnd => a ≠ [] ∧ r ≠ [] ∧
      ((∀ b ∈ r, cfg.innerDelimiter b = true) ∨ (∀ b ∈ r, cfg.outerDelimiter b = true))
  | .unexpectedEnd => r = [] ∧ EndsWith ExponentLetter a
  | .signWithoutNumber => r = [] ∧ EndsWith SignByte a
  | .wholeOrFractionMustBePresent => ∃ t, r = 46 :: t ∧ ¬ StartsWith IsDigit t
  | .noFractionAllowed => cfg.disableFraction = true ∧ StartsWith (· = 46) r
  | .expectedExponent => r = [] ∧ EndsWithExponentSign a
  | .exponentWithoutDigit => r ≠ [] ∧ ¬ StartsWith IsDigit r ∧ (EndsWith ExponentLetter a ∨ EndsWithExponentSign a)
  | .noExponentAllowed => cfg.disableExponent = true ∧ StartsWith ExponentLetter r
  | .infinityInvalidCharacter b => ∃ x c y, b! "infinity" = x ++ c :: y ∧ 3 ≤ x.length ∧ EndsWithText a x ∧
      StartsWith (· = b) r ∧ lower b ≠ c
  | .infinityPrematureEnd => r = [] ∧ ∃ x y, b! "infinity" = x ++ y ∧ 3 < x.length ∧ y ≠ [] ∧ EndsWithText a x
  | .infinityInvalidIdentifier t => ∃ w x y, r = w ++ t ∧ SameText w (b! "inf") ∧ b! "inity" = x ++ y ∧ x ≠ [] ∧ y ≠ [] ∧
      SameText t x
  | .infinityExpectedDelimiter b => EndsWithText a (b! "infinity") ∧ StartsWith (· = b) r ∧ cfg.outerDelimiter b = false
  | .conjunctionNotSeparated b => (∃ w ∈ cfg.conjunctions.getD [], EndsWithText a w) ∧ StartsWith (· = b) r ∧
      cfg.outerDelimiter b = false ∧ ¬ NextDuration b
  | .conjunctionAtEnd w => w ∈ cfg.conjunctions.getD [] ∧ SameText r w
  | _ => False

/-- the claims of the reasons in time unit errors -/
def TimeUnitClaim (cfg : Config) (units : TimeUnitsLike) (numerals : Option NumbersLike) (a r : Bytes) : Reason → Prop
  | .invalidTimeUnit t => t = r ∧ r ≠ [] ∧ units.isEmpty = false ∧ ¬ ∃ u rest, UnitSingle cfg units r u rest
  | .noTimeUnitsAllowed t => t = r ∧ r ≠ [] ∧ units.isEmpty = true
  | .numeralWithoutTimeUnit id => units.isEmpty = false ∧ NumeralBefore cfg numerals a r id
  | .numeralWithoutTimeUnitsDefined id => units.isEmpty = true ∧ NumeralBefore cfg numerals a r id
  | _ => False
where
  /-- a numeral and delimiters are in front of the remainder, which is not empty -/
  NumeralBefore (cfg : Config) (numerals : Option NumbersLike) (a r id : Bytes) : Prop :=
    (∃ n q, numerals = some n ∧ n id = some q) ∧ r ≠ [] ∧
      ∃ l ds, a = l ++ id ++ ds ∧ IsText id ∧ id ≠ [] ∧ ds ≠ [] ∧ ∀ b ∈ ds, cfg.innerDelimiter b = true

/-- the text contains an exponent with the sign `sign` whose digits denote a number above `bound` -/
def ExponentAbove (sign : Bytes → Prop) (bound : Nat) (s : Bytes) : Prop :=
  ∃ a x sg E r, s = a ++ x :: (sg ++ (E ++ r)) ∧ ExponentLetter x ∧ sign sg ∧ AllDigits E ∧ ¬ StartsWith IsDigit r ∧
    bound < decimal E

/-- what an error claims about the text `s` -/
def Claim (cfg : Config) (units : TimeUnitsLike) (numerals : Option NumbersLike) (s : Bytes) : ParseError → Prop
  | .empty => s = []
  | .syntax p reason => ∃ a r, s = a ++ r ∧ a.length = p ∧ IsText a ∧ IsText r ∧ SyntaxClaim cfg a r reason
  | .timeUnit p reason => ∃ a r, s = a ++ r ∧ a.length = p ∧ IsText a ∧ IsText r ∧ TimeUnitClaim cfg units numerals a r reason
  | .negativeExponentOverflow => cfg.disableExponent = false ∧ ExponentAbove (· = [45]) 32768 s
  | .positiveExponentOverflow => cfg.disableExponent = false ∧ ExponentAbove (fun g => g = [] ∨ g = [43]) 32767 s
  | .negativeNumber => cfg.allowNegative = false
  | .invalidInput (.text r) => IsText r ∧ WordStart cfg r ∧ ∃ a, s = a ++ r
  | .invalidInput _ => False
  | .overflow => False

/-- what the errors about fractions in `fundu-gnu` claim about the text: a fraction needs digits on both sides of the
point, and the time unit second -/
def FractionClaim (s : Bytes) : Reason → Prop
  | .fractionWithoutWhole => ∃ a b, s = a ++ 46 :: b ∧ StartsWith IsDigit b
  | .fractionWithoutFraction => ∃ a b, s = a ++ 46 :: b ∧ EndsWith IsDigit a ∧ ¬ StartsWith IsDigit b
  | .fractionOnlyWithSeconds => ∃ a b, s = a ++ 46 :: b
  | _ => False

end Fundu.Spec
