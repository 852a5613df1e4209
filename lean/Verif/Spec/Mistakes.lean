import Verif.Spec.Errors
/-!
# Specification of the error for each text which is not accepted

A text which is not a duration has a first mistake. The relations here say for each part of the grammar which mistakes
there are: they relate a text to a fault, which is the reason of the error together with what remains of the text where
the mistake is. As in the grammar there is no reference to cursors or to the order in which a parser looks at the text.
-/
namespace Fundu.Spec

/-- a mistake: the reason, and what remains of the text at the place of the mistake -/
inductive Fault where
  | «syntax» (r : Bytes) (reason : Reason)
  | timeUnit (r : Bytes) (reason : Reason)
  /-- errors without a position -/
  | other (e : ParseError)

/-- the error for a mistake in the text `s`: its position is where the remaining text starts -/
def Fault.error (s : Bytes) : Fault → ParseError
  | .syntax r reason => .syntax (s.length - r.length) reason
  | .timeUnit r reason => .timeUnit (s.length - r.length) reason
  | .other e => e

/-- delimiters and nothing else, at least one -/
def OnlyDelims (d : Delimiter) (s : Bytes) : Prop := s ≠ [] ∧ ∀ b ∈ s, d b = true

/-- a sign with nothing or only delimiters behind it -/
inductive SignMistake (cfg : Config) : Bytes → Fault → Prop
  | noNumber {b} : SignByte b → SignMistake cfg [b] (.syntax [] .signWithoutNumber)
  | delimiters {b r} : SignByte b → cfg.allowSignDelimiter = true → OnlyDelims cfg.innerDelimiter r →
      SignMistake cfg (b :: r) (.syntax r .delimiterAtEnd)

/-- after the whole digits `W`: a point which is not allowed, or no digits on both sides of it -/
inductive FractionMistake (cfg : Config) (W : Bytes) : Bytes → Fault → Prop
  | disabled {r} : cfg.disableFraction = true → FractionMistake cfg W (46 :: r) (.syntax (46 :: r) .noFractionAllowed)
  | noDigits {r} : cfg.disableFraction = false → W = [] → ¬ StartsWith IsDigit r →
      FractionMistake cfg W (46 :: r) (.syntax (46 :: r) .wholeOrFractionMustBePresent)

/-- an exponent which is not allowed, without digits or out of the range of `i16` -/
inductive ExponentMistake (cfg : Config) : Bytes → Fault → Prop
  | disabled {x r} : ExponentLetter x → cfg.disableExponent = true →
      ExponentMistake cfg (x :: r) (.syntax (x :: r) .noExponentAllowed)
  | endOfText {x} : ExponentLetter x → cfg.disableExponent = false →
      ExponentMistake cfg [x] (.syntax [] .unexpectedEnd)
  | onlySign {x b} : ExponentLetter x → cfg.disableExponent = false → SignByte b →
      ExponentMistake cfg [x, b] (.syntax [] .expectedExponent)
  | noDigit {x r neg r'} : ExponentLetter x → cfg.disableExponent = false → ExponentSign r neg r' → r' ≠ [] →
      ¬ StartsWith IsDigit r' → ExponentMistake cfg (x :: r) (.syntax r' .exponentWithoutDigit)
  | overflow {x r neg r' E rest} : ExponentLetter x → cfg.disableExponent = false → ExponentSign r neg r' →
      Split IsDigit r' E rest → ¬ IsI16 (if neg then -(decimal E : Int) else decimal E) →
      ExponentMistake cfg (x :: r) (.other (if neg then .negativeExponentOverflow else .positiveExponentOverflow))

/-- a mistake in a number -/
inductive NumberMistake (cfg : Config) : Bytes → Fault → Prop
  | fraction {s W r f} : Split IsDigit s W r → FractionMistake cfg W r f → NumberMistake cfg s f
  | exponent {s W r F r' f} : Split IsDigit s W r → FractionPart cfg W r F r' → ExponentMistake cfg r' f →
      NumberMistake cfg s f

/-- a numeral followed by something -/
def NumeralIn (cfg : Config) (numerals : Option NumbersLike) (s w r : Bytes) : Prop :=
  ∃ n q, numerals = some n ∧ Split (¬ cfg.innerDelimiter · = true) s w r ∧ w ≠ [] ∧ n w = some q ∧ r ≠ []

/-- a mistake in what has to be a numeral and a time unit. `unitMistake` are the mistakes in time units, `noUnit` are the
texts which are not a time unit at all. -/
inductive NumeralMistake (cfg : Config) (units : TimeUnitsLike) (numerals : Option NumbersLike)
    (unitMistake : Bytes → Fault → Prop) (noUnit : Bytes → Prop) : Bytes → Fault → Prop
  | delimiters {s w r} : NumeralIn cfg numerals s w r → OnlyDelims cfg.innerDelimiter r →
      NumeralMistake cfg units numerals unitMistake noUnit s (.syntax r .delimiterAtEnd)
  | unit {s w r ds t f} : NumeralIn cfg numerals s w r → Split (cfg.innerDelimiter · = true) r ds t → t ≠ [] →
      unitMistake t f → NumeralMistake cfg units numerals unitMistake noUnit s f
  | noUnit {s w r ds t} : NumeralIn cfg numerals s w r → Split (cfg.innerDelimiter · = true) r ds t → t ≠ [] →
      noUnit t → NumeralMistake cfg units numerals unitMistake noUnit s
        (.timeUnit t (if units.isEmpty then .numeralWithoutTimeUnitsDefined w else .numeralWithoutTimeUnit w))
  | noNumeral {s} : (¬ ∃ w r, NumeralIn cfg numerals s w r) →
      NumeralMistake cfg units numerals unitMistake noUnit s (.other (.invalidInput (.text s)))

/-! ## A single duration -/

/-- a time unit with delimiters at the end, or with more text after its end -/
inductive UnitSingleMistake (cfg : Config) (units : TimeUnitsLike) : Bytes → Fault → Prop
  | delimiters {s w r u} : cfg.allowAgo = true → Split (¬ cfg.innerDelimiter · = true) s w r → w ≠ [] →
      units.get w = some u → OnlyDelims cfg.innerDelimiter r → UnitSingleMistake cfg units s (.syntax r .delimiterAtEnd)
  | more {s u r} : UnitSingle cfg units s u r → r ≠ [] → UnitSingleMistake cfg units s (.syntax r (.expectedEndOfInput r))

/-- not a time unit -/
def NoUnitSingle (cfg : Config) (units : TimeUnitsLike) (s : Bytes) : Prop :=
  (¬ ∃ u r, UnitSingle cfg units s u r) ∧ ¬ ∃ f, UnitSingleMistake cfg units s f

/-- after `inf`: neither the end nor `inity` -/
inductive InfinitySingleMistake : Bytes → Fault → Prop
  | character {x y c z b r} : b! "inity" = y ++ c :: z → SameText x y → lower b ≠ c →
      InfinitySingleMistake (x ++ b :: r) (.syntax (b :: r) (.infinityInvalidCharacter b))
  | endOfText {x y z} : b! "inity" = y ++ z → SameText x y → x ≠ [] → z ≠ [] →
      InfinitySingleMistake x (.syntax [] .infinityPrematureEnd)
  | more {s r} : AfterWord (b! "inity") s r → r ≠ [] → InfinitySingleMistake s (.syntax r (.expectedEndOfInput r))

/-- mistakes in a single duration after its sign -/
inductive SingleMistake (cfg : Config) (units : TimeUnitsLike) (keywords : Option TimeUnitsLike)
    (numerals : Option NumbersLike) : Bytes → Fault → Prop
  | number {s f} : NumberMistake cfg s f → SingleMistake cfg units keywords numerals s f
  | delimiters {s W F e r} : NumberText cfg s W F e r → cfg.allowTimeUnitDelimiter = true →
      OnlyDelims cfg.innerDelimiter r → SingleMistake cfg units keywords numerals s (.syntax r .delimiterAtEnd)
  | noUnits {s W F e r t} : NumberText cfg s W F e r → AfterDelims cfg.allowTimeUnitDelimiter cfg.innerDelimiter r t →
      t ≠ [] → units.isEmpty = true → SingleMistake cfg units keywords numerals s (.timeUnit t (.noTimeUnitsAllowed t))
  | noUnit {s W F e r t} : NumberText cfg s W F e r → AfterDelims cfg.allowTimeUnitDelimiter cfg.innerDelimiter r t →
      t ≠ [] → units.isEmpty = false → NoUnitSingle cfg units t →
      SingleMistake cfg units keywords numerals s (.timeUnit t (.invalidTimeUnit t))
  | unit {s W F e r t f} : NumberText cfg s W F e r → AfterDelims cfg.allowTimeUnitDelimiter cfg.innerDelimiter r t →
      t ≠ [] → units.isEmpty = false → UnitSingleMistake cfg units t f → SingleMistake cfg units keywords numerals s f
  | infinity {s r f} : cfg.disableInfinity = false → AfterWord (b! "inf") s r → InfinitySingleMistake r f →
      SingleMistake cfg units keywords numerals s f
  | unitWord {s f} : WordStart cfg s → (∀ k, keywords = some k → k.get s = none) → cfg.numberIsOptional = true →
      UnitSingleMistake cfg units s f → SingleMistake cfg units keywords numerals s f
  | numeral {s f} : WordStart cfg s → (∀ k, keywords = some k → k.get s = none) →
      (cfg.numberIsOptional = true → NoUnitSingle cfg units s) →
      NumeralMistake cfg units numerals (UnitSingleMistake cfg units) (NoUnitSingle cfg units) s f →
      SingleMistake cfg units keywords numerals s f

/-- mistakes in a text which has to be a single duration -/
inductive Mistake (cfg : Config) (units : TimeUnitsLike) (keywords : Option TimeUnitsLike)
    (numerals : Option NumbersLike) : Bytes → Fault → Prop
  | empty : Mistake cfg units keywords numerals [] (.other .empty)
  | sign {s f} : SignMistake cfg s f → Mistake cfg units keywords numerals s f
  | text {s neg r f} : SignPart cfg s neg r → SingleMistake cfg units keywords numerals r f →
      Mistake cfg units keywords numerals s f
  | negative {s neg r item d} : SignPart cfg s neg r → SingleText cfg units keywords numerals r item →
      Denotes cfg neg item d → d.isNegative = true → cfg.allowNegative = false →
      Mistake cfg units keywords numerals s (.other .negativeNumber)

/-! ## Several durations -/

/-- what is wrong with the text `r'` behind the conjunction `w` at the start of `r` -/
inductive ConjunctionMistake (cfg : Config) (r w : Bytes) : Bytes → Fault → Prop
  | endOfText : ConjunctionMistake cfg r w [] (.syntax r (.conjunctionAtEnd w))
  | delimiters {r'} : OnlyDelims cfg.outerDelimiter r' → ConjunctionMistake cfg r w r' (.syntax r' .delimiterAtEnd)
  | notSeparated {b t} : cfg.outerDelimiter b = false → ¬ NextDuration b →
      ConjunctionMistake cfg r w (b :: t) (.syntax (b :: t) (.conjunctionNotSeparated b))

/-- delimiters at the end, or a conjunction without delimiters or a number behind it. If several conjunctions match the
first one counts. -/
inductive ConnectionMistake (cfg : Config) : Bytes → Fault → Prop
  | delimiters {s} : OnlyDelims cfg.outerDelimiter s → ConnectionMistake cfg s (.syntax s .delimiterAtEnd)
  | conjunction {s ds r before w after r' f} : Split (cfg.outerDelimiter · = true) s ds r → ds ≠ [] → r ≠ [] →
      cfg.conjunctions.getD [] = before ++ w :: after → (∀ v ∈ before, ¬ ∃ r', AfterWord v r r') →
      AfterWord w r r' → ConjunctionMistake cfg r w r' f → ConnectionMistake cfg s f

/-- mistakes behind a time unit -/
inductive UnitMultiMistake (cfg : Config) (units : TimeUnitsLike) : Bytes → Fault → Prop
  | delimiters {s u r} : WordIn (UnitEnd cfg) units s u r → cfg.allowAgo = true → OnlyDelims cfg.innerDelimiter r →
      UnitMultiMistake cfg units s (.syntax r .delimiterAtEnd)
  | connection {s u m m' r r' f} : WordIn (UnitEnd cfg) units s (u, m) r → AgoPart cfg r m m' r' →
      ConnectionMistake cfg r' f → UnitMultiMistake cfg units s f

/-- not a time unit -/
def NoUnitMulti (cfg : Config) (units : TimeUnitsLike) (s : Bytes) : Prop := ¬ ∃ u r, WordIn (UnitEnd cfg) units s u r

/-- mistakes in a text `s` which starts with `inf`; `r` is what follows -/
inductive InfinityMultiMistake (cfg : Config) (s : Bytes) : Bytes → Fault → Prop
  | connection {r f} : ConnectionMistake cfg r f → InfinityMultiMistake cfg s r f
  | character {r x y c z b t} : ¬ StartsWith (cfg.outerDelimiter · = true) r → r = x ++ b :: t →
      b! "inity" = y ++ c :: z → SameText x y → lower b ≠ c →
      InfinityMultiMistake cfg s r (.syntax (b :: t) (.infinityInvalidCharacter b))
  | endOfText {r y z} : ¬ StartsWith (cfg.outerDelimiter · = true) r → b! "inity" = y ++ z → SameText r y → r ≠ [] →
      z ≠ [] → InfinityMultiMistake cfg s r (.syntax s (.infinityInvalidIdentifier r))
  | noDelimiter {r b t} : ¬ StartsWith (cfg.outerDelimiter · = true) r → AfterWord (b! "inity") r (b :: t) →
      cfg.outerDelimiter b = false → InfinityMultiMistake cfg s r (.syntax (b :: t) (.infinityExpectedDelimiter b))
  | connection' {r t f} : ¬ StartsWith (cfg.outerDelimiter · = true) r → AfterWord (b! "inity") r t →
      ConnectionMistake cfg t f → InfinityMultiMistake cfg s r f

/-- mistakes in one of several durations, after its sign -/
inductive MultiMistake (cfg : Config) (units : TimeUnitsLike) (keywords : Option TimeUnitsLike)
    (numerals : Option NumbersLike) : Bytes → Fault → Prop
  | number {s f} : NumberMistake cfg s f → MultiMistake cfg units keywords numerals s f
  | delimiters {s W F e r} : NumberText cfg s W F e r → cfg.allowTimeUnitDelimiter = true →
      OnlyDelims cfg.innerDelimiter r → MultiMistake cfg units keywords numerals s (.syntax r .delimiterAtEnd)
  | unit {s W F e r t f} : NumberText cfg s W F e r → AfterDelims cfg.allowTimeUnitDelimiter cfg.innerDelimiter r t →
      t ≠ [] → units.isEmpty = false → UnitMultiMistake cfg units t f → MultiMistake cfg units keywords numerals s f
  | connection {s W F e r t f} : NumberText cfg s W F e r →
      AfterDelims cfg.allowTimeUnitDelimiter cfg.innerDelimiter r t → t ≠ [] →
      (units.isEmpty = false → NoUnitMulti cfg units t) → ConnectionMistake cfg t f →
      MultiMistake cfg units keywords numerals s f
  | infinity {s r f} : cfg.disableInfinity = false → AfterWord (b! "inf") s r → InfinityMultiMistake cfg s r f →
      MultiMistake cfg units keywords numerals s f
  | keyword {s k u r f} : WordStart cfg s → keywords = some k → WordIn (KeywordEnd cfg) k s u r →
      ConnectionMistake cfg r f → MultiMistake cfg units keywords numerals s f
  | unitWord {s f} : WordStart cfg s → (∀ k, keywords = some k → ¬ ∃ u r, WordIn (KeywordEnd cfg) k s u r) →
      cfg.numberIsOptional = true → UnitMultiMistake cfg units s f → MultiMistake cfg units keywords numerals s f
  | numeral {s f} : WordStart cfg s → (∀ k, keywords = some k → ¬ ∃ u r, WordIn (KeywordEnd cfg) k s u r) →
      (cfg.numberIsOptional = true → NoUnitMulti cfg units s) →
      NumeralMistake cfg units numerals (UnitMultiMistake cfg units) (NoUnitMulti cfg units) s f →
      MultiMistake cfg units keywords numerals s f

/-- the first mistake in a text which has to be a sequence of durations -/
inductive FirstMistake (cfg : Config) (units : TimeUnitsLike) (keywords : Option TimeUnitsLike)
    (numerals : Option NumbersLike) : Bytes → Fault → Prop
  | empty : FirstMistake cfg units keywords numerals [] (.other .empty)
  | sign {s f} : SignMistake cfg s f → FirstMistake cfg units keywords numerals s f
  | text {s neg r f} : SignPart cfg s neg r → MultiMistake cfg units keywords numerals r f →
      FirstMistake cfg units keywords numerals s f
  | negative {s neg r item rest d} : SignPart cfg s neg r → MultiText cfg units keywords numerals r item rest →
      Denotes cfg neg item d → d.isNegative = true → cfg.allowNegative = false →
      FirstMistake cfg units keywords numerals s (.other .negativeNumber)
  | later {s neg r item rest d f} : SignPart cfg s neg r → MultiText cfg units keywords numerals r item rest →
      rest ≠ [] → Accepted cfg neg item d → FirstMistake cfg units keywords numerals rest f →
      FirstMistake cfg units keywords numerals s f

end Fundu.Spec
