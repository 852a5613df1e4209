import Verif.Spec.Gnu
import Verif.Spec.Mistakes
/-!
# Specification of the error for each text which is not a gnu relative time

The texts are those without white space around them. As in `Spec/Mistakes` a fault is the reason of the error and what
remains of the text where the mistake is.
-/
namespace Fundu.Spec

/-- a number with a decimal point in front of the text and digits on at least one side of the point -/
def GnuPoint (s W F rest : Bytes) : Prop :=
  ∃ r, Split IsDigit s W (46 :: r) ∧ Split IsDigit r F rest ∧ (W ≠ [] ∨ F ≠ [])

/-- there is no time unit in front of the text, or it is a unit of seconds -/
def SecondsOrNothing (s : Bytes) : Prop := ∀ len rest, GnuWordAt gnuUnits s len rest → len = .seconds 1

/-- a numeral with something behind it -/
def GnuNumeralAt (s w rest : Bytes) : Prop := ∃ n, Split (¬ PosixSpace ·) s w rest ∧ GnuNumeral w n ∧ rest ≠ []

/-- mistakes in a part of a relative time, after its sign -/
inductive GnuPartMistake : Bytes → Fault → Prop
  /-- `.`, `.s` -/
  | point {r} : ¬ StartsWith IsDigit r → GnuPartMistake (46 :: r) (.syntax (46 :: r) .wholeOrFractionMustBePresent)
  /-- `1e3` -/
  | exponent {s W r} : Split IsDigit s W r → W ≠ [] → StartsWith ExponentLetter r →
      GnuPartMistake s (.syntax r .noExponentAllowed)
  /-- `1.5e3` -/
  | exponentPoint {s W F r} : GnuPoint s W F r → StartsWith ExponentLetter r →
      GnuPartMistake s (.syntax r .noExponentAllowed)
  /-- `.5`, `.5 seconds` -/
  | noWhole {s F r t} : GnuPoint s [] F r → ¬ StartsWith ExponentLetter r → Spaces r t → SecondsOrNothing t →
      GnuPartMistake s (.other (.invalidInput .fractionWithoutWhole))
  /-- `1.`, `1. seconds` -/
  | noFraction {s W r t} : GnuPoint s W [] r → ¬ StartsWith ExponentLetter r → Spaces r t → SecondsOrNothing t →
      GnuPartMistake s (.other (.invalidInput .fractionWithoutFraction))
  /-- `1.5 days` -/
  | notSeconds {s W F r t len rest} : GnuPoint s W F r → ¬ StartsWith ExponentLetter r → Spaces r t →
      GnuWordAt gnuUnits t len rest → len ≠ .seconds 1 → GnuPartMistake s (.other (.invalidInput .fractionOnlyWithSeconds))
  /-- `next 2 days` -/
  | noUnit {s w r t} : GnuNumeralAt s w r → Spaces r t → (¬ ∃ len rest, GnuWordAt gnuUnits t len rest) →
      GnuPartMistake s (.timeUnit t (.numeralWithoutTimeUnit w))
  /-- `foo` -/
  | noWord {s} : s ≠ [] → ¬ StartsWith IsDigit s → ¬ StartsWith (· = 46) s →
      (¬ ∃ len rest, GnuWordAt gnuKeywords s len rest) → (¬ ∃ len rest, GnuWordAt gnuUnits s len rest) →
      (¬ ∃ w rest, GnuNumeralAt s w rest) → GnuPartMistake s (.other (.invalidInput (.text s)))

/-- the first mistake in a text without white space around it -/
inductive GnuMistake : Bytes → Fault → Prop
  | empty : GnuMistake [] (.other .empty)
  | sign {b} : SignByte b → GnuMistake [b] (.syntax [] .signWithoutNumber)
  | part {s neg r f} : GnuSign s neg r → GnuPartMistake r f → GnuMistake s f
  | later {s neg r part rest f} : GnuSign s neg r → GnuText neg r part rest → rest ≠ [] → GnuMistake rest f →
      GnuMistake s f

end Fundu.Spec
