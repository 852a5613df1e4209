import Verif.Spec.Options
import Verif.Model.Custom
/-!
# Specification: parsers which know more words
-/
namespace Fundu.Spec

/-- every keyword of the first parser is a keyword of the second with the same meaning -/
def KeywordsMore (keywords keywords' : Option TimeUnitsLike) : Prop :=
  ∀ k, keywords = some k → ∀ w u, k.get w = some u → ∃ k', keywords' = some k' ∧ k'.get w = some u

/-- every numeral of the first parser is a numeral of the second with the same meaning -/
def NumeralsMore (numerals numerals' : Option NumbersLike) : Prop :=
  ∀ n, numerals = some n → ∀ w q, n w = some q → ∃ n', numerals' = some n' ∧ n' w = some q

/-- The identifiers of a custom parser are orderly: they are not empty, do not contain delimiters, digits or signs, do not start with a
point or (in any case) with `inf`, and are not the word `ago`; no word is an identifier of two of: a time unit, a keyword and a numeral;
and delimiters are neither letters, digits nor points. -/
structure OrderlyTables (cfg : Config) (units : List CustomTimeUnit) (keywords : List TimeKeyword) (numerals : List Numeral) :
    Prop where
  delimiters : ∀ b, IsDelimiter cfg b → ¬ IsLetter b ∧ ¬ IsDigit b ∧ b ≠ 46
  word : ∀ w ∈ units.flatMap (·.identifiers) ++ keywords.flatMap (·.timeUnit.identifiers) ++ numerals.flatMap (·.identifiers),
    w ≠ [] ∧ (∀ b ∈ w, ¬ IsDelimiter cfg b ∧ ¬ NextDuration b) ∧ w.head? ≠ some 46 ∧ ¬ SameText (w.take 3) (b! "inf") ∧
      ¬ SameText w (b! "ago")
  unitsKeywords : ∀ w ∈ units.flatMap (·.identifiers), w ∉ keywords.flatMap (·.timeUnit.identifiers)
  unitsNumerals : ∀ w ∈ units.flatMap (·.identifiers), w ∉ numerals.flatMap (·.identifiers)
  keywordsNumerals : ∀ w ∈ keywords.flatMap (·.timeUnit.identifiers), w ∉ numerals.flatMap (·.identifiers)

/-- an identifier of two of the time units stands for the same -/
def Once (units : List CustomTimeUnit) : Prop :=
  ∀ r ∈ units, ∀ r' ∈ units, ∀ id ∈ r.identifiers, id ∈ r'.identifiers → r'.baseUnit = r.baseUnit ∧ r'.multiplier = r.multiplier

end Fundu.Spec
