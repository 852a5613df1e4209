import Verif.Spec.Grammar
import Verif.Spec.Order
/-!
# Specification: parsers which do not distinguish upper and lower case
-/
namespace Fundu.Spec

/-- The words of the parser are known in upper and lower case with the same meaning, and the delimiters do not distinguish case
either (usually they are not letters). Nothing is said about the words `ago`, `inf`, `infinity`, the conjunctions and the `e` of
exponents. -/
structure IgnoresCase (cfg : Config) (units : TimeUnitsLike) (keywords : Option TimeUnitsLike) (numerals : Option NumbersLike) :
    Prop where
  inner : ∀ b c, lower b = lower c → cfg.innerDelimiter b = cfg.innerDelimiter c
  outer : ∀ b c, lower b = lower c → cfg.outerDelimiter b = cfg.outerDelimiter c
  unit : ∀ w w', SameText w w' → units.get w = units.get w'
  keyword : ∀ k, keywords = some k → ∀ w w', SameText w w' → k.get w = k.get w'
  numeral : ∀ n, numerals = some n → ∀ w w', SameText w w' → n w = n w'

/-- a custom parser is given all of the words of its time units (or keywords) in upper and lower case -/
def InAnyCase (units : List CustomTimeUnit) : Prop :=
  ∀ id id' unit times, SameText id id' → StandsFor units id unit times → StandsFor units id' unit times

/-- the same for numerals -/
def NumeralsInAnyCase (numerals : List Numeral) : Prop :=
  ∀ id id', SameText id id' → ∀ n ∈ numerals, id ∈ n.identifiers → ∃ n' ∈ numerals, id' ∈ n'.identifiers ∧ n'.multiplier = n.multiplier

end Fundu.Spec
