import Verif.Spec.Calls
/-!
# Specification: parsers which know the same words
-/
namespace Fundu.Spec

/-- the word stands for so many of this base unit, according to one of the time units -/
def StandsFor (units : List CustomTimeUnit) (id : Bytes) (unit : TimeUnit) (times : Multiplier) : Prop :=
  ∃ r ∈ units, id ∈ r.identifiers ∧ r.baseUnit = unit ∧ r.multiplier = times

/-- the same words with the same meanings -/
def SameUnits (units units' : List CustomTimeUnit) : Prop :=
  ∀ id unit times, StandsFor units id unit times ↔ StandsFor units' id unit times

/-- no word has two meanings -/
def OneMeaning (units : List CustomTimeUnit) : Prop :=
  ∀ id unit times unit' times', StandsFor units id unit times → StandsFor units id unit' times' → unit = unit' ∧ times = times'

/-- no numeral has two meanings -/
def OneNumber (numerals : List Numeral) : Prop :=
  ∀ n ∈ numerals, ∀ n' ∈ numerals, ∀ id ∈ n.identifiers, id ∈ n'.identifiers → n.multiplier = n'.multiplier

/-- the same numerals with the same meanings -/
def SameNumerals (numerals numerals' : List Numeral) : Prop :=
  (numerals = [] ↔ numerals' = []) ∧
  ∀ id times, (∃ n ∈ numerals, id ∈ n.identifiers ∧ n.multiplier = times) ↔ ∃ n ∈ numerals', id ∈ n.identifiers ∧ n.multiplier = times

/-- the calls which set an option, in their order -/
def CustomCall.options : CustomCall → List SetterCall
  | .option call => [call.setter]
  | _ => []

end Fundu.Spec
