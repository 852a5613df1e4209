import Verif.Spec.Mistakes
/-!
# Specification: durations which are a time unit without a number
-/
namespace Fundu.Spec

/-- the single duration is not a number but a time unit, after its sign -/
def BareSingle (cfg : Config) (units : TimeUnitsLike) (s : Bytes) : Prop :=
  ∃ neg r, SignPart cfg s neg r ∧ WordStart cfg r ∧ ¬ NoUnitSingle cfg units r

/-- `r` is what remains of the text `s` after some durations -/
inductive Remains (cfg : Config) (units : TimeUnitsLike) (keywords : Option TimeUnitsLike) (numerals : Option NumbersLike) (s : Bytes) :
    Bytes → Prop
  | all : Remains cfg units keywords numerals s s
  | after {r neg r' item rest} : Remains cfg units keywords numerals s r → SignPart cfg r neg r' →
      MultiText cfg units keywords numerals r' item rest → rest ≠ [] → Remains cfg units keywords numerals s rest

/-- after some durations there is a time unit, possibly with a sign in front, where a number has to be -/
def BareMultiple (cfg : Config) (units : TimeUnitsLike) (keywords : Option TimeUnitsLike) (numerals : Option NumbersLike) (s : Bytes) : Prop :=
  ∃ r neg r', Remains cfg units keywords numerals s r ∧ SignPart cfg r neg r' ∧ WordStart cfg r' ∧ ¬ NoUnitMulti cfg units r'

end Fundu.Spec
