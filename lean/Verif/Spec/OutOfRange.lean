import Verif.Spec.Grammar
/-!
# Specification: multipliers which are out of range

The multiplier of a numeral, the one of the base unit and the one of the time unit are multiplied. The coefficients are `i64`, the exponents `i16`.
-/
namespace Fundu.Spec

/-- one of the products which are needed for the value of the item is not representable -/
inductive OutOfRange : Item → Prop
  | number {W F e u m} : ¬ Fits u.multiplier m → OutOfRange (.number W F e (some (u, m)))
  | word {u m} : ¬ Fits u.multiplier m → OutOfRange (.word (u, m))
  | numeral {q u m} : ¬ Fits q u.multiplier → OutOfRange (.numeral q (u, m))
  | numeralUnit {q u m} : Fits q u.multiplier → ¬ Fits (product q u.multiplier) m → OutOfRange (.numeral q (u, m))

/-- the text is a single duration, apart from a multiplier which is out of range -/
def SingleOutOfRange (cfg : Config) (units : TimeUnitsLike) (keywords : Option TimeUnitsLike) (numerals : Option NumbersLike) (s : Bytes) : Prop :=
  ∃ neg r item, SignPart cfg s neg r ∧ SingleText cfg units keywords numerals r item ∧ OutOfRange item

/-- after durations which are accepted there is one with a multiplier which is out of range; whatever follows -/
inductive FirstOutOfRange (cfg : Config) (units : TimeUnitsLike) (keywords : Option TimeUnitsLike) (numerals : Option NumbersLike) : Bytes → Prop
  | here {s neg r item rest} : SignPart cfg s neg r → MultiText cfg units keywords numerals r item rest → OutOfRange item →
      FirstOutOfRange cfg units keywords numerals s
  | later {s neg r item rest d} : SignPart cfg s neg r → MultiText cfg units keywords numerals r item rest → rest ≠ [] →
      Accepted cfg neg item d → FirstOutOfRange cfg units keywords numerals rest → FirstOutOfRange cfg units keywords numerals s

end Fundu.Spec
