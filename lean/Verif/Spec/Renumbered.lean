import Verif.Spec.Options
import Verif.Spec.Gnu
/-! # Specification: numbers written in another way (C108), other numbers (C111) -/
namespace Fundu.Spec
open Fundu

/-- a number ends here: neither a digit nor a point nor the letter of an exponent follows -/
def NumberEnd (s : Bytes) : Prop := ¬ StartsWith (fun b => IsDigit b ∨ b = 46 ∨ b = 101 ∨ b = 69) s

/-- a number can start with a point behind this byte: a delimiter or a sign -/
def apart (cfg : Config) (b : UInt8) : Bool := cfg.innerDelimiter b || cfg.outerDelimiter b || b == 43 || b == 45

/-- The texts differ only in their numbers: each number of the first one (digits with a fraction and an exponent) corresponds to a number
of the second one, their values are related by `R` (for instance equal), everything else is the same. If there is neither a delimiter nor a sign
in front of the number (`free` is false) then either both or none of them start with a point. -/
inductive Renumbered (R : ℚ → ℚ → Prop) (cfg : Config) : Bool → Bytes → Bytes → Prop
  | done {free} : Renumbered R cfg free [] []
  | same {free b s t} : ¬ IsDigit b → (b = 46 → ¬ StartsWith IsDigit s ∧ ¬ StartsWith IsDigit t) → Renumbered R cfg (apart cfg b) s t →
      Renumbered R cfg free (b :: s) (b :: t)
  | number {free n W F e n' W' F' e' s t} : NumberText cfg n W F e [] → NumberText cfg n' W' F' e' [] →
      R (literalValue W F e) (literalValue W' F' e') → (free = false → (W = [] ↔ W' = [])) → NumberEnd s → NumberEnd t →
      Renumbered R cfg false s t → Renumbered R cfg free (n ++ s) (n' ++ t)

/-- the words of a parser contain no points, and its conjunctions look like words -/
structure NoPoints (cfg : Config) (units : TimeUnitsLike) (keywords : Option TimeUnitsLike) (numerals : Option NumbersLike) : Prop where
  words : ∀ id, IsIdentifier units keywords numerals id → (46 : UInt8) ∉ id
  conjunctions : ∀ w ∈ cfg.conjunctions.getD [], w ≠ [] ∧ ∀ b ∈ w, ¬ IsDelimiter cfg b ∧ ¬ NextDuration b ∧ b ≠ 46

/-- digits, at least one -/
def SomeDigits (W : Bytes) : Prop := W ≠ [] ∧ ∀ b ∈ W, IsDigit b

/-- The relative times differ only in their numbers: whole numbers correspond to whole numbers and decimal numbers to decimal numbers, and
their values are related by `R` (for instance equal). Everything else is the same. -/
inductive GnuRenumbered (R : ℚ → ℚ → Prop) : Bytes → Bytes → Prop
  | done : GnuRenumbered R [] []
  | same {b s t} : ¬ IsDigit b → GnuRenumbered R s t → GnuRenumbered R (b :: s) (b :: t)
  | whole {W W' s t} : SomeDigits W → SomeDigits W' → R (decimal W) (decimal W') → NumberEnd s → NumberEnd t → GnuRenumbered R s t →
      GnuRenumbered R (W ++ s) (W' ++ t)
  | decimal {W F W' F' s t} : SomeDigits W → SomeDigits F → SomeDigits W' → SomeDigits F' → R (literalValue W F 0) (literalValue W' F' 0) →
      NumberEnd s → NumberEnd t → GnuRenumbered R s t → GnuRenumbered R (W ++ 46 :: (F ++ s)) (W' ++ 46 :: (F' ++ t))

end Fundu.Spec
