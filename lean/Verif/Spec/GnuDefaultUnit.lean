import Verif.Spec.GnuSentence
/-! # Specification: a number of seconds of fundu-gnu with and without the time unit (C100) -/
namespace Fundu.Spec

/-- a whole or a decimal number with an optional sign, without a time unit -/
inductive BareNumber : Bytes → Prop
  | whole {sg neg W} : GnuSignText sg neg → W ≠ [] → (∀ b ∈ W, IsDigit b) → BareNumber (sg ++ W)
  | decimal {sg neg W F} : GnuSignText sg neg → W ≠ [] → (∀ b ∈ W, IsDigit b) → F ≠ [] → (∀ b ∈ F, IsDigit b) →
      BareNumber (sg ++ (W ++ (46 :: F)))

/-- `t'` is the number `t` with a word for seconds behind it, with or without white space in between -/
def GnuWrittenOut (t t' : Bytes) : Prop :=
  BareNumber t ∧ ∃ gap id, t' = t ++ (gap ++ id) ∧ IsSpaces gap ∧ GnuWord gnuUnits id (.seconds 1)

/-- an accepted relative time which does not start with a time unit -/
def OwnPart (accepted : Bytes → Prop) (t : Bytes) : Prop :=
  IsText t ∧ accepted t ∧ ∀ m, Trimmed t m → ¬ ∃ len r, GnuWordAt gnuUnits m len r

end Fundu.Spec
