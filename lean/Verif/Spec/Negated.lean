import Verif.Spec.Grammar
import Verif.Spec.Options
/-!
# Specification: the durations of a text with the opposite signs
-/
namespace Fundu.Spec

/-- The text `t` is the text `s` with the other sign: a minus sign is written in front of a text without a sign, or the sign in front is
exchanged. -/
def OtherSign (s t : Bytes) : Prop :=
  (¬ StartsWith (fun b => b = 43 ∨ b = 45) s ∧ t = 45 :: s) ∨ (∃ r, s = 43 :: r ∧ t = 45 :: r) ∨ ∃ r, s = 45 :: r ∧ t = 43 :: r

/-- `t` is the text `s` with the other sign in front of each of its durations. `r` is the text behind the sign of the first duration,
`front` the first duration with its sign and with what separates it from the second one, and `rest` what follows. -/
inductive Opposite (cfg : Config) (units : TimeUnitsLike) (keywords : Option TimeUnitsLike) (numerals : Option NumbersLike) :
    Bytes → Bytes → Prop
  | last {s neg r item t} : SignPart cfg s neg r → MultiText cfg units keywords numerals r item [] → OtherSign s t →
      Opposite cfg units keywords numerals s t
  | more {s neg r item front rest rest' t} : SignPart cfg s neg r → MultiText cfg units keywords numerals r item rest → rest ≠ [] →
      s = front ++ rest → Opposite cfg units keywords numerals rest rest' → OtherSign (front ++ rest') t →
      Opposite cfg units keywords numerals s t

/-- neither delimiters nor conjunctions contain signs -/
structure NoSigns (cfg : Config) : Prop where
  delimiters : ∀ b, IsDelimiter cfg b → b ≠ 43 ∧ b ≠ 45
  conjunctions : ∀ w ∈ cfg.conjunctions.getD [], ∀ b ∈ w, b ≠ 43 ∧ b ≠ 45

end Fundu.Spec
