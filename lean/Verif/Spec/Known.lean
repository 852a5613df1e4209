import Verif.Spec.Usable
import Verif.Spec.Literal
import Verif.Model.Parse
/-!
# Specification: parsers which read the same texts
-/
namespace Fundu.Spec

/-- The second parser reads every text which the first one reads, with the same result. -/
def ReadsAll (cfg : Config) (units units' : TimeUnitsLike) (keywords keywords' : Option TimeUnitsLike)
    (numerals numerals' : Option NumbersLike) : Prop :=
  ∀ (s : Bytes) (x : Int), IsText s → Gives (parse cfg units keywords numerals s) x → Gives (parse cfg units' keywords' numerals' s) x

/-- `x` is the length in nanoseconds of one time unit with this multiplier -/
def OneOf (p : TimeUnit × Multiplier) (x : Int) : Prop := ∃ d, Value false (b! "1") [] 0 (product p.1.multiplier p.2) d ∧ nanos d = x

end Fundu.Spec
