import Verif.Spec.Grammar
/-!
# A text which is one number with an optional sign and an optional time unit
-/
namespace Fundu.Spec

/-- `m` is the multiplier of the time unit (in seconds): the product of the multiplier of the base unit and the one
in the table, or the multiplier of the default unit if there is no time unit -/
def UnitMultiplier (cfg : Config) : Option (TimeUnit × Multiplier) → Multiplier → Prop
  | none, m => m = cfg.defaultUnit.multiplier
  | some (u, f), m => Fits u.multiplier f ∧ m = product u.multiplier f

/-- The text is the number `W.F * 10^e` with a time unit which has the multiplier `m` (negated by `ago`). `neg` tells whether
there is a minus sign. -/
def IsNumber (cfg : Config) (units : TimeUnitsLike) (keywords : Option TimeUnitsLike) (numerals : Option NumbersLike)
    (s : Bytes) (neg : Bool) (W F : Bytes) (e : Int) (m : Multiplier) : Prop :=
  ∃ u, UnitMultiplier cfg u m ∧
    if cfg.allowMultiple then Durations cfg units keywords numerals s [(neg, .number W F e u)]
    else ∃ r, SignPart cfg s neg r ∧ SingleText cfg units keywords numerals r (.number W F e u)

/-- the number counts as negative: it has a negative sign (or unit) and is not closer to zero than `10^-18` seconds -/
def CountsNegative (neg : Bool) (W F : Bytes) (e : Int) (m : Multiplier) : Prop :=
  10 ^ (-18 : ℤ) ≤ literalValue W F (e + m.exponent) ∧ m.coefficient ≠ 0 ∧ literalSign neg m.coefficient = -1

/-- The result is the length of `x` nanoseconds. -/
def Gives (r : R Duration) (x : Int) : Prop := ∃ d, r = .ok d ∧ d.WF ∧ nanos d = x

end Fundu.Spec
