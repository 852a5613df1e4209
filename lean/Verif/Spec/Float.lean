import Verif.Spec.Grammar
/-!
# Specification: the floating point numbers of the Rust standard library

The grammar is the one in the documentation of `<f64 as FromStr>::from_str`:
`Float ::= Sign? ( 'inf' | 'infinity' | 'nan' | Number )`, `Number ::= ( Digit+ | Digit+ '.' Digit* | Digit* '.' Digit+ ) Exp?`,
`Exp ::= 'e' Sign? Digit+`, where all letters may be written in any case.
-/
namespace Fundu.Spec

/-- what a text denotes before it is rounded: a sign, the exact absolute value and the exponent as written; or infinity; or no
number -/
inductive FloatValue where
  | number (neg : Bool) (value : ℚ) (exponent : ℤ)
  | infinity (neg : Bool)
  | nan

/-- `Sign?` -/
inductive FloatSign : Bytes → Bool → Prop
  | absent : FloatSign [] false
  | plus : FloatSign (b! "+") false
  | minus : FloatSign (b! "-") true

/-- `Digit+ | Digit+ '.' Digit* | Digit* '.' Digit+` with the digits in front of and behind the point -/
inductive FloatBase : Bytes → Bytes → Bytes → Prop
  | whole {W} : W ≠ [] → AllDigits W → FloatBase W W []
  | point {W F} : AllDigits W → AllDigits F → W ≠ [] ∨ F ≠ [] → FloatBase (W ++ b! "." ++ F) W F

/-- `Exp?` -/
inductive FloatExponent : Bytes → ℤ → Prop
  | absent : FloatExponent [] 0
  | plain {x E} : SameText x (b! "e") → E ≠ [] → AllDigits E → FloatExponent (x ++ E) (decimal E)
  | plus {x E} : SameText x (b! "e") → E ≠ [] → AllDigits E → FloatExponent (x ++ b! "+" ++ E) (decimal E)
  | minus {x E} : SameText x (b! "e") → E ≠ [] → AllDigits E → FloatExponent (x ++ b! "-" ++ E) (-decimal E)

/-- `Float` -/
inductive FloatText : Bytes → FloatValue → Prop
  | number {a b c neg W F e} : FloatSign a neg → FloatBase b W F → FloatExponent c e →
      FloatText (a ++ b ++ c) (.number neg (literalValue W F e) e)
  | infinity {a t neg} : FloatSign a neg → SameText t (b! "inf") ∨ SameText t (b! "infinity") → FloatText (a ++ t) (.infinity neg)
  | nan {a t neg} : FloatSign a neg → SameText t (b! "nan") → FloatText (a ++ t) .nan

end Fundu.Spec
