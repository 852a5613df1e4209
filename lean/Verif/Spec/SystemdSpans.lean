import Verif.Spec.Gnu
import Verif.Spec.Mistakes
import Verif.Spec.Units
/-!
# Specification: the time spans of fundu-systemd

The texts are those without white space around them. `table` has the time units (`Spec/Units`) and `default` is the length of the unit of numbers without
a unit. As in `Spec/Grammar`, runs of white space, digits and letters are the longest ones.
-/
namespace Fundu.Spec

/-- an optional sign -/
inductive SpanSign : Bytes → Bool → Bytes → Prop
  | absent {s} : ¬ StartsWith SignByte s → SpanSign s false s
  | plus {r} : SpanSign (43 :: r) false r
  | minus {r} : SpanSign (45 :: r) true r

/-- a number in front of the text: `W`, `W.`, `W.F` or `.F` -/
inductive SpanNumber : Bytes → Bytes → Bytes → Bytes → Prop
  | whole {s W r} : Split IsDigit s W r → W ≠ [] → ¬ StartsWith (· = 46) r → SpanNumber s W [] r
  | point {s W r F rest} : Split IsDigit s W (46 :: r) → Split IsDigit r F rest → W ≠ [] ∨ F ≠ [] → SpanNumber s W F rest

/-- The longest word in front of the text is a time unit of `len` nanoseconds. A word ends at white space, a digit or a sign. -/
def SpanUnit (table : List (List Bytes × Nat)) (s : Bytes) (len : Nat) (rest : Bytes) : Prop :=
  ∃ w, Split (fun b => ¬ (PosixSpace b ∨ NextDuration b)) s w rest ∧ UnitIn table w len

/-- one time span after its sign: `W.F` units of `len` nanoseconds, and what follows after white space -/
inductive Span (table : List (List Bytes × Nat)) (default : Nat) : Bytes → Bytes → Bytes → Nat → Bytes → Prop
  /-- `1.5 hours` -/
  | numberUnit {s W F r r' len t rest} : SpanNumber s W F r → ¬ StartsWith ExponentLetter r → Spaces r r' → SpanUnit table r' len t →
      Spaces t rest → Span table default s W F len rest
  /-- `1.5` -/
  | number {s W F r rest} : SpanNumber s W F r → ¬ StartsWith ExponentLetter r → Spaces r rest →
      (¬ ∃ len t, SpanUnit table rest len t) → Span table default s W F default rest
  /-- `hour` -/
  | unit {s len t rest} : SpanUnit table s len t → Spaces t rest → Span table default s (b! "1") [] len rest

/-- nanoseconds of `W.F` units of `len` nanoseconds; `W.F` is cut off after the 18th decimal place -/
noncomputable def spanNanos (W F : Bytes) (len : Nat) : Int := ⌊(⌊literalValue W F 0 * 10 ^ 18⌋ : ℚ) / 10 ^ 18 * len⌋

/-- The time span is less than `10^-18` seconds or, if the unit is longer than a second, `W.F` is less than `10^-18`. -/
def Negligible (W F : Bytes) (len : Nat) : Prop := literalValue W F 0 * (min len (10 ^ 9) : Nat) / 10 ^ 9 < 1 / 10 ^ 18

/-- A sequence of time spans, with their nanoseconds. A minus sign is only possible in front of negligible ones. -/
inductive TimeSpans (table : List (List Bytes × Nat)) (default : Nat) : Bytes → List Int → Prop
  | last {s neg r W F len} : SpanSign s neg r → Span table default r W F len [] → (neg = true → Negligible W F len) →
      TimeSpans table default s [spanNanos W F len]
  | more {s neg r W F len rest l} : SpanSign s neg r → Span table default r W F len rest → (neg = true → Negligible W F len) →
      TimeSpans table default rest l → TimeSpans table default s (spanNanos W F len :: l)

/-! ## Mistakes -/

/-- mistakes in a time span after its sign -/
inductive SpanMistake (table : List (List Bytes × Nat)) : Bytes → Fault → Prop
  /-- `.`, `.s` -/
  | point {r} : ¬ StartsWith IsDigit r → SpanMistake table (46 :: r) (.syntax (46 :: r) .wholeOrFractionMustBePresent)
  /-- `1e3` -/
  | exponent {s W F r} : SpanNumber s W F r → StartsWith ExponentLetter r → SpanMistake table s (.syntax r .noExponentAllowed)
  /-- `foo` -/
  | noUnit {s} : s ≠ [] → ¬ StartsWith IsDigit s → ¬ StartsWith (· = 46) s → (¬ ∃ len t, SpanUnit table s len t) →
      SpanMistake table s (.other (.invalidInput (.text s)))

/-- the first mistake -/
inductive SpansMistake (table : List (List Bytes × Nat)) (default : Nat) : Bytes → Fault → Prop
  | empty : SpansMistake table default [] (.other .empty)
  | sign {b} : SignByte b → SpansMistake table default [b] (.syntax [] .signWithoutNumber)
  | span {s neg r f} : SpanSign s neg r → SpanMistake table r f → SpansMistake table default s f
  | negative {s r W F len rest} : SpanSign s true r → Span table default r W F len rest → ¬ Negligible W F len →
      SpansMistake table default s (.other .negativeNumber)
  | later {s neg r W F len rest f} : SpanSign s neg r → Span table default r W F len rest → (neg = true → Negligible W F len) →
      rest ≠ [] → SpansMistake table default rest f → SpansMistake table default s f

end Fundu.Spec
