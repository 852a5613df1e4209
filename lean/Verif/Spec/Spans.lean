import Verif.Spec.Number
/-!
# Specification of sequences of amounts of time such as `1h 30min 2.5s`
-/
namespace Fundu.Spec

/-- a way of writing amounts of time -/
structure SpanFormat where
  /-- `ids id len`: the identifier `id` stands for `len` nanoseconds -/
  ids : Bytes → Nat → Prop
  /-- the white space -/
  space : UInt8 → Prop
  /-- there may be white space between a number and its unit -/
  gaps : Prop
  /-- there may be units without a number -/
  bare : Prop
  /-- there may be decimal points -/
  fractions : Prop

/-- `text` is one amount of `x` nanoseconds, without sign: a number (with or without a decimal point, at most 18
digits after it) and a unit, or a unit alone -/
inductive SpanText (f : SpanFormat) : Bytes → Int → Prop
  | number {W gap id : Bytes} {len : Nat} : AllDigits W → W ≠ [] → (∀ b ∈ gap, f.space b) → gap = [] ∨ f.gaps →
      f.ids id len → SpanText f (W ++ (gap ++ id)) (decimal W * len)
  | fraction {W F gap id : Bytes} {len : Nat} : AllDigits W → W ≠ [] → AllDigits F → F.length ≤ 18 → f.fractions →
      (∀ b ∈ gap, f.space b) → gap = [] ∨ f.gaps → f.ids id len →
      SpanText f (W ++ (46 :: (F ++ (gap ++ id)))) ⌊((decimal W : ℚ) + (decimal F : ℚ) / 10 ^ F.length) * len⌋
  | unit {id : Bytes} {len : Nat} : f.bare → f.ids id len → SpanText f id len

/-- the text of a sign: nothing, `+` or `-` -/
def SignText (s : Bytes) (neg : Bool) : Prop := (s = [] ∧ neg = false) ∨ (s = b! "+" ∧ neg = false) ∨ (s = b! "-" ∧ neg = true)

/-- a text starts with a digit or a sign -/
def StartsNumber (s : Bytes) : Prop := ∃ b l, s = b :: l ∧ (IsDigit b ∨ b = 43 ∨ b = 45)

/-- `text` consists of amounts with signs, separated by white space which may be absent in front of a digit or sign.
The list has the amounts in nanoseconds with their signs. -/
inductive Spans (f : SpanFormat) : Bytes → List (Bool × Int) → Prop
  | last {sign t : Bytes} {neg : Bool} {x : Int} : SignText sign neg → SpanText f t x → Spans f (sign ++ t) [(neg, x)]
  | more {sign t gap rest : Bytes} {neg : Bool} {x : Int} {l : List (Bool × Int)} : SignText sign neg →
      SpanText f t x → (∀ b ∈ gap, f.space b) → gap ≠ [] ∨ StartsNumber rest → Spans f rest l →
      Spans f (sign ++ (t ++ (gap ++ rest))) ((neg, x) :: l)

/-- the amount with its sign -/
def signedAmount (p : Bool × Int) : Int := if p.1 then -p.2 else p.2

end Fundu.Spec
