import Verif.Spec.Spans
import Verif.Spec.Grammar
/-!
# Specification of durations as one writes them: `1 hour and 30 minutes ago`

Texts built from signs, numbers, words and white space, without any condition about longest runs.
-/
namespace Fundu.Spec

/-- a way of writing several durations -/
structure Style extends SpanFormat where
  /-- there may be white space between a sign and what follows it -/
  signGaps : Prop
  /-- there may be `ago` after a time unit -/
  ago : Prop
  /-- the conjunctions -/
  words : List Bytes
  /-- the length of the unit of a number without a unit, in nanoseconds -/
  defaultLength : Nat
  /-- `keywords w x`: the keyword `w` stands for `x` nanoseconds, which may be negative -/
  keywords : Bytes → Int → Prop
  /-- `numerals w q`: the word `w` stands for the whole number `q`, which may be negative -/
  numerals : Bytes → Int → Prop
  /-- there may be `inf` and `infinity` -/
  infinite : Prop

/-- white space, possibly none -/
def Style.Gap (f : Style) (s : Bytes) : Prop := ∀ b ∈ s, f.space b

/-- a sign with white space behind it, or nothing -/
inductive SignPhrase (f : Style) : Bytes → Bool → Prop
  | absent : SignPhrase f [] false
  | plus {gap : Bytes} : f.Gap gap → gap = [] ∨ f.signGaps → SignPhrase f (43 :: gap) false
  | minus {gap : Bytes} : f.Gap gap → gap = [] ∨ f.signGaps → SignPhrase f (45 :: gap) true

/-- an amount of time: a number with a unit, a unit alone, or a numeral and a unit, with or without `ago`, or a keyword.
The flag says if it is negative. -/
inductive Amount (f : Style) : Bytes → Bool → Int → Prop
  | plain {t : Bytes} {x : Int} : SpanText f.toSpanFormat t x → Amount f t false x
  | ago {t gap a : Bytes} {x : Int} : f.ago → SpanText f.toSpanFormat t x → f.Gap gap → gap ≠ [] →
      SameText a (b! "ago") → Amount f (t ++ (gap ++ a)) true x
  | keyword {w : Bytes} {x : Int} : f.keywords w x → Amount f w (decide (x < 0)) |x|
  | numeral {w gap id : Bytes} {q : Int} {len : Nat} : f.numerals w q → f.Gap gap → gap ≠ [] → f.ids id len →
      Amount f (w ++ (gap ++ id)) (decide (q < 0)) (|q| * len)
  | numeralAgo {w gap id gap' a : Bytes} {q : Int} {len : Nat} : f.ago → f.numerals w q → f.Gap gap → gap ≠ [] → f.ids id len →
      f.Gap gap' → gap' ≠ [] → SameText a (b! "ago") →
      Amount f (w ++ (gap ++ (id ++ (gap' ++ a)))) (!decide (q < 0)) (|q| * len)

/-- a number without a unit, in nanoseconds -/
inductive PlainNumber (f : Style) : Bytes → Int → Prop
  | whole {W : Bytes} : AllDigits W → W ≠ [] → PlainNumber f W (decimal W * f.defaultLength)
  | fraction {W F : Bytes} : AllDigits W → W ≠ [] → AllDigits F → F.length ≤ 18 → f.fractions →
      PlainNumber f (W ++ (46 :: F)) ⌊((decimal W : ℚ) + (decimal F : ℚ) / 10 ^ F.length) * f.defaultLength⌋

/-- `joint ++ next` is what follows an amount, and `next` is the next phrase: white space, which may be missing in front of
a digit or a sign, or white space, a conjunction, and white space which may be missing in front of a digit or a sign -/
inductive Joint (f : Style) (next : Bytes) : Bytes → Prop
  | gap {gap : Bytes} : f.Gap gap → gap ≠ [] ∨ StartsNumber next → Joint f next gap
  | word {gap w x gap' : Bytes} : f.Gap gap → gap ≠ [] → w ∈ f.words → SameText x w → f.Gap gap' →
      gap' ≠ [] ∨ StartsNumber next → Joint f next (gap ++ (x ++ gap'))

/-- `text` is a sequence of phrases; the list has the amounts in nanoseconds and whether they are negative: a minus sign and
`ago` cancel each other -/
inductive Phrases (f : Style) : Bytes → List (Bool × Int) → Prop
  | last {sign t : Bytes} {neg ago : Bool} {x : Int} : SignPhrase f sign neg → Amount f t ago x →
      Phrases f (sign ++ t) [(neg ^^ ago, x)]
  | more {sign t joint rest : Bytes} {neg ago : Bool} {x : Int} {l : List (Bool × Int)} : SignPhrase f sign neg →
      Amount f t ago x → Joint f rest joint → Phrases f rest l →
      Phrases f (sign ++ (t ++ (joint ++ rest))) ((neg ^^ ago, x) :: l)
  | lastNumber {sign t : Bytes} {neg : Bool} {x : Int} : SignPhrase f sign neg → PlainNumber f t x →
      Phrases f (sign ++ t) [(neg, x)]
  /-- after a number without a unit a digit or a sign must follow, and white space in front of a digit -/
  | moreNumber {sign t gap rest : Bytes} {neg : Bool} {x : Int} {l : List (Bool × Int)} : SignPhrase f sign neg →
      PlainNumber f t x → f.Gap gap → gap ≠ [] ∨ ¬ StartsWith IsDigit rest → StartsNumber rest → Phrases f rest l →
      Phrases f (sign ++ (t ++ (gap ++ rest))) ((neg, x) :: l)
  /-- infinity is as long as the maximum -/
  | lastInfinity {sign t : Bytes} {neg : Bool} : SignPhrase f sign neg → f.infinite →
      SameText t (b! "inf") ∨ SameText t (b! "infinity") → Phrases f (sign ++ t) [(neg, maxNanos)]
  /-- after infinity there must be white space -/
  | moreInfinity {sign t joint rest : Bytes} {neg : Bool} {l : List (Bool × Int)} : SignPhrase f sign neg → f.infinite →
      SameText t (b! "inf") ∨ SameText t (b! "infinity") → joint ≠ [] → Joint f rest joint → Phrases f rest l →
      Phrases f (sign ++ (t ++ (joint ++ rest))) ((neg, maxNanos) :: l)

/-- what is assumed about the conjunctions: they are words without white space, digits and signs, none of them is the start
of another one (in any case) -/
structure Conjunctions (f : Style) : Prop where
  letters : ∀ w ∈ f.words, w ≠ [] ∧ ∀ b ∈ w, ¬ f.space b ∧ ¬ NextDuration b
  distinct : ∀ w ∈ f.words, ∀ v ∈ f.words, ∀ x y, v = x ++ y → SameText w x → y = []
  notAgo : f.ago → ∀ w ∈ f.words, ¬ SameText w (b! "ago")
  /-- no unit without a number, no keyword, no numeral and not `infinity` starts with a conjunction -/
  notUnit : f.bare → ∀ w ∈ f.words, ∀ id len, f.ids id len → ¬ ∃ r, AfterWord w id r
  notKeyword : ∀ w ∈ f.words, ∀ v x, f.keywords v x → ¬ ∃ r, AfterWord w v r
  notNumeral : ∀ w ∈ f.words, ∀ v q, f.numerals v q → ¬ ∃ r, AfterWord w v r
  notInfinity : f.infinite → ∀ w ∈ f.words, ¬ ∃ r, AfterWord w (b! "infinity") r

/-- a keyword or numeral: not empty, without white space, digits and signs, not `ago`, and it does not start with a point or
`inf` -/
structure PhraseWord (f : Style) (w : Bytes) : Prop where
  ne : w ≠ []
  letters : ∀ b ∈ w, ¬ f.space b ∧ ¬ NextDuration b
  point : ¬ StartsWith (· = 46) w
  inf : f.infinite → ¬ ∃ r, AfterWord (b! "inf") w r
  ago : f.ago → ¬ SameText w (b! "ago")

end Fundu.Spec
