import Verif.Spec.Sentences
import Verif.Spec.Units
import Verif.Spec.Calls
/-!
# Specification of phrases with the time units, keywords and numerals of a `CustomDurationParser`
-/
namespace Fundu.Spec

/-- the time unit or keyword is `q` times one of the documented time units, and so `x` nanoseconds long -/
def TimesUnit (r : CustomTimeUnit) (q x : Int) : Prop :=
  r.multiplier = ⟨q, 0⟩ ∧ ∃ did n, (r.baseUnit, did, n) ∈ documentedUnits ∧ x = q * (n : Int)

/-- the way of writing durations for a `CustomDurationParser` with the given time units, keywords and numerals: their
identifiers, its delimiters as white space, and what its options allow. `len` is the length of the default unit. A multiple of a
second or of a longer unit can be a time unit here, and a nanosecond, microsecond and millisecond (but not a multiple of these,
for which the number is cut off at `10^-18` seconds before it is multiplied). -/
def customStyle (units : List CustomTimeUnit) (keywords : List TimeKeyword) (numerals : List Numeral) (cfg : Config) (len : Nat) :
    Style where
  ids id n := ∃ r ∈ units, id ∈ r.identifiers ∧ ∃ q, 0 < q ∧ TimesUnit r q n ∧ (q = 1 ∨ 1000000000 * q ≤ n)
  space b := cfg.outerDelimiter b = true
  gaps := cfg.allowTimeUnitDelimiter = true
  bare := cfg.numberIsOptional = true
  fractions := cfg.disableFraction = false
  signGaps := cfg.allowSignDelimiter = true
  ago := cfg.allowAgo = true
  words := cfg.conjunctions.getD []
  defaultLength := len
  keywords w x := ∃ k ∈ keywords, w ∈ k.timeUnit.identifiers ∧ ∃ q, TimesUnit k.timeUnit q x
  numerals w q := ∃ n ∈ numerals, w ∈ n.identifiers ∧ n.multiplier = ⟨q, 0⟩
  infinite := cfg.disableInfinity = false

/-- what is assumed about the identifiers: they are words, each one stands for one thing, and it cannot be mistaken for
something else -/
structure Vocabulary (units : List CustomTimeUnit) (keywords : List TimeKeyword) (numerals : List Numeral) (f : Style) : Prop where
  /-- an identifier of two time units stands for the same -/
  unitOnce : ∀ r ∈ units, ∀ r' ∈ units, ∀ id ∈ r.identifiers, id ∈ r'.identifiers →
    r'.baseUnit = r.baseUnit ∧ r'.multiplier = r.multiplier
  keywordOnce : ∀ k ∈ keywords, ∀ k' ∈ keywords, ∀ w ∈ k.timeUnit.identifiers, w ∈ k'.timeUnit.identifiers →
    k'.timeUnit.baseUnit = k.timeUnit.baseUnit ∧ k'.timeUnit.multiplier = k.timeUnit.multiplier
  numeralOnce : ∀ n ∈ numerals, ∀ n' ∈ numerals, ∀ w ∈ n.identifiers, w ∈ n'.identifiers → n'.multiplier = n.multiplier
  /-- the identifiers of the time units are words which do not start with a point or with `e`, `i` or `a` -/
  unitText : ∀ r ∈ units, ∀ id ∈ r.identifiers, id ≠ [] ∧ (∀ b ∈ id, ¬ f.space b ∧ ¬ NextDuration b) ∧
    ∀ b, id.head? = some b → b ≠ 46 ∧ b ≠ 101 ∧ b ≠ 69 ∧ lower b ≠ 105 ∧ lower b ≠ 97
  keywordText : ∀ k ∈ keywords, ∀ w ∈ k.timeUnit.identifiers, PhraseWord f w
  numeralText : ∀ n ∈ numerals, ∀ w ∈ n.identifiers, PhraseWord f w
  /-- a keyword is neither a time unit which can stand without a number nor a numeral, and a numeral is no such time unit -/
  keywordNotUnit : f.bare → ∀ k ∈ keywords, ∀ r ∈ units, ∀ w ∈ k.timeUnit.identifiers, w ∉ r.identifiers
  keywordNotNumeral : ∀ k ∈ keywords, ∀ n ∈ numerals, ∀ w ∈ k.timeUnit.identifiers, w ∉ n.identifiers
  numeralNotUnit : f.bare → ∀ n ∈ numerals, ∀ r ∈ units, ∀ w ∈ n.identifiers, w ∉ r.identifiers

end Fundu.Spec
