import Verif.Spec.Grammar
import Verif.Spec.Gnu
/-! # Specification: the bytes a text of durations can consist of (C105) -/
namespace Fundu.Spec
open Fundu

/-- the bytes the settings and the words of a parser have a use for -/
inductive InAlphabet (cfg : Config) (units : TimeUnitsLike) (keywords : Option TimeUnitsLike) (numerals : Option NumbersLike) (b : UInt8) : Prop
  | digit : IsDigit b → InAlphabet cfg units keywords numerals b
  | sign : b = 43 ∨ b = 45 → InAlphabet cfg units keywords numerals b
  | point : cfg.disableFraction = false → b = 46 → InAlphabet cfg units keywords numerals b
  | exponent : cfg.disableExponent = false → b = 101 ∨ b = 69 → InAlphabet cfg units keywords numerals b
  | infinity : cfg.disableInfinity = false → lower b ∈ b! "infinity" → InAlphabet cfg units keywords numerals b
  | ago : cfg.allowAgo = true → lower b ∈ b! "ago" → InAlphabet cfg units keywords numerals b
  /-- a delimiter inside of a duration: behind the sign, before the time unit, before `ago` or behind a numeral -/
  | inner : cfg.allowSignDelimiter = true ∨ cfg.allowTimeUnitDelimiter = true ∨ cfg.allowAgo = true ∨ numerals ≠ none →
      cfg.innerDelimiter b = true → InAlphabet cfg units keywords numerals b
  /-- a delimiter between two durations -/
  | outer : cfg.allowMultiple = true → cfg.outerDelimiter b = true → InAlphabet cfg units keywords numerals b
  | conjunction {ws w} : cfg.allowMultiple = true → cfg.conjunctions = some ws → w ∈ ws → lower b ∈ w.map lower →
      InAlphabet cfg units keywords numerals b
  | unit {w u} : units.get w = some u → b ∈ w → InAlphabet cfg units keywords numerals b
  | keyword {k w u} : keywords = some k → k.get w = some u → b ∈ w → InAlphabet cfg units keywords numerals b
  | numeral {n w q} : numerals = some n → n w = some q → b ∈ w → InAlphabet cfg units keywords numerals b

/-- the words of relative times -/
def gnuWords : List Bytes := gnuUnits.flatMap (·.1) ++ gnuKeywords.flatMap (·.1) ++ gnuNumerals.map (·.1) ++ [b! "ago"]

/-- the bytes of relative times: white space, digits, signs, the point and the letters of the words in any case -/
def InGnuAlphabet (b : UInt8) : Prop := PosixSpace b ∨ IsDigit b ∨ b ∈ b! "+-." ∨ ∃ w ∈ gnuWords, lower b ∈ w

end Fundu.Spec
