import Verif.Spec.Grammar
/-! # Specification: how a text of durations can begin and end (C106) -/
namespace Fundu.Spec
open Fundu

/-- the bytes a text can begin with -/
inductive CanBegin (cfg : Config) (units : TimeUnitsLike) (keywords : Option TimeUnitsLike) (numerals : Option NumbersLike) (b : UInt8) : Prop
  | sign : b = 43 ∨ b = 45 → CanBegin cfg units keywords numerals b
  | digit : IsDigit b → CanBegin cfg units keywords numerals b
  | point : cfg.disableFraction = false → b = 46 → CanBegin cfg units keywords numerals b
  /-- `i` or `I` -/
  | infinity : cfg.disableInfinity = false → lower b = 105 → CanBegin cfg units keywords numerals b
  | unit {w u} : cfg.numberIsOptional = true → units.get w = some u → w.head? = some b → CanBegin cfg units keywords numerals b
  | keyword {k w u} : keywords = some k → k.get w = some u → w.head? = some b → CanBegin cfg units keywords numerals b
  | numeral {n w q} : numerals = some n → n w = some q → w.head? = some b → CanBegin cfg units keywords numerals b

/-- the bytes a text can end with -/
inductive CanEnd (cfg : Config) (units : TimeUnitsLike) (keywords : Option TimeUnitsLike) (b : UInt8) : Prop
  | digit : IsDigit b → CanEnd cfg units keywords b
  | point : cfg.disableFraction = false → b = 46 → CanEnd cfg units keywords b
  /-- the `f` of `inf` or the `y` of `infinity` -/
  | infinity : cfg.disableInfinity = false → lower b = 102 ∨ lower b = 121 → CanEnd cfg units keywords b
  /-- the `o` of `ago` -/
  | ago : cfg.allowAgo = true → lower b = 111 → CanEnd cfg units keywords b
  | unit {w u} : units.get w = some u → w.getLast? = some b → CanEnd cfg units keywords b
  | keyword {k w u} : keywords = some k → k.get w = some u → w.getLast? = some b → CanEnd cfg units keywords b

end Fundu.Spec
