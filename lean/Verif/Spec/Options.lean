import Verif.Spec.Grammar
/-!
# Specification: settings which allow more than others, and orderly words
-/
namespace Fundu.Spec

/-- `cfg'` has the same default unit, delimiters, conjunctions and mode as `cfg`, and whatever `cfg` allows
is allowed by `cfg'` -/
structure AllowsMore (cfg cfg' : Config) : Prop where
  defaultUnit : cfg'.defaultUnit = cfg.defaultUnit
  inner : cfg'.innerDelimiter = cfg.innerDelimiter
  outer : cfg'.outerDelimiter = cfg.outerDelimiter
  conjunctions : cfg'.conjunctions = cfg.conjunctions
  multiple : cfg'.allowMultiple = cfg.allowMultiple
  negative : cfg.allowNegative = true → cfg'.allowNegative = true
  ago : cfg.allowAgo = true → cfg'.allowAgo = true
  signDelimiter : cfg.allowSignDelimiter = true → cfg'.allowSignDelimiter = true
  unitDelimiter : cfg.allowTimeUnitDelimiter = true → cfg'.allowTimeUnitDelimiter = true
  optional : cfg.numberIsOptional = true → cfg'.numberIsOptional = true
  exponent : cfg'.disableExponent = true → cfg.disableExponent = true
  fraction : cfg'.disableFraction = true → cfg.disableFraction = true
  infinity : cfg'.disableInfinity = true → cfg.disableInfinity = true

/-- every time unit of `units` is a time unit of `units'` with the same meaning -/
structure UnitsMore (units units' : TimeUnitsLike) : Prop where
  get : ∀ id u, units.get id = some u → units'.get id = some u
  isEmpty : units'.isEmpty = true → units.isEmpty = true
  empty : units.isEmpty = true → ∀ id, units.get id = none

/-- an ASCII letter -/
def IsLetter (b : UInt8) : Prop := (65 ≤ b.toNat ∧ b.toNat ≤ 90) ∨ (97 ≤ b.toNat ∧ b.toNat ≤ 122)
instance (b : UInt8) : Decidable (IsLetter b) := by unfold IsLetter; infer_instance

/-- the byte is a delimiter of one kind or the other -/
def IsDelimiter (cfg : Config) (b : UInt8) : Prop := cfg.innerDelimiter b = true ∨ cfg.outerDelimiter b = true

/-- `id` is a word a parser can be asked to recognise -/
def IsIdentifier (units : TimeUnitsLike) (keywords : Option TimeUnitsLike) (numerals : Option NumbersLike)
    (id : Bytes) : Prop :=
  (∃ u, units.get id = some u) ∨ (∃ k u, keywords = some k ∧ k.get id = some u) ∨
    ∃ n q, numerals = some n ∧ n id = some q

/-- The words of a parser are orderly: delimiters are neither letters nor digits nor the point. Identifiers are not empty, do
not contain delimiters, digits or signs, do not start with a point or (in any case) with `inf`, and are not the word
`ago`. No word is in two tables. -/
structure Orderly (cfg : Config) (units : TimeUnitsLike) (keywords : Option TimeUnitsLike)
    (numerals : Option NumbersLike) : Prop where
  delimiters : ∀ b, IsDelimiter cfg b → ¬ IsLetter b ∧ ¬ IsDigit b ∧ b ≠ 46
  nonempty : ∀ id, IsIdentifier units keywords numerals id → id ≠ []
  plain : ∀ id, IsIdentifier units keywords numerals id → ∀ b ∈ id, ¬ IsDelimiter cfg b ∧ ¬ NextDuration b
  point : ∀ id, IsIdentifier units keywords numerals id → ¬ StartsWith (· = 46) id
  inf : ∀ id, IsIdentifier units keywords numerals id → ¬ ∃ r, AfterWord (b! "inf") id r
  ago : ∀ id, IsIdentifier units keywords numerals id → ¬ SameText id (b! "ago")
  unitsKeywords : ∀ k, keywords = some k → ∀ id u, units.get id = some u → k.get id = none
  unitsNumerals : ∀ n, numerals = some n → ∀ id u, units.get id = some u → n id = none
  keywordsNumerals : ∀ k n, keywords = some k → numerals = some n → ∀ id u, k.get id = some u → n id = none

/-- Settings for several durations under which allowing more does not change the reading of a text: white space in front of units
must not be made optional if there are conjunctions or units without numbers, and `ago` must not be made optional
if a conjunction can be mistaken for it. -/
structure CompatibleMultiple (cfg cfg' : Config) : Prop where
  delimiters : ∀ b, cfg.innerDelimiter b = true → cfg.outerDelimiter b = true
  unitDelimiter : cfg'.allowTimeUnitDelimiter = cfg.allowTimeUnitDelimiter ∨
    (cfg.conjunctions.getD [] = [] ∧ cfg.numberIsOptional = false)
  ago : cfg'.allowAgo = cfg.allowAgo ∨
    ∀ w ∈ cfg.conjunctions.getD [], (¬ ∃ x, SameText (w ++ x) (b! "ago")) ∧ ¬ ∃ r, AfterWord (b! "ago") w r

end Fundu.Spec
