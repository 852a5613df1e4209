import Verif.Spec.Grammar
/-!
# Specification: words which can be used

Not every word which is registered with a parser can be used in a text: a time unit called `2x` cannot follow a number, since the `2`
is a digit of the number. The predicates of this file say which words can be used with which configuration.
-/
namespace Fundu.Spec

/-- the name of a time unit ends at such a byte -/
def UnitStop (cfg : Config) (b : UInt8) : Prop :=
  if cfg.allowMultiple then UnitEnd cfg b else cfg.allowAgo = true ∧ cfg.innerDelimiter b = true

/-- a keyword ends at such a byte; a parser of a single duration takes the whole text for the keyword -/
def KeywordStop (cfg : Config) (b : UInt8) : Prop := cfg.allowMultiple = true ∧ KeywordEnd cfg b

/-- The word can follow a number immediately: it does not start with a digit, with a point only if there can be a point or an
exponent in front of it, and with an `e` only if there can be an exponent in front of it. -/
def BehindNumber (cfg : Config) (id : Bytes) : Prop :=
  ¬ StartsWith IsDigit id ∧ (StartsWith (· = 46) id → cfg.disableFraction = false ∨ cfg.disableExponent = false) ∧
    (StartsWith (fun b => b = 101 ∨ b = 69) id → cfg.disableExponent = false)

/-- the word can be a keyword of a text -/
def UsableKeyword (cfg : Config) (id : Bytes) : Prop := WordStart cfg id ∧ ∀ b ∈ id, ¬ KeywordStop cfg b

/-- the word can be a numeral of a text; it is separated from its time unit by a delimiter -/
def UsableNumeral (cfg : Config) (w : Bytes) : Prop :=
  WordStart cfg w ∧ (∀ b ∈ w, ¬ cfg.innerDelimiter b = true) ∧ ∃ b, cfg.innerDelimiter b = true

/-- The word can be a time unit of a text: immediately behind a number, behind a number and delimiters, alone, or behind a numeral. -/
def UsableUnit (cfg : Config) (numerals : Option NumbersLike) (id : Bytes) : Prop :=
  id ≠ [] ∧ (∀ b ∈ id, ¬ UnitStop cfg b) ∧
    ((BehindNumber cfg id ∧ (cfg.allowTimeUnitDelimiter = true → ¬ StartsWith (cfg.innerDelimiter · = true) id)) ∨
     (cfg.allowTimeUnitDelimiter = true ∧ (∃ b, cfg.innerDelimiter b = true ∧ BehindNumber cfg [b]) ∧ ¬ StartsWith (cfg.innerDelimiter · = true) id) ∨
     (cfg.numberIsOptional = true ∧ WordStart cfg id) ∨
     ((∃ n w q, numerals = some n ∧ n w = some q ∧ UsableNumeral cfg w) ∧ ¬ StartsWith (cfg.innerDelimiter · = true) id))

/-- Two sets of words differ only in words which cannot be used. -/
structure SameUsable (cfg : Config) (units units' : TimeUnitsLike) (keywords keywords' : Option TimeUnitsLike)
    (numerals numerals' : Option NumbersLike) : Prop where
  isEmpty : units'.isEmpty = units.isEmpty
  units : ∀ id, UsableUnit cfg numerals id → units'.get id = units.get id
  keywords : ∀ id, UsableKeyword cfg id → keywords'.bind (·.get id) = keywords.bind (·.get id)
  numerals : ∀ w, UsableNumeral cfg w → numerals'.bind (· w) = numerals.bind (· w)

end Fundu.Spec
