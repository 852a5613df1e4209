import Verif.Spec.Options
import Verif.Spec.Units
import Verif.Model.Custom
/-!
# Specification: the syntax of one duration as a regular expression

The regular expressions are those of the project's fuzz target (/repo/fundu/fuzz/fuzz_targets/parse_single.rs:76-132), for any
settings, time units, keywords and numerals.
-/
namespace Fundu.Spec

/-- regular expressions over bytes -/
inductive Regex where
  /-- matches no text -/
  | nothing
  /-- matches the empty text -/
  | empty
  /-- matches one byte of a class -/
  | one (p : UInt8 → Bool)
  /-- one after the other -/
  | seq (a b : Regex)
  /-- one or the other -/
  | alt (a b : Regex)
  /-- any number of times -/
  | many (a : Regex)

/-- the texts a regular expression matches (from start to end) -/
def Regex.Matches : Regex → Bytes → Prop
  | .nothing, _ => False
  | .empty, s => s = []
  | .one p, s => ∃ b, p b = true ∧ s = [b]
  | .seq a b, s => ∃ x y, s = x ++ y ∧ a.Matches x ∧ b.Matches y
  | .alt a b, s => a.Matches s ∨ b.Matches s
  | .many a, s => ∃ l : List Bytes, s = l.flatten ∧ ∀ x ∈ l, a.Matches x

namespace Regex

/-- `r?` -/
def opt (r : Regex) : Regex := .alt .empty r
/-- `r+` -/
def many1 (r : Regex) : Regex := .seq r (.many r)
/-- a word, as it is written -/
def word : Bytes → Regex
  | [] => .empty
  | b :: w => .seq (.one fun c => c == b) (word w)
/-- a word, in any case -/
def anyCase : Bytes → Regex
  | [] => .empty
  | b :: w => .seq (.one fun c => lower c == lower b) (anyCase w)
/-- one of the expressions -/
def oneOf : List Regex → Regex
  | [] => .nothing
  | r :: l => .alt r (oneOf l)
/-- the expression, if a setting allows it -/
def allowed (b : Bool) (r : Regex) : Regex := if b then r else .nothing
/-- `[0-9]` -/
def digit : Regex := .one fun b => decide (48 ≤ b.toNat ∧ b.toNat ≤ 57)
/-- a byte -/
def byte (b : UInt8) : Regex := .one fun c => c == b

end Regex

open Regex

/-- `[0-9]+`, or if fractions are allowed also `[0-9]+\.[0-9]*` or `[0-9]*\.[0-9]+` -/
def baseRegex (cfg : Config) : Regex :=
  .alt (many1 digit) (allowed (!cfg.disableFraction)
    (.alt (.seq (many1 digit) (.seq (byte 46) (.many digit))) (.seq (.many digit) (.seq (byte 46) (many1 digit)))))

/-- `[eE][+-]?[0-9]+` -/
def exponentRegex : Regex :=
  .seq (.alt (byte 101) (byte 69)) (.seq (opt (.alt (byte 43) (byte 45))) (many1 digit))

/-- a number: `base([eE][+-]?[0-9]+)?` -/
def numberRegex (cfg : Config) : Regex :=
  .seq (baseRegex cfg) (opt (allowed (!cfg.disableExponent) exponentRegex))

/-- a delimiter -/
def spaceRegex (cfg : Config) : Regex := .one cfg.innerDelimiter

/-- a time unit, and delimiters and `ago` in any case if allowed -/
def unitRegex (cfg : Config) (units : List Bytes) : Regex :=
  .seq (oneOf (units.map word)) (opt (allowed cfg.allowAgo (.seq (many1 (spaceRegex cfg)) (anyCase (b! "ago")))))

/-- an optional sign, with delimiters behind it if allowed -/
def signRegex (cfg : Config) : Regex :=
  opt (.seq (.alt (byte 43) (byte 45)) (opt (allowed cfg.allowSignDelimiter (many1 (spaceRegex cfg)))))

/-- one duration: infinity, a keyword, a number, a number with a time unit (with delimiters between them if allowed), a
time unit alone if allowed, or a numeral, delimiters and a time unit -/
def durationRegex (cfg : Config) (units keywords numerals : List Bytes) : Regex :=
  .seq (signRegex cfg) (oneOf [
    allowed (!cfg.disableInfinity) (.alt (anyCase (b! "inf")) (anyCase (b! "infinity"))),
    oneOf (keywords.map word),
    numberRegex cfg,
    .seq (numberRegex cfg) (.seq (opt (allowed cfg.allowTimeUnitDelimiter (many1 (spaceRegex cfg)))) (unitRegex cfg units)),
    allowed cfg.numberIsOptional (unitRegex cfg units),
    .seq (oneOf (numerals.map word)) (.seq (many1 (spaceRegex cfg)) (unitRegex cfg units))])

/-- the identifiers of the tables of a parser are the words of the lists -/
structure WordLists (units : TimeUnitsLike) (keywords : Option TimeUnitsLike) (numerals : Option NumbersLike)
    (U K N : List Bytes) : Prop where
  ofUnits : ∀ id, (∃ u, units.get id = some u) ↔ id ∈ U
  ofEmpty : units.isEmpty = true → U = []
  ofKeywords : ∀ id, (∃ k u, keywords = some k ∧ k.get id = some u) ↔ id ∈ K
  ofNumerals : ∀ id, (∃ n q, numerals = some n ∧ n id = some q) ↔ id ∈ N

/-- The words are orderly: delimiters are neither letters nor digits nor the point. Words are not empty, do not contain delimiters,
digits or signs, do not start with a point or (in any case) with `inf`, and are not the word `ago`; no word is in two lists;
no time unit starts with `e` or `E`, which would be taken for an exponent. -/
structure OrderlyWords (cfg : Config) (U K N : List Bytes) : Prop where
  delimiters : ∀ b, IsDelimiter cfg b → ¬ IsLetter b ∧ ¬ IsDigit b ∧ b ≠ 46
  nonempty : ∀ id ∈ U ++ K ++ N, id ≠ []
  plain : ∀ id ∈ U ++ K ++ N, ∀ b ∈ id, ¬ IsDelimiter cfg b ∧ ¬ NextDuration b
  point : ∀ id ∈ U ++ K ++ N, ¬ StartsWith (· = 46) id
  inf : ∀ id ∈ U ++ K ++ N, ¬ ∃ r, AfterWord (b! "inf") id r
  ago : ∀ id ∈ U ++ K ++ N, ¬ SameText id (b! "ago")
  apart : (∀ id ∈ U, id ∉ K ∧ id ∉ N) ∧ ∀ id ∈ K, id ∉ N
  noExponent : ∀ id ∈ U, ¬ StartsWith (fun b => b = 101 ∨ b = 69) id

/-- the documented identifiers of time units -/
def unitWords (us : List TimeUnit) : List Bytes := (documentedUnits.filter fun e => decide (e.1 ∈ us)).map (·.2.1)

/-- the identifiers of custom time units, without the empty ones, which are ignored -/
def customWords (regs : List CustomTimeUnit) : List Bytes := (regs.flatMap (·.identifiers)).filter (!·.isEmpty)

/-- the identifiers of numerals -/
def numeralWords (numerals : List Numeral) : List Bytes := numerals.flatMap (·.identifiers)

/-- `s` has an exponent which does not fit into 16 bits (`a` is what precedes it, `t` what follows) -/
def HugeExponent (s : Bytes) : Prop :=
  ∃ a x sign E t neg, s = a ++ x :: (sign ++ (E ++ t)) ∧ (x = 101 ∨ x = 69) ∧
    ((sign = [] ∨ sign = [43]) ∧ neg = false ∨ sign = [45] ∧ neg = true) ∧ AllDigits E ∧ E ≠ [] ∧ ¬ StartsWith IsDigit t ∧
    ¬ IsI16 (if neg then -(decimal E : Int) else decimal E)

end Fundu.Spec
