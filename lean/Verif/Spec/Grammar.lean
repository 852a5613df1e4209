import Verif.Model.Config
import Verif.Spec.Number
import Verif.Spec.Settings
/-!
# Specification of the syntax of durations and of what they denote

The syntax is given as relations between texts (lists of bytes) and their parts, without reference to cursors,
positions or the order in which a parser looks at the text. Wherever a run of delimiters, digits or letters is
described it is the longest one (`Split`), which makes the parts of a text unique.
-/
namespace Fundu.Spec

/-- `s` starts with a byte satisfying `p` -/
def StartsWith (p : UInt8 → Prop) (s : Bytes) : Prop := ∃ b l, s = b :: l ∧ p b

/-- `run` is the longest prefix of `s` consisting of bytes satisfying `p`, `rest` is what follows -/
def Split (p : UInt8 → Prop) (s run rest : Bytes) : Prop :=
  s = run ++ rest ∧ (∀ b ∈ run, p b) ∧ ¬ StartsWith p rest

/-- ASCII lower case -/
def lower (b : UInt8) : UInt8 := if 65 ≤ b.toNat ∧ b.toNat ≤ 90 then b + 32 else b

/-- equal up to the case of ASCII letters -/
def SameText (a b : Bytes) : Prop := a.map lower = b.map lower
instance (a b : Bytes) : Decidable (SameText a b) := by unfold SameText; infer_instance

/-- `rest` is what remains of `s` after the word `w` in any case -/
def AfterWord (w s rest : Bytes) : Prop := ∃ x, s = x ++ rest ∧ SameText x w

/-- `rest` is what remains of `s` after delimiters, if there may be any -/
def AfterDelims (allowed : Bool) (d : Delimiter) (s rest : Bytes) : Prop :=
  if allowed then ∃ ds, Split (d · = true) s ds rest else rest = s

/-- a byte at which the next duration can start without a delimiter in front: digit, `+` or `-` -/
def NextDuration (b : UInt8) : Prop := IsDigit b ∨ b = 43 ∨ b = 45

/-- the parts of one duration, apart from its sign -/
inductive Item where
  /-- whole digits, fraction digits, exponent and unit of a number -/
  | number (W F : Bytes) (e : Int) (u : Option (TimeUnit × Multiplier))
  | infinity
  /-- a keyword, or a time unit without a number -/
  | word (u : TimeUnit × Multiplier)
  | numeral (q : Multiplier) (u : TimeUnit × Multiplier)

/-! ## Signs and numbers -/

/-- optional sign, with delimiters behind it if allowed -/
inductive SignPart (cfg : Config) : Bytes → Bool → Bytes → Prop
  | absent {s} : s ≠ [] → ¬ StartsWith (fun b => b = 43 ∨ b = 45) s → SignPart cfg s false s
  | plus {r rest} : AfterDelims cfg.allowSignDelimiter cfg.innerDelimiter r rest → rest ≠ [] →
      SignPart cfg (43 :: r) false rest
  | minus {r rest} : AfterDelims cfg.allowSignDelimiter cfg.innerDelimiter r rest → rest ≠ [] →
      SignPart cfg (45 :: r) true rest

/-- the part after the whole digits `W`: optional point and fraction digits -/
inductive FractionPart (cfg : Config) (W : Bytes) : Bytes → Bytes → Bytes → Prop
  | absent {s} : W ≠ [] → ¬ StartsWith (· = 46) s → FractionPart cfg W s [] s
  | present {r F rest} : cfg.disableFraction = false → Split IsDigit r F rest → W ≠ [] ∨ F ≠ [] →
      FractionPart cfg W (46 :: r) F rest

/-- optional sign of an exponent -/
inductive ExponentSign : Bytes → Bool → Bytes → Prop
  | absent {s} : ¬ StartsWith (fun b => b = 43 ∨ b = 45) s → ExponentSign s false s
  | plus {r} : ExponentSign (43 :: r) false r
  | minus {r} : ExponentSign (45 :: r) true r

/-- optional exponent; its value must be in the range of `i16` -/
inductive ExponentPart (cfg : Config) : Bytes → Int → Bytes → Prop
  | absent {s} : ¬ StartsWith (fun b => b = 101 ∨ b = 69) s → ExponentPart cfg s 0 s
  | present {x r neg r' E rest} : x = 101 ∨ x = 69 → cfg.disableExponent = false → ExponentSign r neg r' →
      Split IsDigit r' E rest → E ≠ [] → IsI16 (if neg then -(decimal E : Int) else decimal E) →
      ExponentPart cfg (x :: r) (if neg then -(decimal E : Int) else decimal E) rest

/-- a number: `W`, `W.F`, `.F` or `W.`, optionally with an exponent -/
def NumberText (cfg : Config) (s W F : Bytes) (e : Int) (rest : Bytes) : Prop :=
  ∃ r1 r2, Split IsDigit s W r1 ∧ FractionPart cfg W r1 F r2 ∧ ExponentPart cfg r2 e rest

/-! ## Words -/

/-- the multiplier negated by `ago` -/
def negated (m : Multiplier) : Multiplier :=
  ⟨if m.coefficient = -2 ^ 63 then 2 ^ 63 - 1 else -m.coefficient, m.exponent⟩

/-- the text is not the start of a number or (unless disabled) of infinity -/
def WordStart (cfg : Config) (s : Bytes) : Prop :=
  s ≠ [] ∧ ¬ StartsWith IsDigit s ∧ ¬ StartsWith (· = 46) s ∧
    (cfg.disableInfinity = false → ¬ ∃ r, AfterWord (b! "inf") s r)

/-- a time unit of a single duration, with `ago`. Without `ago` the unit is everything that remains. -/
inductive UnitSingle (cfg : Config) (units : TimeUnitsLike) : Bytes → TimeUnit × Multiplier → Bytes → Prop
  | whole {s u} : cfg.allowAgo = false → units.get s = some u → UnitSingle cfg units s u []
  | plain {s u} : cfg.allowAgo = true → Split (¬ cfg.innerDelimiter · = true) s s [] → s ≠ [] →
      units.get s = some u → UnitSingle cfg units s u []
  | ago {s w r u m ds r' rest} : cfg.allowAgo = true → Split (¬ cfg.innerDelimiter · = true) s w r → w ≠ [] →
      units.get w = some (u, m) → Split (cfg.innerDelimiter · = true) r ds r' → AfterWord (b! "ago") r' rest →
      UnitSingle cfg units s (u, negated m) rest

/-- the time unit of a number, after delimiters if allowed -/
inductive UnitPart (cfg : Config) (units : TimeUnitsLike) : Bytes → Option (TimeUnit × Multiplier) → Prop
  | absent : UnitPart cfg units [] none
  | present {s r u} : AfterDelims cfg.allowTimeUnitDelimiter cfg.innerDelimiter s r → r ≠ [] →
      units.isEmpty = false → UnitSingle cfg units r u [] → UnitPart cfg units s (some u)

/-- a single duration after its sign -/
inductive SingleText (cfg : Config) (units : TimeUnitsLike) (keywords : Option TimeUnitsLike)
    (numerals : Option NumbersLike) : Bytes → Item → Prop
  | number {s W F e r u} : NumberText cfg s W F e r → UnitPart cfg units r u →
      SingleText cfg units keywords numerals s (.number W F e u)
  | infinity {s} : cfg.disableInfinity = false → SameText s (b! "inf") ∨ SameText s (b! "infinity") →
      SingleText cfg units keywords numerals s .infinity
  | keyword {s k u} : WordStart cfg s → keywords = some k → k.get s = some u →
      SingleText cfg units keywords numerals s (.word u)
  | unit {s u} : WordStart cfg s → (∀ k, keywords = some k → k.get s = none) → cfg.numberIsOptional = true →
      UnitSingle cfg units s u [] → SingleText cfg units keywords numerals s (.word u)
  | numeral {s n w r1 q ds r2 u} : WordStart cfg s → (∀ k, keywords = some k → k.get s = none) →
      (cfg.numberIsOptional = true → ¬ ∃ u rest, UnitSingle cfg units s u rest) →
      numerals = some n → Split (¬ cfg.innerDelimiter · = true) s w r1 → w ≠ [] → n w = some q →
      Split (cfg.innerDelimiter · = true) r1 ds r2 → r2 ≠ [] → UnitSingle cfg units r2 u [] →
      SingleText cfg units keywords numerals s (.numeral q u)

/-! ## Multiple durations -/

/-- what may stand between two durations: nothing, delimiters, or delimiters, a conjunction and delimiters.
If several conjunctions match the first one counts; after a conjunction there are delimiters, or a digit or
sign follows immediately. -/
inductive Connection (cfg : Config) : Bytes → Bytes → Prop
  | absent {s} : ¬ StartsWith (cfg.outerDelimiter · = true) s → Connection cfg s s
  | delims {s ds r} : Split (cfg.outerDelimiter · = true) s ds r → ds ≠ [] → r ≠ [] →
      (∀ w ∈ cfg.conjunctions.getD [], ¬ ∃ r', AfterWord w r r') → Connection cfg s r
  | conjunction {s ds r before w after r' ds' rest} : Split (cfg.outerDelimiter · = true) s ds r → ds ≠ [] →
      cfg.conjunctions.getD [] = before ++ w :: after → (∀ v ∈ before, ¬ ∃ r', AfterWord v r r') →
      AfterWord w r r' → Split (cfg.outerDelimiter · = true) r' ds' rest → rest ≠ [] →
      (ds' = [] → StartsWith NextDuration rest) → Connection cfg s rest

/-- a byte ends a keyword: an outer delimiter, or the next duration starts -/
def KeywordEnd (cfg : Config) (b : UInt8) : Prop := cfg.outerDelimiter b = true ∨ NextDuration b

/-- a byte ends a time unit; an inner delimiter too if `ago` may follow -/
def UnitEnd (cfg : Config) (b : UInt8) : Prop :=
  (cfg.allowAgo = true ∧ cfg.innerDelimiter b = true) ∨ cfg.outerDelimiter b = true ∨ NextDuration b

/-- the longest word in front is in the table -/
def WordIn (stop : UInt8 → Prop) (table : TimeUnitsLike) (s : Bytes) (u : TimeUnit × Multiplier) (rest : Bytes) : Prop :=
  ∃ w, Split (¬ stop ·) s w rest ∧ w ≠ [] ∧ table.get w = some u

/-- `ago` and what must follow it -/
def AgoText (cfg : Config) (s rest : Bytes) : Prop :=
  AfterWord (b! "ago") s rest ∧ (rest = [] ∨ StartsWith (KeywordEnd cfg) rest)

/-- optional `ago` after delimiters -/
inductive AgoPart (cfg : Config) : Bytes → Multiplier → Multiplier → Bytes → Prop
  | absent {s m} : (cfg.allowAgo = true → ¬ StartsWith (cfg.innerDelimiter · = true) s) → AgoPart cfg s m m s
  | other {s m ds r} : cfg.allowAgo = true → Split (cfg.innerDelimiter · = true) s ds r → ds ≠ [] → r ≠ [] →
      (¬ ∃ rest, AgoText cfg r rest) → AgoPart cfg s m m s
  | ago {s m ds r rest} : cfg.allowAgo = true → Split (cfg.innerDelimiter · = true) s ds r → ds ≠ [] →
      AgoText cfg r rest → AgoPart cfg s m (negated m) rest

/-- a time unit, optionally with `ago`, and the connection to the next duration -/
inductive UnitMulti (cfg : Config) (units : TimeUnitsLike) : Bytes → TimeUnit × Multiplier → Bytes → Prop
  | mk {s u m m' r r' rest} : WordIn (UnitEnd cfg) units s (u, m) r → AgoPart cfg r m m' r' →
      Connection cfg r' rest → UnitMulti cfg units s (u, m') rest

/-- one of several durations, after its sign, with the connection to the next one, and what remains -/
inductive MultiText (cfg : Config) (units : TimeUnitsLike) (keywords : Option TimeUnitsLike)
    (numerals : Option NumbersLike) : Bytes → Item → Bytes → Prop
  | numberEnd {s W F e} : NumberText cfg s W F e [] →
      MultiText cfg units keywords numerals s (.number W F e none) []
  | numberUnit {s W F e r r' u rest} : NumberText cfg s W F e r →
      AfterDelims cfg.allowTimeUnitDelimiter cfg.innerDelimiter r r' → units.isEmpty = false →
      UnitMulti cfg units r' u rest → MultiText cfg units keywords numerals s (.number W F e (some u)) rest
  | number {s W F e r r' rest} : NumberText cfg s W F e r →
      AfterDelims cfg.allowTimeUnitDelimiter cfg.innerDelimiter r r' → r' ≠ [] →
      (units.isEmpty = false → ¬ ∃ u t, WordIn (UnitEnd cfg) units r' u t) → Connection cfg r' rest →
      MultiText cfg units keywords numerals s (.number W F e none) rest
  | inf {s r rest} : cfg.disableInfinity = false → AfterWord (b! "inf") s r →
      r = [] ∨ StartsWith (cfg.outerDelimiter · = true) r → Connection cfg r rest →
      MultiText cfg units keywords numerals s .infinity rest
  | infinity {s r' r rest} : cfg.disableInfinity = false → AfterWord (b! "inf") s r' →
      ¬ StartsWith (cfg.outerDelimiter · = true) r' → AfterWord (b! "inity") r' r →
      r = [] ∨ StartsWith (cfg.outerDelimiter · = true) r → Connection cfg r rest →
      MultiText cfg units keywords numerals s .infinity rest
  | keyword {s k u r rest} : WordStart cfg s → keywords = some k → WordIn (KeywordEnd cfg) k s u r →
      Connection cfg r rest → MultiText cfg units keywords numerals s (.word u) rest
  | unit {s u rest} : WordStart cfg s →
      (∀ k, keywords = some k → ¬ ∃ u r, WordIn (KeywordEnd cfg) k s u r) → cfg.numberIsOptional = true →
      UnitMulti cfg units s u rest → MultiText cfg units keywords numerals s (.word u) rest
  | numeral {s n w r1 q ds r2 u rest} : WordStart cfg s →
      (∀ k, keywords = some k → ¬ ∃ u r, WordIn (KeywordEnd cfg) k s u r) →
      (cfg.numberIsOptional = true → ¬ ∃ u r, WordIn (UnitEnd cfg) units s u r) →
      numerals = some n → Split (¬ cfg.innerDelimiter · = true) s w r1 → w ≠ [] → n w = some q →
      Split (cfg.innerDelimiter · = true) r1 ds r2 → r2 ≠ [] → UnitMulti cfg units r2 u rest →
      MultiText cfg units keywords numerals s (.numeral q u) rest

/-- a sequence of durations with their signs -/
inductive Durations (cfg : Config) (units : TimeUnitsLike) (keywords : Option TimeUnitsLike)
    (numerals : Option NumbersLike) : Bytes → List (Bool × Item) → Prop
  | last {s neg r item} : SignPart cfg s neg r → MultiText cfg units keywords numerals r item [] →
      Durations cfg units keywords numerals s [(neg, item)]
  | more {s neg r item rest l} : SignPart cfg s neg r → MultiText cfg units keywords numerals r item rest →
      rest ≠ [] → Durations cfg units keywords numerals rest l →
      Durations cfg units keywords numerals s ((neg, item) :: l)

/-! ## Values -/

/-- the product of two multipliers, as numbers -/
def product (a b : Multiplier) : Multiplier := ⟨a.coefficient * b.coefficient, a.exponent + b.exponent⟩

/-- `d` is the duration of the number `W.F * 10^e` of a unit with multiplier `m`: its length is the truncated
value with the sign, saturating at the maximum, and it is marked as negative iff the number is at least
`10^-18` and its sign is negative -/
def Value (neg : Bool) (W F : Bytes) (e : Int) (m : Multiplier) (d : Duration) : Prop :=
  d.WF ∧
  nanos d = literalSign neg m.coefficient *
    min maxNanos (truncatedNanos (literalValue W F (e + m.exponent)) m.coefficient) ∧
  (d.isNegative = true ↔ 10 ^ (-18 : ℤ) ≤ literalValue W F (e + m.exponent) ∧ m.coefficient ≠ 0 ∧
    literalSign neg m.coefficient = -1)

/-- `d` is the duration denoted by the item with the given sign. Keywords, bare units and numerals denote the
number 1 with their multiplier, but their explicit sign is ignored if the exponent of the multiplier is above
19 (finding F1 in DESIGN.md). -/
inductive Denotes (cfg : Config) (neg : Bool) : Item → Duration → Prop
  | number {W F e d} : Value neg W F e cfg.defaultUnit.multiplier d → Denotes cfg neg (.number W F e none) d
  | numberUnit {W F e u m d} : Fits u.multiplier m → Value neg W F e (product u.multiplier m) d →
      Denotes cfg neg (.number W F e (some (u, m))) d
  | infinity {d} : d.WF → nanos d = (if neg then -maxNanos else maxNanos) → Denotes cfg neg .infinity d
  | word {u m d} : Fits u.multiplier m →
      Value (neg && decide ((product u.multiplier m).exponent ≤ 19)) (b! "1") [] 0 (product u.multiplier m) d →
      Denotes cfg neg (.word (u, m)) d
  | numeral {q u m d} : Fits q u.multiplier → Fits (product q u.multiplier) m →
      Value (neg && decide ((product (product q u.multiplier) m).exponent ≤ 19)) (b! "1") [] 0
        (product (product q u.multiplier) m) d →
      Denotes cfg neg (.numeral q (u, m)) d

/-- `d` is the duration denoted by the item and it is allowed: a negative one only if negative durations are -/
def Accepted (cfg : Config) (neg : Bool) (item : Item) (d : Duration) : Prop :=
  Denotes cfg neg item d ∧ (cfg.allowNegative = true ∨ d.isNegative = false)

/-- the sum in nanoseconds, from left to right, which sticks to the representable range at each step -/
def saturatingSum (l : List Int) : Int := l.foldl (fun acc x => clamp (acc + x)) 0

/-- the text `s` is a single duration and denotes `d` -/
def DenotesSingle (cfg : Config) (units : TimeUnitsLike) (keywords : Option TimeUnitsLike)
    (numerals : Option NumbersLike) (s : Bytes) (d : Duration) : Prop :=
  ∃ neg r item, SignPart cfg s neg r ∧ SingleText cfg units keywords numerals r item ∧ Accepted cfg neg item d

/-- the text `s` is a sequence of durations, each of them denotes the corresponding element of `ds` -/
def DenotesMultiple (cfg : Config) (units : TimeUnitsLike) (keywords : Option TimeUnitsLike)
    (numerals : Option NumbersLike) (s : Bytes) (ds : List Duration) : Prop :=
  ∃ items, Durations cfg units keywords numerals s items ∧
    List.Forall₂ (fun i d => Accepted cfg i.1 i.2 d) items ds

end Fundu.Spec
