import Verif.Spec.Sentences
/-!
# The format specification in the documentation of fundu

The rules of the section "Format specification" of `fundu/src/lib.rs` (lines 112-145) one by one, with the special cases
listed below it (lines 147-167). A `Style` has the time units, keywords, delimiters, conjunction words and the settings.
The rules differ from the documented ones where these do not say what the program does (finding F26 in DESIGN.md); such
places are marked with "deviation".
-/
namespace Fundu.Spec

/-- `Digits ::= Digit+ | Digit+ '.' Digit* | Digit* '.' Digit+`: the digits in front of and behind the point -/
inductive DocDigits (f : Style) : Bytes → Bytes → Bytes → Prop
  | whole {W : Bytes} : AllDigits W → W ≠ [] → DocDigits f W W []
  | point {W F : Bytes} : f.fractions → AllDigits W → W ≠ [] → AllDigits F → DocDigits f (W ++ 46 :: F) W F
  | fraction {W F : Bytes} : f.fractions → AllDigits W → AllDigits F → F ≠ [] → DocDigits f (W ++ 46 :: F) W F

/-- `Exp? , Exp ::= 'e' Sign? Digit+`, where `'e'` is case-insensitive; "the exponent must be in the range
`-32768 <= Exp <= 32767`" -/
inductive DocExp (exponents : Prop) : Bytes → Int → Prop
  | absent : DocExp exponents [] 0
  | present {c : UInt8} {sign D : Bytes} {neg : Bool} {e : Int} : exponents → c = 101 ∨ c = 69 → SignText sign neg → AllDigits D →
      D ≠ [] → e = (if neg then -(decimal D : Int) else decimal D) → -32768 ≤ e → e ≤ 32767 → DocExp exponents (c :: (sign ++ D)) e

/-- `Number ::= ( Digits Exp? ) | Exp`. Deviation: there is no number which consists of an exponent only. -/
def DocNumber (f : Style) (exponents : Prop) (t W F : Bytes) (e : Int) : Prop :=
  ∃ digits exp, t = digits ++ exp ∧ DocDigits f digits W F ∧ DocExp exponents exp e

/-- `W.F * 10^e` times `len` nanoseconds, where decimals of the number behind the 18th and fractions of a nanosecond are cut off -/
noncomputable def docNanos (W F : Bytes) (e : Int) (len : Nat) : Int := ⌊(⌊literalValue W F e * 10 ^ 18⌋ : ℚ) / 10 ^ 18 * len⌋

/-- `TimeKeyword | Number TimeUnit [ Delimiter+ 'ago' ]`, and `TimeUnit [ Delimiter+ 'ago' ]` if numbers are optional. The flag
says if it is negative (without a sign). -/
inductive DocAmount (f : Style) (exponents : Prop) : Bytes → Bool → Int → Prop
  | keyword {w : Bytes} {x : Int} : f.keywords w x → DocAmount f exponents w (decide (x < 0)) |x|
  | number {t gap id W F : Bytes} {e : Int} {len : Nat} : DocNumber f exponents t W F e → f.Gap gap → gap = [] ∨ f.gaps →
      f.ids id len → DocAmount f exponents (t ++ (gap ++ id)) false (docNanos W F e len)
  | numberAgo {t gap id gap' a W F : Bytes} {e : Int} {len : Nat} : f.ago → DocNumber f exponents t W F e → f.Gap gap →
      gap = [] ∨ f.gaps → f.ids id len → f.Gap gap' → gap' ≠ [] → SameText a (b! "ago") →
      DocAmount f exponents (t ++ (gap ++ (id ++ (gap' ++ a)))) true (docNanos W F e len)
  | unit {id : Bytes} {len : Nat} : f.bare → f.ids id len → DocAmount f exponents id false len
  | unitAgo {id gap a : Bytes} {len : Nat} : f.ago → f.bare → f.ids id len → f.Gap gap → gap ≠ [] → SameText a (b! "ago") →
      DocAmount f exponents (id ++ (gap ++ a)) true len

/-- `'inf' | 'infinity'` -/
def DocInfinity (f : Style) (t : Bytes) : Prop := f.infinite ∧ (SameText t (b! "inf") ∨ SameText t (b! "infinity"))

/-- `Duration ::= Sign? ( 'inf' | 'infinity' | TimeKeyword | Number [ TimeUnit [ Delimiter+ 'ago' ]] )`: the amount in
nanoseconds and if it is negative. A minus sign and `ago` cancel each other. -/
inductive DocDuration (f : Style) (exponents : Prop) : Bytes → Bool × Int → Prop
  | amount {sign t : Bytes} {neg ago : Bool} {x : Int} : SignPhrase f sign neg → DocAmount f exponents t ago x →
      DocDuration f exponents (sign ++ t) (neg ^^ ago, x)
  | number {sign t W F : Bytes} {neg : Bool} {e : Int} : SignPhrase f sign neg → DocNumber f exponents t W F e →
      DocDuration f exponents (sign ++ t) (neg, docNanos W F e f.defaultLength)
  | infinity {sign t : Bytes} {neg : Bool} : SignPhrase f sign neg → DocInfinity f t →
      DocDuration f exponents (sign ++ t) (neg, maxNanos)

/-- `Durations ::= Duration [ DurationStartingWithDigit | ( Delimiter+ ( Duration | Conjunction )) ]*` and
`Conjunction ::= ConjunctionWord (( Delimiter+ Duration ) | DurationStartingWithDigit )`. What stands between two durations
is a `Joint`. Deviation: in front of a sign there need not be a delimiter. -/
inductive DocDurations (f : Style) (exponents : Prop) : Bytes → List (Bool × Int) → Prop
  | last {t : Bytes} {p : Bool × Int} : DocDuration f exponents t p → DocDurations f exponents t [p]
  | more {sign t joint rest : Bytes} {neg ago : Bool} {x : Int} {l : List (Bool × Int)} : SignPhrase f sign neg →
      DocAmount f exponents t ago x → Joint f rest joint → DocDurations f exponents rest l →
      DocDurations f exponents (sign ++ (t ++ (joint ++ rest))) ((neg ^^ ago, x) :: l)
  /-- Deviation: after a number without a unit there must be a delimiter or a sign. If there may be delimiters between a number
  and its unit there is no conjunction, and what follows is a number or has a sign. -/
  | moreNumber {sign t joint rest W F : Bytes} {neg : Bool} {e : Int} {l : List (Bool × Int)} : SignPhrase f sign neg →
      DocNumber f exponents t W F e → Joint f rest joint → joint ≠ [] ∨ ¬ StartsWith IsDigit rest →
      (f.gaps → f.Gap joint ∧ StartsWith (fun b => NextDuration b ∨ b = 46) rest) →
      DocDurations f exponents rest l →
      DocDurations f exponents (sign ++ (t ++ (joint ++ rest))) ((neg, docNanos W F e f.defaultLength) :: l)
  /-- Deviation: after infinity there must be a delimiter. -/
  | moreInfinity {sign t joint rest : Bytes} {neg : Bool} {l : List (Bool × Int)} : SignPhrase f sign neg → DocInfinity f t →
      joint ≠ [] → Joint f rest joint → DocDurations f exponents rest l →
      DocDurations f exponents (sign ++ (t ++ (joint ++ rest))) ((neg, maxNanos) :: l)

end Fundu.Spec
