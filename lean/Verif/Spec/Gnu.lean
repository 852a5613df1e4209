import Verif.Model.Time
import Verif.Spec.Grammar
import Verif.Spec.Text
/-!
# Specification of gnu relative times

The words and lengths as given in the documentation of the crate, the syntax and what a text denotes. As in
`Spec/Grammar`, runs of white space, digits and letters are the longest ones.
-/
namespace Fundu.Spec

/-- what a time unit stands for -/
inductive GnuLength where
  | seconds (n : Int)
  | months
  | years
  deriving DecidableEq, Repr

/-- the time units, in lower case -/
def gnuUnits : List (List Bytes × GnuLength) := [
  ([b! "seconds", b! "second", b! "secs", b! "sec"], .seconds 1),
  ([b! "minutes", b! "minute", b! "mins", b! "min"], .seconds 60),
  ([b! "hours", b! "hour"], .seconds 3600),
  ([b! "days", b! "day"], .seconds 86400),
  ([b! "weeks", b! "week"], .seconds (7 * 86400)),
  ([b! "fortnights", b! "fortnight"], .seconds (14 * 86400)),
  ([b! "months", b! "month"], .months),
  ([b! "years", b! "year"], .years)]

/-- the keywords, with the number of seconds they stand for -/
def gnuKeywords : List (List Bytes × GnuLength) := [
  ([b! "yesterday"], .seconds (-86400)),
  ([b! "tomorrow"], .seconds 86400),
  ([b! "today", b! "now"], .seconds 0)]

/-- the numerals -/
def gnuNumerals : List (Bytes × Int) := [
  (b! "last", -1), (b! "this", 0), (b! "next", 1), (b! "first", 1), (b! "third", 3), (b! "fourth", 4),
  (b! "fifth", 5), (b! "sixth", 6), (b! "seventh", 7), (b! "eighth", 8), (b! "ninth", 9), (b! "tenth", 10),
  (b! "eleventh", 11), (b! "twelfth", 12)]

/-- the word stands for the length, whatever the case of its letters -/
def GnuWord (table : List (List Bytes × GnuLength)) (id : Bytes) (len : GnuLength) : Prop :=
  ∃ names, (names, len) ∈ table ∧ ∃ name ∈ names, SameText id name

/-- the numeral stands for the number, whatever the case of its letters -/
def GnuNumeral (id : Bytes) (n : Int) : Prop := ∃ name, (name, n) ∈ gnuNumerals ∧ SameText id name

/-- the pair of a time unit and a multiplier stands for the length. The length of months and years is
given by the time unit alone. -/
def UnitMeans (u : TimeUnit × Multiplier) : GnuLength → Prop
  | .seconds n => u.1 ≠ .month ∧ u.1 ≠ .year ∧ product u.1.multiplier u.2 = ⟨n, 0⟩
  | .months => u = (.month, ⟨1, 0⟩)
  | .years => u = (.year, ⟨1, 0⟩)
instance (u : TimeUnit × Multiplier) (l : GnuLength) : Decidable (UnitMeans u l) := by
  unfold UnitMeans; cases l <;> infer_instance

/-! ## What a part of a relative time adds -/

/-- an amount of nanoseconds, months or years -/
inductive GnuPart where
  | exact (nanoseconds : Int)
  | months (n : Int)
  | years (n : Int)
  deriving DecidableEq, Repr

/-- the nearest value of `i64` -/
def clampI64 (x : Int) : Int := max (-2 ^ 63) (min (2 ^ 63 - 1) x)

/-- `n` times a length; the largest or smallest possible value if it is out of range -/
def timesLength (n : Int) : GnuLength → GnuPart
  | .seconds k => .exact (clamp (n * k * 10 ^ 9))
  | .months => .months (clampI64 n)
  | .years => .years (clampI64 n)

/-- `-n` if there is a minus sign or `ago`, but not both -/
def signedBy (neg ago : Bool) (n : Int) : Int := if Bool.xor neg ago then -n else n

/-- years, months and nanoseconds of a relative time -/
structure GnuTotal where
  years : Int
  months : Int
  nanoseconds : Int
  deriving DecidableEq, Repr

/-- adding a part, with saturation -/
def GnuTotal.add (t : GnuTotal) : GnuPart → GnuTotal
  | .exact x => { t with nanoseconds := clamp (t.nanoseconds + x) }
  | .months n => { t with months := clampI64 (t.months + n) }
  | .years n => { t with years := clampI64 (t.years + n) }

/-- the sum of the parts from left to right -/
def gnuTotal (l : List GnuPart) : GnuTotal := l.foldl GnuTotal.add ⟨0, 0, 0⟩

/-! ## Syntax -/

/-- a word ends at white space, a digit or a sign -/
def GnuEnd (b : UInt8) : Prop := PosixSpace b ∨ NextDuration b

/-- the longest word in front is in the table -/
def GnuWordAt (table : List (List Bytes × GnuLength)) (s : Bytes) (len : GnuLength) (rest : Bytes) : Prop :=
  ∃ w, Split (¬ GnuEnd ·) s w rest ∧ GnuWord table w len

/-- `rest` is what remains after the white space in front, if there is any -/
def Spaces (s rest : Bytes) : Prop := ∃ sp, Split PosixSpace s sp rest

/-- optional white space, which is not at the end of the text -/
def GnuGap (s rest : Bytes) : Prop := Spaces s rest ∧ (rest = [] → s = [])

/-- white space and the word `ago` -/
def AgoAt (s rest : Bytes) : Prop :=
  ∃ sp r, Split PosixSpace s sp r ∧ sp ≠ [] ∧ AfterWord (b! "ago") r rest ∧ (rest = [] ∨ StartsWith GnuEnd rest)

/-- optional `ago` -/
inductive GnuAgo : Bytes → Bool → Bytes → Prop
  | absent {s} : (¬ ∃ rest, AgoAt s rest) → GnuAgo s false s
  | present {s rest} : AgoAt s rest → GnuAgo s true rest

/-- a time unit, optionally with `ago`, and the white space behind it -/
def GnuUnitAt (s : Bytes) (len : GnuLength) (ago : Bool) (rest : Bytes) : Prop :=
  ∃ r r', GnuWordAt gnuUnits s len r ∧ GnuAgo r ago r' ∧ GnuGap r' rest

/-- an optional sign and the white space behind it -/
inductive GnuSign : Bytes → Bool → Bytes → Prop
  | absent {s} : ¬ StartsWith (fun b => b = 43 ∨ b = 45) s → GnuSign s false s
  | plus {s rest} : Spaces s rest → GnuSign (43 :: s) false rest
  | minus {s rest} : Spaces s rest → GnuSign (45 :: s) true rest

/-- digits in front of the text, not followed by a decimal point or the letter e -/
def GnuDigits (s W rest : Bytes) : Prop :=
  Split IsDigit s W rest ∧ W ≠ [] ∧ ¬ StartsWith (fun b => b = 46 ∨ b = 101 ∨ b = 69) rest

/-- digits, a decimal point and digits in front of the text, not followed by the letter e -/
def GnuDecimal (s W F rest : Bytes) : Prop :=
  ∃ r, Split IsDigit s W (46 :: r) ∧ W ≠ [] ∧ Split IsDigit r F rest ∧ F ≠ [] ∧
    ¬ StartsWith (fun b => b = 101 ∨ b = 69) rest

/-- there is no time unit after the number, only white space -/
def NoUnit (s rest : Bytes) : Prop :=
  ∃ r, Spaces s r ∧ (r = [] → s = []) ∧ (¬ ∃ len t, GnuWordAt gnuUnits r len t) ∧ rest = r

/-- nanoseconds of a decimal number of seconds, cut off after the ninth decimal place -/
def decimalNanos (W F : Bytes) : Int := ⌊((decimal W : ℚ) + (decimal F : ℚ) / 10 ^ F.length) * 10 ^ 9⌋

/-- one part of a relative time after its sign, what it adds, and the text after it and its white space -/
inductive GnuText (neg : Bool) : Bytes → GnuPart → Bytes → Prop
  /-- `2 weeks`, `2 weeks ago` -/
  | numberUnit {s W r r' len ago rest} : GnuDigits s W r → Spaces r r' → GnuUnitAt r' len ago rest →
      GnuText neg s (timesLength (signedBy neg ago (decimal W)) len) rest
  /-- a number without unit: seconds -/
  | number {s W r rest} : GnuDigits s W r → NoUnit r rest →
      GnuText neg s (timesLength (signedBy neg false (decimal W)) (.seconds 1)) rest
  /-- `1.5 seconds`: only seconds may have a fraction -/
  | decimalUnit {s W F r r' ago rest} : GnuDecimal s W F r → Spaces r r' → GnuUnitAt r' (.seconds 1) ago rest →
      GnuText neg s (.exact (clamp (signedBy neg ago (decimalNanos W F)))) rest
  | decimal {s W F r rest} : GnuDecimal s W F r → NoUnit r rest →
      GnuText neg s (.exact (clamp (signedBy neg false (decimalNanos W F)))) rest
  /-- `yesterday` -/
  | keyword {s len r rest} : GnuWordAt gnuKeywords s len r → GnuGap r rest →
      GnuText neg s (timesLength (signedBy neg false 1) len) rest
  /-- `week`, `week ago` -/
  | unit {s len ago rest} : GnuUnitAt s len ago rest → GnuText neg s (timesLength (signedBy neg ago 1) len) rest
  /-- `next week` -/
  | numeral {s w n r r' len ago rest} : Split (¬ PosixSpace ·) s w r → GnuNumeral w n → Spaces r r' →
      GnuUnitAt r' len ago rest → GnuText neg s (timesLength (signedBy neg ago n) len) rest

/-- a relative time without white space around it, and its parts -/
inductive RelativeTime : Bytes → List GnuPart → Prop
  | last {s neg r part} : GnuSign s neg r → GnuText neg r part [] → RelativeTime s [part]
  | more {s neg r part rest l} : GnuSign s neg r → GnuText neg r part rest → RelativeTime rest l →
      RelativeTime s (part :: l)

end Fundu.Spec
