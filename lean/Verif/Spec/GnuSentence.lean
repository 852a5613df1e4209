import Verif.Spec.Gnu
/-!
# Relative times as one writes them

Texts built from words, numbers, signs and white space, without any condition about longest runs. The parts
are separated by white space.
-/
namespace Fundu.Spec

/-- white space, possibly none -/
def IsSpaces (s : Bytes) : Prop := ∀ b ∈ s, PosixSpace b

/-- `weeks`, `weeks ago` -/
inductive UnitPhrase : Bytes → GnuLength → Bool → Prop
  | unit {w len} : GnuWord gnuUnits w len → UnitPhrase w len false
  | ago {w len sp a} : GnuWord gnuUnits w len → IsSpaces sp → sp ≠ [] → SameText a (b! "ago") →
      UnitPhrase (w ++ (sp ++ a)) len true

/-- one part of a relative time without its sign, and what it adds -/
inductive Phrase (neg : Bool) : Bytes → GnuPart → Prop
  /-- `2weeks ago` -/
  | count {W sp u len ago} : W ≠ [] → (∀ b ∈ W, IsDigit b) → IsSpaces sp → UnitPhrase u len ago →
      Phrase neg (W ++ (sp ++ u)) (timesLength (signedBy neg ago (decimal W)) len)
  /-- `next week` -/
  | numeral {w n sp u len ago} : GnuNumeral w n → IsSpaces sp → sp ≠ [] → UnitPhrase u len ago →
      Phrase neg (w ++ (sp ++ u)) (timesLength (signedBy neg ago n) len)
  /-- `week` -/
  | one {u len ago} : UnitPhrase u len ago → Phrase neg u (timesLength (signedBy neg ago 1) len)
  /-- `yesterday` -/
  | keyword {w len} : GnuWord gnuKeywords w len → Phrase neg w (timesLength (signedBy neg false 1) len)
  /-- `1.5 seconds` -/
  | seconds {W F sp u ago} : W ≠ [] → (∀ b ∈ W, IsDigit b) → F ≠ [] → (∀ b ∈ F, IsDigit b) → IsSpaces sp →
      UnitPhrase u (.seconds 1) ago →
      Phrase neg (W ++ (46 :: (F ++ (sp ++ u)))) (.exact (clamp (signedBy neg ago (decimalNanos W F))))

/-- an optional sign with optional white space behind it -/
inductive GnuSignText : Bytes → Bool → Prop
  | none : GnuSignText [] false
  | plus {sp} : IsSpaces sp → GnuSignText (43 :: sp) false
  | minus {sp} : IsSpaces sp → GnuSignText (45 :: sp) true

/-- parts separated by white space -/
inductive Sentence : Bytes → List GnuPart → Prop
  | last {sg neg p part} : GnuSignText sg neg → Phrase neg p part → Sentence (sg ++ p) [part]
  | more {sg neg p part sp s l} : GnuSignText sg neg → Phrase neg p part → IsSpaces sp → sp ≠ [] → Sentence s l →
      Sentence (sg ++ (p ++ (sp ++ s))) (part :: l)

end Fundu.Spec
