import Verif.Spec.Grammar
/-!
# Specification: texts in which each word has a number in front
-/
namespace Fundu.Spec

/-- a byte of a word: not a digit, a sign, a point or a delimiter -/
def LetterByte (space : UInt8 → Prop) (b : UInt8) : Prop := ¬ IsDigit b ∧ b ≠ 43 ∧ b ≠ 45 ∧ b ≠ 46 ∧ ¬ space b

/-- in front of the first byte of each word of the text there is a digit or a point, possibly with white space between them -/
def NumberedWords (space : UInt8 → Prop) (s : Bytes) : Prop :=
  ∀ pre b post, s = pre ++ b :: post → LetterByte space b → (∀ p c, pre = p ++ [c] → ¬ LetterByte space c) →
    ∃ p c sp, pre = p ++ c :: sp ∧ (IsDigit c ∨ c = 46) ∧ ∀ x ∈ sp, space x

end Fundu.Spec
