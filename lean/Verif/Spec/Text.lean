import Verif.Model.Prim
/-!
# Specification of text: what a `&str` can contain
-/
namespace Fundu.Spec

/-- the bytes are the UTF-8 encoding of a sequence of characters (Unicode scalar values; `Char` and the
encoding are Lean's) -/
def IsText (s : Bytes) : Prop := ∃ cs : List Char, s = cs.flatMap String.utf8EncodeChar

/-- only ASCII bytes are delimiters -/
def AsciiDelimiter (d : UInt8 → Bool) : Prop := ∀ b, d b = true → b.toNat < 128

/-- white space in the sense of POSIX: space, tab, line feed, vertical tab, form feed, carriage return -/
def PosixSpace (b : UInt8) : Prop := b = 32 ∨ b = 9 ∨ b = 10 ∨ b = 11 ∨ b = 12 ∨ b = 13
instance (b : UInt8) : Decidable (PosixSpace b) := by unfold PosixSpace; infer_instance

/-- `mid` is `s` without white space at both ends -/
def Trimmed (s mid : Bytes) : Prop :=
  ∃ pre post, s = pre ++ (mid ++ post) ∧ (∀ b ∈ pre, PosixSpace b) ∧ (∀ b ∈ post, PosixSpace b) ∧
    (∀ b, mid.head? = some b → ¬ PosixSpace b) ∧ (∀ b, mid.getLast? = some b → ¬ PosixSpace b)

end Fundu.Spec
