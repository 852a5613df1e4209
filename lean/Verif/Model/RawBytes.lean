import Verif.Model.Bytes
/-!
# Model of `Bytes` in fundu-core/src/parse.rs with the stored current byte

`Model/Bytes.lean`, on which the model of the parser is built, computes `current_byte` from `input` and `current_pos`. Here the field
is stored as in the source, where every method reads and writes it by itself. C102 proves that both models do the same.
The methods which only read other fields (`peek`, `get_remainder` and its variants, `get_current_str`, `next_is_ignore_ascii_case`) are those of
`Model/Bytes.lean`, by way of `RawBytes.cursor`.
-/
namespace Fundu

/-- parse.rs:657-662 `struct Bytes` -/
structure RawBytes where
  currentPos : Nat
  currentByte : Option UInt8
  buffer : Option (Nat × Bytes × Option UInt8)
  input : Bytes
  deriving DecidableEq, Repr

namespace RawBytes

/-- the fields other than `current_byte` -/
def cursor (r : RawBytes) : Cursor := ⟨r.input, r.currentPos, r.buffer⟩

/-- parse.rs:666-673 -/
def new (input : Bytes) : RawBytes := ⟨0, input.head?, none, input⟩

/-- parse.rs:676-679 -/
def advance (r : RawBytes) : RawBytes :=
  let r := { r with currentPos := r.currentPos + 1 }
  { r with currentByte := r.input[r.currentPos]? }

/-- parse.rs:682-685 -/
def advanceBy (r : RawBytes) (num : Nat) : RawBytes :=
  let r := { r with currentPos := r.currentPos + num }
  { r with currentByte := r.input[r.currentPos]? }

/-- The loop `while let Some(byte) = self.current_byte { if delimiter(*byte) { break; } self.advance(); }`,
parse.rs:692-697 and 720-725. The first argument is fuel. -/
def skipTo (d : Delimiter) : Nat → RawBytes → R RawBytes
  | 0, r =>
    match r.currentByte with
    | none => .ok r
    | some b => if d b then .ok r else panic .fuel
  | n + 1, r =>
    match r.currentByte with
    | none => .ok r
    | some b => if d b then .ok r else skipTo d n r.advance

/-- parse.rs:687-699 -/
def advanceTo (d : Delimiter) (r : RawBytes) : R (Bytes × RawBytes) := do
  let start := r.currentPos
  let r ← skipTo d r.input.length r
  return (← sliceR r.input start r.currentPos, r)

/-- parse.rs:718-729: the last match arm of `buffered_advance_to` -/
def fillBuffer (d : Delimiter) (r : RawBytes) : R (Bytes × RawBytes) := do
  let start := r.currentPos
  let r ← skipTo d r.input.length r
  let buffer ← sliceR r.input start r.currentPos
  return (buffer, { r with buffer := some (start, buffer, r.currentByte) })

/-- parse.rs:701-731 -/
def bufferedAdvanceTo (d : Delimiter) (r : RawBytes) : R (Bytes × RawBytes) :=
  match r.buffer with
  | some (pos, buffer, some next) =>
    if pos = r.currentPos && d next then .ok (buffer, r.advanceBy buffer.length) else fillBuffer d r
  | some (pos, buffer, none) => if pos = r.currentPos then .ok (buffer, r.advanceBy buffer.length) else fillBuffer d r
  | none => fillBuffer d r

/-- parse.rs:760-763 -/
def finish (r : RawBytes) : RawBytes :=
  let r := { r with currentPos := r.input.length }
  { r with currentByte := none }

/-- parse.rs:766-769 -/
def reset (r : RawBytes) (position : Nat) : RawBytes :=
  let r := { r with currentPos := position }
  { r with currentByte := r.input[position]? }

/-- parse.rs:772-780: the digit, if there is one -/
def parseDigit (r : RawBytes) : Option UInt8 × RawBytes :=
  match r.currentByte with
  | some byte => if isDigit byte then (some byte, r.advance) else (none, r)
  | none => (none, r)

/-- parse.rs:834-852 -/
def parse8 (r : RawBytes) : R (Option Nat × RawBytes) :=
  match r.cursor.peek 8 with
  | none => .ok (none, r)
  | some digits => do
    let num ← liftP (readU64 digits)
    if num &&& ((num + 0x0606060606060606) % 18446744073709551616) &&& 0xf0f0f0f0f0f0f0f0
        = 0x3030303030303030 then
      return (some num, r.advanceBy 8)
    else return (none, r)

/-- `debug_assert!(self.current_byte.map_or(false, u8::is_ascii_digit))`, parse.rs:785 and 823 -/
def assertDigit (r : RawBytes) : R Unit :=
  match r.currentByte with
  | some b => if isDigit b then .ok () else panic .assert
  | none => panic .assert

/-- the loop over blocks of 8 digits in `parse_digits_strip_zeros`, parse.rs:789-801. The first argument is fuel. -/
def stripBlocks : Nat → Nat → Bool → RawBytes → R (Nat × Bool × RawBytes)
  | fuel, start, strip, r => do
    match ← r.parse8 with
    | (none, r') => return (start, strip, r')
    | (some eight, r') =>
      match fuel with
      | 0 => panic .fuel
      | fuel + 1 =>
        if strip then
          if eight = 0x3030303030303030 then stripBlocks fuel (start + 8) true r'
          else do
            let d ← liftP (subUsize eight 0x3030303030303030)
            stripBlocks fuel (start + Cursor.trailingZeros 64 d / 8) false r'
        else stripBlocks fuel start false r'

/-- the loop over single digits in `parse_digits_strip_zeros`, parse.rs:803-817 -/
def stripEach : Nat → Nat → Bool → RawBytes → R (Nat × RawBytes)
  | fuel, start, strip, r =>
    match r.currentByte with
    | none => .ok (start, r)
    | some b =>
      if isDigit b then
        match fuel with
        | 0 => panic .fuel
        | fuel + 1 =>
          if strip && decide (b = 48) then stripEach fuel (start + 1) true r.advance
          else stripEach fuel start false r.advance
      else .ok (start, r)

/-- parse.rs:782-820 -/
def parseDigitsStripZeros (r : RawBytes) : R (Range × RawBytes) := do
  assertDigit r
  let (start, strip, r) ← stripBlocks r.input.length r.currentPos true r
  let (start, r) ← stripEach r.input.length start strip r
  return (⟨start, r.currentPos⟩, r)

/-- `while self.parse_8_digits().is_some() {}`, parse.rs:826 -/
def skipBlocks : Nat → RawBytes → R RawBytes
  | fuel, r => do
    match ← r.parse8 with
    | (none, r') => return r'
    | (some _, r') =>
      match fuel with
      | 0 => panic .fuel
      | fuel + 1 => skipBlocks fuel r'

/-- `while self.parse_digit().is_some() {}`, parse.rs:827 -/
def skipDigits : Nat → RawBytes → R RawBytes
  | fuel, r =>
    match r.parseDigit with
    | (none, r') => .ok r'
    | (some _, r') =>
      match fuel with
      | 0 => panic .fuel
      | fuel + 1 => skipDigits fuel r'

/-- parse.rs:822-830 -/
def parseDigits (r : RawBytes) : R (Range × RawBytes) := do
  assertDigit r
  let start := r.currentPos
  let fuel := r.input.length
  let r ← skipBlocks fuel r
  let r ← skipDigits fuel r
  return (⟨start, r.currentPos⟩, r)

/-- parse.rs:861-863 -/
def isEndOfInput (r : RawBytes) : Bool := r.currentByte.isNone

/-- parse.rs:866-875 -/
def checkEndOfInput (r : RawBytes) : R Unit :=
  match r.currentByte with
  | none => .ok ()
  | some _ => do
    let remainder ← r.cursor.getRemainderStr
    fail (.syntax r.currentPos (.expectedEndOfInput remainder))

/-- `debug_assert!(delimiter(*self.current_byte.unwrap()))`, parse.rs:878 -/
def assertDelimiter (d : Delimiter) (r : RawBytes) : R Unit :=
  match r.currentByte with
  | some b => if d b then .ok () else panic .assert
  | none => panic .unwrap

/-- parse.rs:888-894: `while let Some(byte) = self.current_byte { if delimiter(*byte) { self.advance(); } else { break; } }`, the first
argument is fuel -/
def skipDelimiters (d : Delimiter) : Nat → RawBytes → R RawBytes
  | fuel, r =>
    match r.currentByte with
    | none => .ok r
    | some b =>
      if d b then
        match fuel with
        | 0 => panic .fuel
        | fuel + 1 => skipDelimiters d fuel r.advance
      else .ok r

/-- parse.rs:877-903. The error is returned together with the state, which remains changed. -/
def tryConsumeDelimiter (d : Delimiter) (r : RawBytes) : R (Except ParseError Unit × RawBytes) := do
  assertDelimiter d r
  if r.currentPos = 0 then return (.error (.syntax 0 .delimiterAtStart), r)
  else
    let start := r.currentPos
    let r ← skipDelimiters d r.input.length r.advance
    match r.currentByte with
    | some _ => return (.ok (), r)
    | none => return (.error (.syntax start .delimiterAtEnd), r)

end RawBytes
end Fundu
