import Verif.Model.Config
import Verif.Model.Number
/-!
# Model of `Bytes` in fundu-core/src/parse.rs

`current_byte` is not stored: every method of the source that changes `current_pos` sets
`current_byte = input.get(current_pos)` (parse.rs:669, 678, 684, 762, 768), so it is a function of the
other two fields. `Model/RawBytes.lean` stores it; C102 proves that both models do the same.
-/
namespace Fundu

/-- parse.rs:657-662 `struct Bytes` without `current_byte` -/
structure Cursor where
  input : Bytes
  pos : Nat := 0
  buffer : Option (Nat × Bytes × Option UInt8) := none
  deriving DecidableEq, Repr

/-- `u8::is_ascii_digit`, `byte.wrapping_sub(b'0') < 10` -/
def isDigit (b : UInt8) : Bool := decide (48 ≤ b.toNat) && decide (b.toNat ≤ 57)

/-- `u8::to_ascii_lowercase` -/
def toLower (b : UInt8) : UInt8 := if decide (65 ≤ b.toNat) && decide (b.toNat ≤ 90) then b + 32 else b

/-- `<[u8]>::eq_ignore_ascii_case` -/
def eqIgnoreCase (a b : Bytes) : Bool := a.map toLower = b.map toLower

/-- `&l[a..b]` in the parser -/
def sliceR (l : Bytes) (a b : Nat) : R Bytes := liftP (slice l a b)

/-- `std::str::from_utf8_unchecked`: undefined behaviour unless the bytes are UTF-8 -/
def utf8Unchecked (bs : Bytes) : R Bytes := if utf8Valid bs then .ok bs else panic .utf8

namespace Cursor

/-- parse.rs:666-673 `Bytes::new` -/
def new (input : Bytes) : Cursor := { input := input }

/-- `current_byte` -/
def cur (c : Cursor) : Option UInt8 := c.input[c.pos]?

/-- parse.rs:676-679 -/
def advance (c : Cursor) : Cursor := { c with pos := c.pos + 1 }

/-- parse.rs:682-685 -/
def advanceBy (c : Cursor) (n : Nat) : Cursor := { c with pos := c.pos + n }

/-- The loop `while let Some(byte) = self.current_byte { if delimiter(*byte) { break; } self.advance(); }`,
parse.rs:692-697 and 720-725. The first argument is fuel. -/
def skipTo (d : Delimiter) : Nat → Cursor → R Cursor
  | 0, c =>
    match c.cur with
    | none => .ok c
    | some b => if d b then .ok c else panic .fuel
  | n + 1, c =>
    match c.cur with
    | none => .ok c
    | some b => if d b then .ok c else skipTo d n c.advance

/-- parse.rs:687-699 -/
def advanceTo (d : Delimiter) (c : Cursor) : R (Bytes × Cursor) := do
  let c' ← skipTo d c.input.length c
  return (← sliceR c'.input c.pos c'.pos, c')

/-- parse.rs:705-717: the match arms of `buffered_advance_to` which use the buffer -/
def buffered (d : Delimiter) (c : Cursor) : Option Bytes :=
  match c.buffer with
  | some (pos, buffer, some next) => if pos = c.pos && d next then some buffer else none
  | some (pos, buffer, none) => if pos = c.pos then some buffer else none
  | none => none

/-- parse.rs:701-731 -/
def bufferedAdvanceTo (d : Delimiter) (c : Cursor) : R (Bytes × Cursor) :=
  match c.buffered d with
  | some buffer => .ok (buffer, c.advanceBy buffer.length)
  | none => do
    let c' ← skipTo d c.input.length c
    let buffer ← sliceR c'.input c.pos c'.pos
    return (buffer, { c' with buffer := some (c.pos, buffer, c'.cur) })

/-- parse.rs:734-736 -/
def peek (c : Cursor) (num : Nat) : Option Bytes :=
  if c.pos + num ≤ c.input.length then some ((c.input.drop c.pos).take num) else none

/-- parse.rs:739-741: `&self.input[self.current_pos..]` -/
def getRemainder (c : Cursor) : R Bytes := sliceR c.input c.pos c.input.length

/-- parse.rs:744-746 -/
def getRemainderStrUnchecked (c : Cursor) : R Bytes := do utf8Unchecked (← c.getRemainder)

/-- parse.rs:749-752 -/
def getRemainderStr (c : Cursor) : R Bytes := do
  let r ← c.getRemainder
  if utf8Valid r then .ok r else fail (.invalidInput .utf8Error)

/-- parse.rs:755-757, with the `unwrap` of its only use parse.rs:1586 -/
def getCurrentStrUnwrap (c : Cursor) (start : Nat) : R Bytes := do
  let r ← sliceR c.input start c.pos
  if utf8Valid r then .ok r else panic .unwrap

/-- parse.rs:760-763 -/
def finish (c : Cursor) : Cursor := { c with pos := c.input.length }

/-- parse.rs:766-769 -/
def reset (c : Cursor) (position : Nat) : Cursor := { c with pos := position }

/-- parse.rs:772-780; `none` if there is no digit -/
def parseDigit (c : Cursor) : Option Cursor :=
  match c.cur with
  | some b => if isDigit b then some c.advance else none
  | none => none

/-- parse.rs:834-852: the eight bytes as a word and the new position, `none` if the next 8
bytes are not all digits or there are fewer than 8 -/
def parse8 (c : Cursor) : R (Option (Nat × Cursor)) :=
  match c.peek 8 with
  | none => .ok none
  | some digits => do
    let num ← liftP (readU64 digits)
    if num &&& ((num + 0x0606060606060606) % 18446744073709551616) &&& 0xf0f0f0f0f0f0f0f0
        = 0x3030303030303030 then
      return some (num, c.advanceBy 8)
    else return none

/-- `u64::trailing_zeros` (64 for 0; the first argument bounds the bit width) -/
def trailingZeros : Nat → Nat → Nat
  | 0, _ => 0
  | k + 1, n => if n % 2 = 1 then 0 else 1 + trailingZeros k (n / 2)

/-- the loop over blocks of 8 digits in `parse_digits_strip_zeros`, parse.rs:789-801. The first argument
is fuel. -/
def stripBlocks : Nat → Nat → Bool → Cursor → R (Nat × Bool × Cursor)
  | fuel, start, strip, c => do
    match ← c.parse8 with
    | none => return (start, strip, c)
    | some (eight, c') =>
      match fuel with
      | 0 => panic .fuel
      | fuel + 1 =>
        if strip then
          if eight = 0x3030303030303030 then stripBlocks fuel (start + 8) true c'
          else do
            let d ← liftP (subUsize eight 0x3030303030303030)
            stripBlocks fuel (start + trailingZeros 64 d / 8) false c'
        else stripBlocks fuel start false c'

/-- the loop over single digits in `parse_digits_strip_zeros`, parse.rs:803-817 -/
def stripEach : Nat → Nat → Bool → Cursor → R (Nat × Cursor)
  | fuel, start, strip, c =>
    match c.cur with
    | none => .ok (start, c)
    | some b =>
      if isDigit b then
        match fuel with
        | 0 => panic .fuel
        | fuel + 1 =>
          if strip && decide (b = 48) then stripEach fuel (start + 1) true c.advance
          else stripEach fuel start false c.advance
      else .ok (start, c)

/-- `debug_assert!(self.current_byte.map_or(false, u8::is_ascii_digit))`, parse.rs:785 and 823 -/
def assertDigit (c : Cursor) : R Unit :=
  match c.cur with
  | some b => if isDigit b then .ok () else panic .assert
  | none => panic .assert

/-- parse.rs:782-820 -/
def parseDigitsStripZeros (c : Cursor) : R (Range × Cursor) := do
  assertDigit c
  let (start, strip, c) ← stripBlocks c.input.length c.pos true c
  let (start, c) ← stripEach c.input.length start strip c
  return (⟨start, c.pos⟩, c)

/-- `while self.parse_8_digits().is_some() {}`, parse.rs:826 -/
def skipBlocks : Nat → Cursor → R Cursor
  | fuel, c => do
    match ← c.parse8 with
    | none => return c
    | some (_, c') =>
      match fuel with
      | 0 => panic .fuel
      | fuel + 1 => skipBlocks fuel c'

/-- `while self.parse_digit().is_some() {}`, parse.rs:827 -/
def skipDigits : Nat → Cursor → R Cursor
  | fuel, c =>
    match c.parseDigit with
    | none => .ok c
    | some c' =>
      match fuel with
      | 0 => panic .fuel
      | fuel + 1 => skipDigits fuel c'

/-- parse.rs:822-830 -/
def parseDigits (c : Cursor) : R (Range × Cursor) := do
  assertDigit c
  let c' ← skipBlocks c.input.length c
  let c' ← skipDigits c.input.length c'
  return (⟨c.pos, c'.pos⟩, c')

/-- parse.rs:855-858 -/
def nextIs (c : Cursor) (word : Bytes) : Bool :=
  match c.peek word.length with
  | some bytes => eqIgnoreCase bytes word
  | none => false

/-- parse.rs:866-875 -/
def checkEnd (c : Cursor) : R Unit :=
  match c.cur with
  | none => .ok ()
  | some _ => do
    let remainder ← c.getRemainderStr
    fail (.syntax c.pos (.expectedEndOfInput remainder))

/-- `debug_assert!(delimiter(*self.current_byte.unwrap()))`, parse.rs:878 and 1490 -/
def assertDelimiter (d : Delimiter) (c : Cursor) : R Unit :=
  match c.cur with
  | some b => if d b then .ok () else panic .assert
  | none => panic .unwrap

/-- parse.rs:877-903. The loop `while delimiter { advance }` is `skipTo` with the
negated delimiter. -/
def tryConsumeDelimiter (d : Delimiter) (c : Cursor) : R Cursor := do
  assertDelimiter d c
  if c.pos = 0 then fail (.syntax 0 .delimiterAtStart)
  else
    let c' ← skipTo (fun b => !d b) c.input.length c.advance
    match c'.cur with
    | some _ => return c'
    | none => fail (.syntax c.pos .delimiterAtEnd)

end Cursor
end Fundu
