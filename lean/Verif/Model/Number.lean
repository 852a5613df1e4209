import Verif.Model.Time
/-!
# Model of the number conversion in fundu-core/src/parse.rs and fundu-core/src/util.rs

`Parse8Digits`, `Whole`, `Fract`, `DurationRepr`. A slice is a `List UInt8`. `usize` arithmetic is `Nat`;
subtractions are checked, additions and products are not (all operands are bounded by the input length plus
`2^16`, far below `2^64`).
-/
namespace Fundu

/-! ## Slices -/

/-- `&l[a..b]`: panics unless `a <= b <= l.len()` -/
def slice (l : Bytes) (a b : Nat) : Except Panic Bytes :=
  if a ≤ b ∧ b ≤ l.length then .ok ((l.take b).drop a) else .error .index

/-- `usize` subtraction in a debug build -/
def subUsize (a b : Nat) : Except Panic Nat := if b ≤ a then .ok (a - b) else .error .overflow

/-- the value of a byte string as little endian number (language semantics of `u64::from_le`) -/
def leValue : Bytes → Nat
  | [] => 0
  | b :: bs => b.toNat + 256 * leValue bs

/-- `ptr.read_unaligned()` of 8 bytes at the start of the slice, then `u64::from_le`: undefined behaviour
if there are fewer than 8 bytes -/
def readU64 (bs : Bytes) : Except Panic Nat :=
  if 8 ≤ bs.length then .ok (leValue (bs.take 8)) else .error .read8

/-- core/util.rs:8-29 `POW10` -/
def POW10 : List Nat := [
  1,
  10,
  100,
  1000,
  10000,
  100000,
  1000000,
  10000000,
  100000000,
  1000000000,
  10000000000,
  100000000000,
  1000000000000,
  10000000000000,
  100000000000000,
  1000000000000000,
  10000000000000000,
  100000000000000000,
  1000000000000000000,
  10000000000000000000]

/-- `POW10[i]`: panics out of bounds -/
def pow10Index (i : Nat) : Except Panic Nat :=
  match POW10[i]? with
  | some p => .ok p
  | none => .error .index

/-! ## Parse8Digits -/

/-- parse.rs:246-262 `Parse8Digits::parse_8_digits`: the wrapping multiplications are
products modulo `2^64` -/
def parse8Digits (digits : Bytes) : Except Panic Nat := do
  assert (decide (8 ≤ digits.length))
  let num ← readU64 digits
  let num := ((num &&& 0x0F0F0F0F0F0F0F0F) * 2561 % 18446744073709551616) >>> 8
  let num := ((num &&& 0x00FF00FF00FF00FF) * 6553601 % 18446744073709551616) >>> 16
  let num := ((num &&& 0x0000FFFF0000FFFF) * 42949672960001 % 18446744073709551616) >>> 32
  return num

/-- `*num - b'0'` on `u8`: panics below `'0'` -/
def digitValue (b : UInt8) : Except Panic Nat := subUsize b.toNat 48

/-- `chunks_exact(8)` of the standard library: the chunks and the remainder -/
def chunksExact8 : Bytes → List Bytes × Bytes
  | a :: b :: c :: d :: e :: f :: g :: h :: rest =>
    let r := chunksExact8 rest
    ([a, b, c, d, e, f, g, h] :: r.1, r.2)
  | l => ([], l)

/-! ## Whole -/

/-- parse.rs:266-267 `struct Whole(usize, usize)` and 348-349 `struct Fract(usize, usize)`: a range of the
input -/
structure Range where
  start : Nat
  stop : Nat
  deriving DecidableEq, Repr

/-- parse.rs:337-339 `Whole::len` (and `Fract::len`) -/
def Range.len (r : Range) : Except Panic Nat := subUsize r.stop r.start

/-- parse.rs:342-344 `Whole::is_empty` (and `Fract::is_empty`) -/
def Range.isEmpty (r : Range) : Bool := r.stop = r.start

/-- `o.map_or(true, |a| a.is_empty())`, parse.rs:314 and parse.rs:373 -/
def noneOrEmpty : Option Bytes → Bool
  | none => true
  | some a => a.isEmpty

namespace Whole

/-- the loop over the chunks, parse.rs:274-285 -/
def parseChunks (seconds : Nat) : List Bytes → Except Panic (Option Nat)
  | [] => .ok (some seconds)
  | c :: cs =>
    match checkedU64 (100000000 * seconds) with
    | none => .ok none
    | some s => do
      match checkedU64 (s + (← parse8Digits c)) with
      | none => return none
      | some s => parseChunks s cs

/-- the loops over single digits, parse.rs:286-296 and 298-308 -/
def parseEach (seconds : Nat) : Bytes → Except Panic (Option Nat)
  | [] => .ok (some seconds)
  | c :: cs =>
    match checkedU64 (seconds * 10) with
    | none => .ok none
    | some s => do
      match checkedU64 (s + (← digitValue c)) with
      | none => return none
      | some s => parseEach s cs

/-- parse.rs:271-311 `Whole::parse_slice` -/
def parseSlice (seconds : Nat) (digits : Bytes) : Except Panic (Option Nat) :=
  if 8 ≤ digits.length then do
    let (chunks, remainder) := chunksExact8 digits
    match ← parseChunks seconds chunks with
    | none => return none
    | some seconds => parseEach seconds remainder
  else
    parseEach seconds digits

/-- parse.rs:319-320 `append.map_or(Some(s), |append| Self::parse_slice(s, append))` -/
def parseAppend (s : Nat) : Option Bytes → Except Panic (Option Nat)
  | none => .ok (some s)
  | some a => parseSlice s a

/-- parse.rs:313-334 `Whole::parse` -/
def parse (digits : Bytes) (append : Option Bytes) (zeros : Option Nat) :
    Except Panic (Option Nat) := do
  if digits.isEmpty && noneOrEmpty append then
    return some 0
  match ← parseSlice 0 digits with
  | none => return none
  | some s =>
    match ← parseAppend s append with
    | none => return none
    | some seconds =>
      if seconds = 0 then return some 0
      else
        match zeros with
        | some numZeros =>
          if 0 < numZeros then
            match POW10[numZeros]? with
            | none => return none
            | some pow => return checkedU64 (seconds * pow)
          else return some seconds
        | none => return some seconds

end Whole

/-! ## Fract -/

namespace Fract

/-- the loop over the chunks, parse.rs:357-360; plain `u64` arithmetic -/
def parseChunks (attos : Nat) : List Bytes → Except Panic Nat
  | [] => .ok attos
  | c :: cs => do
    let m ← arithU64 (100000000 * attos : Nat)
    let a ← arithU64 (m + (← parse8Digits c) : Nat)
    parseChunks a cs

/-- the loops over single digits, parse.rs:361-363 and 365-367 -/
def parseEach (attos : Nat) : Bytes → Except Panic Nat
  | [] => .ok attos
  | c :: cs => do
    let m ← arithU64 (attos * 10 : Nat)
    let a ← arithU64 (m + (← digitValue c) : Nat)
    parseEach a cs

/-- parse.rs:353-370 `Fract::parse_slice` -/
def parseSlice (attos maxToParse : Nat) (digits : Bytes) : Except Panic (Nat × Nat) := do
  let numParsable := min digits.length maxToParse
  let attos ←
    if 8 ≤ numParsable then do
      let (chunks, remainder) := chunksExact8 (← slice digits 0 numParsable)
      parseEach (← parseChunks attos chunks) remainder
    else do
      parseEach attos (← slice digits 0 numParsable)
  return (attos, ← subUsize maxToParse numParsable)

/-- `attos * POW10[remainder]` -/
def mulPow10 (attos remainder : Nat) : Except Panic Nat := do
  arithU64 ((attos * (← pow10Index remainder) : Nat) : Int)

/-- parse.rs:377-381: `None` gives the same `max_to_parse` as `Some(0)` -/
def zerosOr0 : Option Nat → Nat
  | some z => z
  | none => 0

/-- parse.rs:384 the match guard `Some(prepend) if !prepend.is_empty()` -/
def nonEmpty : Option Bytes → Option Bytes
  | some p => if p.isEmpty then none else some p
  | none => none

/-- parse.rs:372-408 `Fract::parse` -/
def parse (digits : Bytes) (prepend : Option Bytes) (zeros : Option Nat) : Except Panic Nat := do
  if digits.isEmpty && noneOrEmpty prepend then
    return 0
  else if 18 < zerosOr0 zeros then
    return 0
  else
    let maxToParse := 18 - zerosOr0 zeros
    match nonEmpty prepend with
    | some p =>
      let (attos, remainder) ← parseSlice 0 maxToParse p
      if remainder = 0 then return attos
      else if digits.isEmpty then mulPow10 attos remainder
      else
        let (attos, remainder) ← parseSlice attos remainder digits
        if 0 < remainder then mulPow10 attos remainder else return attos
    | none =>
      let (attos, remainder) ← parseSlice 0 maxToParse digits
      if 0 < remainder then mulPow10 attos remainder else return attos

end Fract

/-! ## DurationRepr -/

/-- parse.rs:422-433 `struct DurationRepr`. `default_unit` has the type's `Default`. -/
structure DurationRepr where
  defaultUnit : TimeUnit := .second
  unit : Option TimeUnit := none
  isNegative : Option Bool := none
  isInfinite : Bool := false
  whole : Option Range := none
  fract : Option Range := none
  input : Bytes := []
  exponent : Int := 0
  multiplier : Multiplier := ⟨1, 0⟩
  numeral : Option Multiplier := none
  deriving DecidableEq, Repr

namespace DurationRepr

/-- `if duration_is_negative { MIN } else { MAX }`, the saturation used throughout parse.rs:435-652 -/
def saturated (isNegative : Bool) : Duration := if isNegative then Duration.MIN else Duration.MAX

/-- parse.rs:599-652 `calculate_duration`. The `as u32` casts are of values below
`10^9`; `u128` products of two `u64` cannot overflow. -/
def calculateDuration (isNegative : Bool) (seconds attos : Nat) (coefficient : Int) :
    Except Panic Duration :=
  if (seconds = 0 ∧ attos = 0) ∨ coefficient = 0 then .ok Duration.ZERO
  else if attos = 0 then
    match checkedU64 (seconds * coefficient.natAbs) with
    | some s => do return Duration.fromStd isNegative (← StdDuration.new s 0)
    | none => .ok (saturated isNegative)
  else if coefficient = 1 ∨ coefficient = -1 then do
    let nanos ← unwrap (if attos / 1000000000 ≤ U32_MAX then some (attos / 1000000000) else none)
    return Duration.fromStd isNegative (← StdDuration.new seconds nanos)
  else
    match checkedU64 (coefficient.natAbs * attos) with
    | some attos =>
      match (checkedU64 (seconds * coefficient.natAbs)).bind
          (fun s => checkedU64 (s + attos / 1000000000000000000)) with
      | some s => do
        return Duration.fromStd isNegative
          (← StdDuration.new s (attos / 1000000000 % 1000000000))
      | none => .ok (saturated isNegative)
    | none =>
      match checkedU64 (seconds * coefficient.natAbs) with
      | none => .ok (saturated isNegative)
      | some s => do
        let attos := attos * coefficient.natAbs
        let carry ← unwrap (checkedU64 (attos / 1000000000000000000))
        match checkedU64 (s + carry) with
        | some s => do
          return Duration.fromStd isNegative
            (← StdDuration.new s (attos / 1000000000 % 1000000000))
        | none => .ok (saturated isNegative)

/-- parse.rs:571-596 `parse_duration_with_fixed_number`. In
the branch `exponent > 19` the code looks at the sign of the coefficient only. -/
def parseDurationWithFixedNumber (r : DurationRepr) (coefficient exponent : Int) :
    Except Panic Duration :=
  if coefficient = 0 then .ok Duration.ZERO
  else
    let durationIsNegative := Bool.xor (decide (coefficient < 0)) (r.isNegative.getD false)
    if exponent < 0 then
      if exponent < -18 then .ok Duration.ZERO
      else do
        let attos ← pow10Index (18 + exponent).toNat
        calculateDuration durationIsNegative 0 attos coefficient
    else if exponent = 0 then do
      return Duration.fromStd durationIsNegative (← StdDuration.new coefficient.natAbs 0)
    else if 19 < exponent then
      .ok (if coefficient < 0 then Duration.MIN else Duration.MAX)
    else do
      let seconds ← pow10Index exponent.toNat
      calculateDuration durationIsNegative seconds 0 coefficient

/-- `&digits[range.0..range.1]` -/
def rangeSlice (digits : Bytes) (r : Range) : Except Panic Bytes := slice digits r.start r.stop

/-- `range.map_or_else(|| [].as_ref(), |r| &digits[r.0..r.1])` -/
def optSlice (digits : Bytes) : Option Range → Except Panic Bytes
  | none => .ok []
  | some r => rangeSlice digits r

/-- `range.map_or(0, |r| r.len())` -/
def optLen : Option Range → Except Panic Nat
  | none => .ok 0
  | some r => r.len

/-- parse.rs:507-509 `whole.and_then(|whole| (!whole.is_empty()).then(|| &digits[whole.0..whole.1]))` -/
def prependSlice (digits : Bytes) : Option Range → Except Panic (Option Bytes)
  | none => .ok none
  | some w => if w.isEmpty then .ok none else do return some (← rangeSlice digits w)

/-- parse.rs:552 `fract.map(|fract| &digits[fract.0..fract.1])` -/
def appendSlice (digits : Bytes) : Option Range → Except Panic (Option Bytes)
  | none => .ok none
  | some f => do return some (← rangeSlice digits f)

/-- parse.rs:484 and 534: the match guard `Some(r) if r.len() > exponent_abs` -/
def longerThan (r : Option Range) (n : Nat) : Except Panic (Option Range) :=
  match r with
  | none => .ok none
  | some r => do if n < (← r.len) then Except.ok (some r) else Except.ok none

/-- parse.rs:521-523 `whole.map_or(Some(0), |whole| Whole::parse(&digits[whole.0..whole.1], None, None))` -/
def wholeSeconds (digits : Bytes) : Option Range → Except Panic (Option Nat)
  | none => .ok (some 0)
  | some w => do Whole.parse (← rangeSlice digits w) none none

/-- parse.rs:525-527 `fract.map_or(0, |fract| Fract::parse(&digits[fract.0..fract.1], None, None))` -/
def fractAttos (digits : Bytes) : Option Range → Except Panic Nat
  | none => .ok 0
  | some f => do Fract.parse (← rangeSlice digits f) none none

/-- parse.rs:483-560: the `match (exponent.cmp(&0i32), &self.whole, &self.fract)` which applies the
exponent by moving the boundary between whole and fraction digits. `none` stands for the early
return with `MIN`/`MAX`. -/
def secondsAndAttos (digits : Bytes) (whole fract : Option Range) (exponent : Int) :
    Except Panic (Option (Nat × Nat)) := do
  let exponentAbs := exponent.natAbs
  if exponent < 0 then
    match ← longerThan whole exponentAbs with
    | some w => do
      let cut ← subUsize w.stop exponentAbs
      match ← Whole.parse (← slice digits w.start cut) none none with
      | some seconds => do
        let f ← optSlice digits fract
        let attos ← Fract.parse f (some (← slice digits cut w.stop)) none
        return some (seconds, attos)
      | none => return none
    | none => do
      match fract with
      | some f =>
        if f.isEmpty then do
          let zeros ← subUsize exponentAbs (← optLen whole)
          return some (0, ← Fract.parse (← optSlice digits whole) none (some zeros))
        else do
          let fs ← rangeSlice digits f
          let prepend ← prependSlice digits whole
          let zeros ← subUsize exponentAbs (← optLen whole)
          return some (0, ← Fract.parse fs prepend (some zeros))
      | none => do
        let zeros ← subUsize exponentAbs (← optLen whole)
        return some (0, ← Fract.parse (← optSlice digits whole) none (some zeros))
  else if exponent = 0 then
    match ← wholeSeconds digits whole with
    | some seconds => do
      let attos ← fractAttos digits fract
      return some (seconds, attos)
    | none => return none
  else
    match ← longerThan fract exponentAbs with
    | some f => do
      let w ← optSlice digits whole
      match ← Whole.parse w (some (← slice digits f.start (f.start + exponentAbs))) none with
      | some seconds => do
        let attos ← Fract.parse (← slice digits (f.start + exponentAbs) f.stop) none none
        return some (seconds, attos)
      | none => return none
    | none => do
      let w ← optSlice digits whole
      let append ← appendSlice digits fract
      let zeros ← subUsize exponentAbs (← optLen fract)
      match ← Whole.parse w append (some zeros) with
      | some seconds => return some (seconds, 0)
      | none => return none

/-- parse.rs:437-568 `DurationRepr::parse` (the result is always
`Ok`) -/
def parse (r : DurationRepr) : Except Panic Duration := do
  if r.isInfinite then
    return Duration.fromStd (r.isNegative.getD false) StdDuration.MAX
  else if r.whole.isNone && r.fract.isNone then
    match r.numeral with
    | some numeral => do
      let timeUnit ← unwrap r.unit
      let m ← (← numeral.mul timeUnit.multiplier).mul r.multiplier
      r.parseDurationWithFixedNumber m.coefficient m.exponent
    | none =>
      match r.unit with
      | some timeUnit => do
        let m ← timeUnit.multiplier.mul r.multiplier
        r.parseDurationWithFixedNumber m.coefficient m.exponent
      | none => .error .unreachable
  else do
    let timeUnit := r.unit.getD r.defaultUnit
    let m ← timeUnit.multiplier.mul r.multiplier
    if m.coefficient = 0 then return Duration.ZERO
    else
      let exponent := m.exponent + r.exponent
      let durationIsNegative := Bool.xor (r.isNegative.getD false) (decide (m.coefficient < 0))
      match ← secondsAndAttos r.input r.whole r.fract exponent with
      | some (seconds, attos) =>
        calculateDuration durationIsNegative seconds attos m.coefficient
      | none => return saturated durationIsNegative

end DurationRepr
end Fundu
