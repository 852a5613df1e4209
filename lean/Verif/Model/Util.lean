import Verif.Model.Bytes
/-!
# Model of fundu-core/src/util.rs and fundu-gnu/src/util.rs

`now` (fundu-gnu/src/util.rs:18-29) reads the system clock and is not modelled.
-/
namespace Fundu

/-- `lhs / rhs` on `i64` in Rust: truncates, panics for `rhs == 0` and on overflow (`i64::MIN / -1`) -/
def divI64 (a b : Int) : Except Panic Int :=
  if b = 0 then .error .overflow else arithI64 (a.tdiv b)

/-- `lhs % rhs` on `i64` in Rust: sign of the dividend, panics for `rhs == 0` and for `i64::MIN % -1` -/
def remI64 (a b : Int) : Except Panic Int :=
  if b = 0 then .error .overflow
  else if a = I64_MIN ∧ b = -1 then .error .overflow
  else .ok (a.tmod b)

/-- gnu/util.rs:8-16 `floor_div` -/
def floorDiv (lhs rhs : Int) : Except Panic Int := do
  let d ← divI64 lhs rhs
  let r ← remI64 lhs rhs
  if (0 < r ∧ rhs < 0) ∨ (r < 0 ∧ 0 < rhs) then arithI64 (d - 1) else return d

/-! ## Logarithms -/

/-- `u64::leading_zeros`, the first argument is the number of bits to look at (64) -/
def leadingZeros : Nat → Nat → Nat
  | 0, _ => 0
  | k + 1, n => if n.testBit k then 0 else 1 + leadingZeros k n

/-- core/util.rs:59-66 `FloorLog2::floor_log2` -/
def floorLog2 (n : Nat) : Except Panic Nat :=
  unwrap (if leadingZeros 64 n ≤ 63 then some (63 - leadingZeros 64 n) else none)

/-- core/util.rs:43-47 `GUESS_TABLE` -/
def GUESS_TABLE : List Nat := [
  0, 0, 0, 0, 1, 1, 1, 2, 2, 2, 3, 3, 3, 3, 4, 4, 4, 5, 5, 5, 6, 6, 6, 6, 7, 7, 7, 8, 8,
  8, 9, 9, 9, 9, 10, 10, 10, 11, 11, 11, 12, 12, 12, 12, 13, 13, 13, 14, 14, 14, 15, 15,
  15, 15, 16, 16, 16, 17, 17, 17, 18, 18, 18, 18]

/-- `GUESS_TABLE[i]`: panics out of bounds -/
def guess (i : Nat) : Except Panic Nat :=
  match GUESS_TABLE[i]? with
  | some g => .ok g
  | none => .error .index

/-- core/util.rs:39-57 `FloorLog10::floor_log10` -/
def floorLog10 (n : Nat) : Except Panic Nat := do
  let estimate ← guess (← floorLog2 n)
  if (← pow10Index (estimate + 1)) ≤ n then return estimate + 1 else return estimate

/-! ## trim_whitespace -/

/-- the test `byte == &b' ' || byte.wrapping_sub(9) < 5`, gnu/util.rs:36 and 43 -/
def isPosixSpace (b : UInt8) : Bool := b = 32 || decide ((b - 9).toNat < 5)

/-- the loops of gnu/util.rs:34-47 `trim_whitespace`: the first loop drops from the front, the second loop (here
on the reversed list) from the back. systemd/lib.rs:782-796 is identical. -/
def trimWhitespaceBytes (source : Bytes) : Bytes :=
  ((source.dropWhile isPosixSpace).reverse.dropWhile isPosixSpace).reverse

/-- gnu/util.rs:33-50 and systemd/lib.rs:781-799 `trim_whitespace`, with the contract of
`from_utf8_unchecked` -/
def trimWhitespace (source : Bytes) : R Bytes := utf8Unchecked (trimWhitespaceBytes source)

end Fundu
