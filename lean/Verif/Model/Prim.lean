/-!
# Primitive operations of Rust used by the model

Machine integers are `Nat`/`Int` with explicit ranges. Everything in this file models the semantics of
the Rust language and core library (debug build: arithmetic overflow panics), not code in /repo.
-/
namespace Fundu

/-- Why a Rust program would stop, or leave defined behaviour. Every `unsafe` block of
fundu-core/src/parse.rs has its contract modelled as one of `utf8`, `read8`. -/
inductive Panic where
  /-- arithmetic overflow in `+ - *`, unary `-`, or division by zero -/
  | overflow
  /-- slice index or slice range out of bounds -/
  | index
  /-- `unwrap`/`expect` on `None`/`Err` -/
  | unwrap
  /-- `unreachable!()` -/
  | unreachable
  /-- `debug_assert!`/`assert!` failed -/
  | assert
  /-- `from_utf8_unchecked` called with bytes that are not valid UTF-8 (undefined behaviour) -/
  | utf8
  /-- unaligned 8 byte read which is not in bounds (undefined behaviour) -/
  | read8
  /-- not a Rust panic: the model's loop fuel ran out (shown never to happen) -/
  | fuel
  deriving DecidableEq, Repr

/-- Byte string literal: `b! "ns"` is the list of the bytes of the (ASCII) literal. -/
syntax "b!" str : term
macro_rules
  | `(b! $s:str) => do
    let bytes := s.getString.toUTF8.toList
    let elems ← bytes.toArray.mapM fun b => `(($(Lean.quote b.toNat) : UInt8))
    `(([$elems,*] : List UInt8))

/-- The bytes of a source string. -/
abbrev Bytes := List UInt8

/-- largest `u64` -/
def U64_MAX : Nat := 18446744073709551615
/-- largest `i64` -/
def I64_MAX : Int := 9223372036854775807
/-- smallest `i64` -/
def I64_MIN : Int := -9223372036854775808
/-- largest `i16` -/
def I16_MAX : Int := 32767
/-- smallest `i16` -/
def I16_MIN : Int := -32768
/-- largest `i32` -/
def I32_MAX : Int := 2147483647
/-- smallest `i32` -/
def I32_MIN : Int := -2147483648
/-- largest `i128` -/
def I128_MAX : Int := 170141183460469231731687303715884105727
/-- smallest `i128` -/
def I128_MIN : Int := -170141183460469231731687303715884105728
/-- largest `u32` -/
def U32_MAX : Nat := 4294967295

/-- the values of type `i64` -/
def IsI64 (x : Int) : Prop := I64_MIN ≤ x ∧ x ≤ I64_MAX
instance (x : Int) : Decidable (IsI64 x) := by unfold IsI64; infer_instance
/-- the values of type `i16` -/
def IsI16 (x : Int) : Prop := I16_MIN ≤ x ∧ x ≤ I16_MAX
instance (x : Int) : Decidable (IsI16 x) := by unfold IsI16; infer_instance
/-- the values of type `i32` -/
def IsI32 (x : Int) : Prop := I32_MIN ≤ x ∧ x ≤ I32_MAX
instance (x : Int) : Decidable (IsI32 x) := by unfold IsI32; infer_instance
/-- the values of type `i128` -/
def IsI128 (x : Int) : Prop := I128_MIN ≤ x ∧ x ≤ I128_MAX
instance (x : Int) : Decidable (IsI128 x) := by unfold IsI128; infer_instance

/-- `i64::checked_*`: the mathematical result if it is an `i64` -/
def checkedI64 (x : Int) : Option Int := if IsI64 x then some x else none
/-- `i16::checked_*` -/
def checkedI16 (x : Int) : Option Int := if IsI16 x then some x else none
/-- `u64::checked_*` for results which cannot be negative -/
def checkedU64 (x : Nat) : Option Nat := if x ≤ U64_MAX then some x else none

/-- plain `i64` arithmetic in a debug build: panics on overflow -/
def arithI64 (x : Int) : Except Panic Int := if IsI64 x then .ok x else .error .overflow
/-- plain `i32` arithmetic in a debug build -/
def arithI32 (x : Int) : Except Panic Int := if IsI32 x then .ok x else .error .overflow
/-- plain `i128` arithmetic in a debug build -/
def arithI128 (x : Int) : Except Panic Int := if IsI128 x then .ok x else .error .overflow
/-- plain `u64` arithmetic in a debug build (result given as an integer, so that subtraction can be
negative) -/
def arithU64 (x : Int) : Except Panic Nat :=
  if 0 ≤ x ∧ x ≤ (U64_MAX : Int) then .ok x.toNat else .error .overflow

/-- `x as i64` for an integer `x` (two's complement wrap around) -/
def asI64 (x : Int) : Int := (x + 9223372036854775808) % 18446744073709551616 - 9223372036854775808
/-- `x as i32` -/
def asI32 (x : Int) : Int := (x + 2147483648) % 4294967296 - 2147483648
/-- `i64::saturating_neg` -/
def saturatingNegI64 (x : Int) : Int := if x = I64_MIN then I64_MAX else -x

/-- `Option::unwrap`/`expect` -/
def unwrap {α} : Option α → Except Panic α
  | some a => .ok a
  | none => .error .unwrap

/-- `debug_assert!`/`assert!` -/
def assert (b : Bool) : Except Panic Unit := if b then .ok () else .error .assert

end Fundu
