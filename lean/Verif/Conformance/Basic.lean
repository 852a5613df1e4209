import Verif.Model.Gnu
import Verif.Model.Systemd
import Verif.Model.Custom
import Verif.Model.Standard
import Verif.Model.Message
/-!
# Comparing the model with the test suite of the project

The files in `Verif/Conformance` are generated by `tools/conformance.py` from the test cases in `/repo`.  They are *tests of
the model*, not proofs of properties: every case of the project's own test suite, with the inputs and the expected results
written there, is evaluated in the model by Lean's kernel.  The functions here compare a result of the model with an expected
result the way `assert_eq!` does in Rust: durations by `PartialEq for Duration`, errors by their variant, position and text.
-/
namespace Fundu.Conformance

/-- A `ParseError` as a test writes it down: with the text of the message instead of the reason -/
inductive Err where
  | syntax (position : Nat) (text : Bytes)
  | overflow
  | timeUnit (position : Nat) (text : Bytes)
  | negativeExponentOverflow
  | positiveExponentOverflow
  | negativeNumber
  | invalidInput (text : Bytes)
  | empty
  deriving DecidableEq

/-- The error as a test sees it -/
def errOf : ParseError → Err
  | .syntax p r => .syntax p r.message
  | .overflow => .overflow
  | .timeUnit p r => .timeUnit p r.message
  | .negativeExponentOverflow => .negativeExponentOverflow
  | .positiveExponentOverflow => .positiveExponentOverflow
  | .negativeNumber => .negativeNumber
  | .invalidInput r => .invalidInput r.message
  | .empty => .empty

/-- `assert_eq!(result, Ok(expected))` -/
def okIs (r : R Duration) (d : Duration) : Bool := match r with | .ok x => x.eq d | _ => false

/-- `assert_eq!(result, Err(expected))` -/
def errIs {α} (r : R α) (e : Err) : Bool := match r with | .error (.err x) => errOf x = e | _ => false

/-- `assert!(result.is_err())` -/
def isErr {α} (r : R α) : Bool := match r with | .error (.err _) => true | _ => false

/-- `#[should_panic]` -/
def panics {α} (r : R α) : Bool := match r with | .error (.panic _) => true | _ => false

/-- `assert_eq!(result, expected)` for an `expected` of type `Result<Duration, ParseError>` -/
def resultIs (r : R Duration) : Except Err Duration → Bool
  | .ok d => okIs r d
  | .error e => errIs r e

/-- `assert_eq!(result, Ok(expected))` with derived equality -/
def valIs {α} [DecidableEq α] (r : R α) (v : α) : Bool := match r with | .ok x => x = v | _ => false

/-- `assert_eq!(result, Ok((years, months, duration)))` -/
def fuzzyIs (r : R (Int × Int × Duration)) (v : Int × Int × Duration) : Bool :=
  match r with | .ok x => x.1 = v.1 && x.2.1 = v.2.1 && x.2.2.eq v.2.2 | _ => false

/-- `assert_eq!(value, expected)` for a value that is not a `Result` (a panic is a failure) -/
def pureIs {α} [DecidableEq α] (r : Except Panic α) (v : α) : Bool := match r with | .ok x => x = v | _ => false

/-- `assert_eq!(value, expected)` for a `Duration` -/
def durIs (r : Except Panic Duration) (v : Duration) : Bool := match r with | .ok x => x.eq v | _ => false

/-- `assert_eq!(value, Some(expected))` for a `Duration` -/
def someDurIs (r : Except Panic (Option Duration)) (v : Duration) : Bool :=
  match r with | .ok (some x) => x.eq v | _ => false

/-- `assert_eq!((number, duration), expected)` -/
def numDurIs (r : Except Panic (Int × Duration)) (n : Int) (v : Duration) : Bool :=
  match r with | .ok x => x.1 = n && x.2.eq v | _ => false

/-- The call panics -/
def purePanics {α} (r : Except Panic α) : Bool := match r with | .error _ => true | _ => false

/-- The value of a call that must not panic -/
def get {α} [Inhabited α] (r : Except Panic α) : α := match r with | .ok x => x | _ => default

/-- `unwrap` of a result that must be `Ok` -/
def getR {α} [Inhabited α] (r : R α) : α := match r with | .ok x => x | _ => default

/-- `assert_eq!(result.unwrap_err().to_string(), expected)` -/
def errDisplays {α} (r : R α) (text : Bytes) : Bool := match r with | .error (.err x) => decide (x.display = text) | _ => false

/-- `assert_eq!(result, Ok(expected))` or `Err(expected)` for a conversion -/
def convIs (r : Except TryFromDurationError StdDuration) (v : Except TryFromDurationError StdDuration) : Bool :=
  match r, v with
  | .ok x, .ok y => decide (x = y)
  | .error x, .error y => decide (x = y)
  | _, _ => false

-- values which no test expects
instance : Inhabited StdDuration := ⟨⟨987654321, 987654321⟩⟩
instance : Inhabited Duration := ⟨⟨true, default⟩⟩
instance : Inhabited CustomTimeUnit := ⟨⟨.second, ⟨1, 0⟩, []⟩⟩
instance : Inhabited TimeKeyword := ⟨⟨default⟩⟩
instance : Inhabited TimeDuration := ⟨⟨0, 0⟩⟩
instance : Inhabited DateTime := ⟨⟨0, 0⟩⟩

end Fundu.Conformance
