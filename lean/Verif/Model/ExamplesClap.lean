import Verif.Model.Standard
import Verif.Model.Gnu
/-!
# The remaining example programs

Sources: /repo/fundu/examples/{simple,clap_builder,clap_derive}.rs and /repo/fundu-gnu/examples/chrono.rs. Command lines (clap) are not
modelled, the arguments are given. Printing with `{:?}` is not modelled, the results are the printed values.
-/
namespace Fundu.Examples

/-- `Result::unwrap` of the result of a parser: an error is a panic -/
def unwrapParsed (r : R Duration) : R Duration :=
  match r with
  | .error (.err _) => panic .unwrap
  | r => r

/-! ## fundu/examples/simple.rs -/
namespace Simple

/-- examples/simple.rs:8-15 `main`: `assert_eq!` panics if the durations differ -/
def main : R Unit := do
  let duration ← unwrapParsed ((DurationParser.withTimeUnits [.year]).parse (b! "100y"))
  let expected ← liftP (Duration.positive 3155760000 0)
  if duration.eq expected then return () else panic .assert

end Simple

/-! ## fundu/examples/clap_builder.rs and clap_derive.rs -/
namespace Clap

/-- examples/clap_builder.rs:9-30 and examples/clap_derive.rs:23-40 `main`: the printed duration for the first and the optional
second argument -/
def main (first : Bytes) (second : Option Bytes) : R Duration :=
  match second with
  | some second => do
    let first ← unwrapParsed (DurationParser.new.parse first)
    let second ← unwrapParsed (DurationParser.new.parse second)
    liftP (first.saturatingAdd second)
  | none => unwrapParsed (DurationParser.new.parse first)

end Clap

/-! ## fundu-gnu/examples/chrono.rs -/
namespace Chrono

/-- the seconds printed in gnu/examples/chrono.rs:35-50 -/
structure Output where
  saturating : Int
  exact : Except TryFromDurationError Int

/-- `num_seconds` of the converted duration, or the error -/
def secondsOf : Except TryFromDurationError ChronoDuration → Except TryFromDurationError Int
  | .ok c => .ok c.numSeconds
  | .error e => .error e

/-- gnu/examples/chrono.rs:29-54 `main` for the given argument; `now` is the current time -/
def main (now : DateTime) (input : Bytes) : R Output := do
  let duration ← Gnu.parse now input
  let saturating ← liftP duration.saturatingToChrono
  let converted ← liftP duration.toChrono
  return ⟨saturating.numSeconds, secondsOf converted⟩

end Chrono
end Fundu.Examples
