import Verif.Conformance.Basic
/-! Generated by tools/conformance.py from fundu/src/standard/time_units.rs: 17 cases. -/
namespace Fundu.Conformance.StandardUnits

/-- fundu/src/standard/time_units.rs:134 `test_time_units_new` -/
example : (TimeUnits.new.isEmpty && TimeUnits.new.getTimeUnits = []) = true := by decide +kernel

/-- fundu/src/standard/time_units.rs:142 `test_time_units_with_default_time_units` -/
example : (!TimeUnits.withDefaultTimeUnits.isEmpty && TimeUnits.withDefaultTimeUnits.getTimeUnits = [.nanoSecond, .microSecond, .milliSecond, .second, .minute, .hour, .day, .week]) = true := by decide +kernel

/-- fundu/src/standard/time_units.rs:162 `test_time_units_with_all_time_units` -/
example : (!TimeUnits.withAllTimeUnits.isEmpty && TimeUnits.withAllTimeUnits.getTimeUnits = [.nanoSecond, .microSecond, .milliSecond, .second, .minute, .hour, .day, .week, .month, .year]) = true := by decide +kernel

/-- fundu/src/standard/time_units.rs:183 `test_time_units_with_time_units_when_single_unit` -/
example : ([TimeUnit.nanoSecond, .microSecond, .milliSecond, .second, .minute, .hour, .day, .week, .month, .year].all fun u => !(TimeUnits.withTimeUnits [u]).isEmpty && (TimeUnits.withTimeUnits [u]).data = (List.replicate 10 none).set u.index (some u)) = true := by decide +kernel

/-- fundu/src/standard/time_units.rs:207 `test_time_units_with_time_units_when_all_time_units` -/
example : ((TimeUnits.withTimeUnits [.nanoSecond, .microSecond, .milliSecond, .second, .minute, .hour, .day, .week, .month, .year]).data = [some .nanoSecond, some .microSecond, some .milliSecond, some .second, some .minute, some .hour, some .day, some .week, some .month, some .year]) = true := by decide +kernel

/-- fundu/src/standard/time_units.rs:237 `test_time_units_when_empty_then_return_true` -/
example : (TimeUnits.new.isEmpty) = true := by decide +kernel

/-- fundu/src/standard/time_units.rs:272 `test_time_units_get`: 10 cases -/
example : ([
  ((b! "ns"), (some (.nanoSecond, ⟨1, 0⟩))),
  ((b! "Ms"), (some (.microSecond, ⟨1, 0⟩))),
  ((b! "ms"), (some (.milliSecond, ⟨1, 0⟩))),
  ((b! "s"), (some (.second, ⟨1, 0⟩))),
  ((b! "m"), (some (.minute, ⟨1, 0⟩))),
  ((b! "h"), (some (.hour, ⟨1, 0⟩))),
  ((b! "d"), (some (.day, ⟨1, 0⟩))),
  ((b! "w"), (some (.week, ⟨1, 0⟩))),
  ((b! "M"), (some (.month, ⟨1, 0⟩))),
  ((b! "y"), (some (.year, ⟨1, 0⟩)))] : List (Bytes × Option (TimeUnit × Multiplier))).all
    (fun (s, o) => TimeUnits.withAllTimeUnits.get s = o && TimeUnits.new.get s = none) = true := by decide +kernel

/-- fundu/src/standard/time_units.rs:278 `test_time_units_get_time_units` -/
example : (TimeUnits.withAllTimeUnits.getTimeUnits = [.nanoSecond, .microSecond, .milliSecond, .second, .minute, .hour, .day, .week, .month, .year]) = true := by decide +kernel

end Fundu.Conformance.StandardUnits
