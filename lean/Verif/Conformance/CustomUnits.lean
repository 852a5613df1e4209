import Verif.Conformance.Basic
/-! Generated by tools/conformance.py from fundu/src/custom/time_units.rs: 41 cases. -/
namespace Fundu.Conformance.CustomUnits

/-- `CustomTimeUnits::lookup` -/
def lookup (t : CustomTimeUnits) (u : TimeUnit) (m : Multiplier) : Option (LookupData × List Bytes) :=
  t.timeUnits.find? fun e => e.1.timeUnit = u && e.1.multiplier = m
def unit (u : TimeUnit) (ids : List Bytes) (m : Int) : CustomTimeUnit := get (CustomTimeUnit.new u ids (some ⟨m, 0⟩))
def add (l : List CustomTimeUnit) : CustomTimeUnits := l.foldl (·.addCustomTimeUnit ·) CustomTimeUnits.new

/-- fundu/src/custom/time_units.rs:478 `test_custom_time_units_init_new` -/
example : (CustomTimeUnits.new.isEmpty) = true := by decide +kernel

/-- fundu/src/custom/time_units.rs:543 `test_custom_time_units_init_with_time_units`: 20 cases -/
example : ([
  ((CustomTimeUnit.withDefault .nanoSecond [(b! "some")]), 4, 4),
  ((CustomTimeUnit.withDefault .nanoSecond [(b! "some"), (b! "other"), (b! "деякі")]), 4, 10),
  ((CustomTimeUnit.withDefault .microSecond [(b! "some")]), 4, 4),
  ((CustomTimeUnit.withDefault .microSecond [(b! "some"), (b! "other"), (b! "деякі")]), 4, 10),
  ((CustomTimeUnit.withDefault .milliSecond [(b! "some")]), 4, 4),
  ((CustomTimeUnit.withDefault .milliSecond [(b! "some"), (b! "other"), (b! "деякі")]), 4, 10),
  ((CustomTimeUnit.withDefault .second [(b! "some")]), 4, 4),
  ((CustomTimeUnit.withDefault .second [(b! "some"), (b! "other"), (b! "деякі")]), 4, 10),
  ((CustomTimeUnit.withDefault .minute [(b! "some")]), 4, 4),
  ((CustomTimeUnit.withDefault .minute [(b! "some"), (b! "other"), (b! "деякі")]), 4, 10),
  ((CustomTimeUnit.withDefault .hour [(b! "some")]), 4, 4),
  ((CustomTimeUnit.withDefault .hour [(b! "some"), (b! "other"), (b! "деякі")]), 4, 10),
  ((CustomTimeUnit.withDefault .day [(b! "some")]), 4, 4),
  ((CustomTimeUnit.withDefault .day [(b! "some"), (b! "other"), (b! "деякі")]), 4, 10),
  ((CustomTimeUnit.withDefault .week [(b! "some")]), 4, 4),
  ((CustomTimeUnit.withDefault .week [(b! "some"), (b! "other"), (b! "деякі")]), 4, 10),
  ((CustomTimeUnit.withDefault .month [(b! "some")]), 4, 4),
  ((CustomTimeUnit.withDefault .month [(b! "some"), (b! "other"), (b! "деякі")]), 4, 10),
  ((CustomTimeUnit.withDefault .year [(b! "some")]), 4, 4),
  ((CustomTimeUnit.withDefault .year [(b! "some"), (b! "other"), (b! "деякі")]), 4, 10)] : List (CustomTimeUnit × Nat × Nat)).all
    (fun (u, lo, hi) => let c := CustomTimeUnits.withTimeUnits [u]; !c.isEmpty && lookup c u.baseUnit ⟨1, 0⟩ = some (⟨lo, hi, u.baseUnit, ⟨1, 0⟩⟩, u.identifiers)) = true := by decide +kernel

/-- fundu/src/custom/time_units.rs:563 `test_custom_time_units_init_with_time_units_when_multiple_equal_ids` -/
example : (let c := CustomTimeUnits.withTimeUnits [CustomTimeUnit.withDefault .nanoSecond [b! "same", b! "same"]]; !c.isEmpty && lookup c .nanoSecond ⟨1, 0⟩ = some (⟨4, 4, .nanoSecond, ⟨1, 0⟩⟩, [b! "same", b! "same"]) && c.get (b! "same") = some (.nanoSecond, ⟨1, 0⟩)) = true := by decide +kernel

/-- fundu/src/custom/time_units.rs:586 `test_custom_time_units_when_add_custom_time_unit` -/
example : (let c := add [CustomTimeUnit.withDefault .microSecond [b! "some", b! "ids"]]; (lookup c .microSecond ⟨1, 0⟩).map (·.2) = some [b! "some", b! "ids"] && c.get (b! "some") = some (.microSecond, ⟨1, 0⟩) && c.get (b! "ids") = some (.microSecond, ⟨1, 0⟩) && c.get (b! "does not exist") = none && !c.isEmpty) = true := by decide +kernel

/-- fundu/src/custom/time_units.rs:613 `test_custom_time_units_when_adding_time_unit_with_empty_slice_then_not_added` -/
example : (let c := add [CustomTimeUnit.withDefault .microSecond []]; c.isEmpty && lookup c .microSecond ⟨1, 0⟩ = none) = true := by decide +kernel

/-- fundu/src/custom/time_units.rs:621 `test_custom_time_units_when_adding_time_unit_with_empty_id_then_not_added` -/
example : (let c := add [CustomTimeUnit.withDefault .microSecond [b! ""]]; c.isEmpty && lookup c .microSecond ⟨1, 0⟩ = none) = true := by decide +kernel

/-- fundu/src/custom/time_units.rs:629 `test_custom_time_units_adding_custom_time_unit_with_empty_id_then_not_added` -/
example : ((add [unit .second [b! ""] 2]).isEmpty) = true := by decide +kernel

/-- fundu/src/custom/time_units.rs:636 `test_custom_time_units_adding_custom_time_unit` -/
example : (let c := add [unit .second [b! "sec"] 2]; !c.isEmpty && lookup c .second ⟨2, 0⟩ = some (⟨3, 3, .second, ⟨2, 0⟩⟩, [b! "sec"]) && c.get (b! "sec") = some (.second, ⟨2, 0⟩)) = true := by decide +kernel

/-- fundu/src/custom/time_units.rs:658 `test_custom_time_units_adding_multiple_custom_time_unit` -/
example : (let c := add [unit .second [b! "sec"] 1, unit .second [b! "secs"] 2]; lookup c .second ⟨1, 0⟩ = some (⟨3, 3, .second, ⟨1, 0⟩⟩, [b! "sec"]) && lookup c .second ⟨2, 0⟩ = some (⟨4, 4, .second, ⟨2, 0⟩⟩, [b! "secs"]) && c.get (b! "sec") = some (.second, ⟨1, 0⟩) && c.get (b! "secs") = some (.second, ⟨2, 0⟩)) = true := by decide +kernel

/-- fundu/src/custom/time_units.rs:695 `test_custom_time_units_adding_custom_time_unit_when_normal_time_unit_already_exists` -/
example : (let c := add [unit .second [b! "s"] 1, unit .second [b! "ss"] 2]; lookup c .second ⟨1, 0⟩ = some (⟨1, 1, .second, ⟨1, 0⟩⟩, [b! "s"]) && lookup c .second ⟨2, 0⟩ = some (⟨2, 2, .second, ⟨2, 0⟩⟩, [b! "ss"]) && c.get (b! "s") = some (.second, ⟨1, 0⟩) && c.get (b! "ss") = some (.second, ⟨2, 0⟩)) = true := by decide +kernel

/-- fundu/src/custom/time_units.rs:724 `test_custom_time_units_adding_custom_time_unit_when_normal_time_unit_with_same_id` -/
example : (let c := add [unit .second [b! "s"] 1, unit .second [b! "s"] 2]; lookup c .second ⟨1, 0⟩ = some (⟨1, 1, .second, ⟨1, 0⟩⟩, [b! "s"]) && lookup c .second ⟨2, 0⟩ = some (⟨1, 1, .second, ⟨2, 0⟩⟩, [b! "s"]) && c.get (b! "s") = some (.second, ⟨1, 0⟩)) = true := by decide +kernel

/-- fundu/src/custom/time_units.rs:752 `test_custom_time_units_adding_custom_time_unit_when_identifiers_is_empty` -/
example : (let c := add [unit .second [] 2]; c.isEmpty && lookup c .second ⟨2, 0⟩ = none) = true := by decide +kernel

/-- fundu/src/custom/time_units.rs:760 `test_custom_time_units_adding_custom_time_unit_when_adding_same_unit_twice` -/
example : (let c := add [unit .second [b! "s"] 2, unit .second [b! "s"] 2]; lookup c .second ⟨2, 0⟩ = some (⟨1, 1, .second, ⟨2, 0⟩⟩, [b! "s", b! "s"])) = true := by decide +kernel

/-- fundu/src/custom/time_units.rs:779 `test_custom_time_unit_new_when_overflow_then_panic` -/
example : (purePanics (CustomTimeUnit.new .year [b! "year"] (some ⟨I64_MAX, 0⟩))) = true := by decide +kernel

/-- fundu/src/custom/time_units.rs:796 `test_custom_time_unit_equality_when_equal`: 3 cases -/
example : ([
  ((get (CustomTimeUnit.new .second [(b! "s")] none)), (get (CustomTimeUnit.new .second [(b! "s")] (some ⟨1, 0⟩)))),
  ((get (CustomTimeUnit.new .second [(b! "s")] none)), (get (CustomTimeUnit.new .second [(b! "secs")] (some ⟨1, 0⟩)))),
  ((get (CustomTimeUnit.new .second [(b! "s")] (some ⟨2, 0⟩))), (get (CustomTimeUnit.new .second [(b! "secs")] (some ⟨2, 0⟩))))] : List (CustomTimeUnit × CustomTimeUnit)).all
    (fun (a, b) => a.eq b) = true := by decide +kernel

/-- fundu/src/custom/time_units.rs:812 `test_custom_time_unit_equality_when_not_equal`: 2 cases -/
example : ([
  ((get (CustomTimeUnit.new .milliSecond [(b! "ms")] (some ⟨1, 0⟩))), (get (CustomTimeUnit.new .second [(b! "ms")] (some ⟨1, 0⟩)))),
  ((get (CustomTimeUnit.new .milliSecond [(b! "ms")] (some ⟨1000, 0⟩))), (get (CustomTimeUnit.new .second [(b! "ms")] (some ⟨1, 0⟩))))] : List (CustomTimeUnit × CustomTimeUnit)).all
    (fun (a, b) => !a.eq b) = true := by decide +kernel

/-- fundu/src/custom/time_units.rs:832 `test_custom_time_unit_hash_when_equal`: 3 cases -/
example : ([
  ((get (CustomTimeUnit.new .second [(b! "some")] (some ⟨1, 0⟩))), (get (CustomTimeUnit.new .second [(b! "other")] (some ⟨1, 0⟩)))),
  ((get (CustomTimeUnit.new .day [(b! "some")] none)), (CustomTimeUnit.withDefault .day [(b! "other")])),
  ((get (CustomTimeUnit.new .day [(b! "some")] (some ⟨123, 4⟩))), (get (CustomTimeUnit.new .day [(b! "other")] (some ⟨123, 4⟩))))] : List (CustomTimeUnit × CustomTimeUnit)).all
    (fun (a, b) => a.eq b && b.eq a && a.hashData = b.hashData) = true := by decide +kernel

end Fundu.Conformance.CustomUnits
