import Verif.Conformance.Basic
/-! Generated by tools/conformance.py from fundu-core/src/util.rs: 6 cases. -/
namespace Fundu.Conformance.Util

/-- fundu-core/src/util.rs:72 `test_floor_log2_for_u64_at_critical_margins` -/
example : ((List.range 63).all fun i => pureIs (floorLog2 (2 ^ i)) i && (i = 0 || pureIs (floorLog2 (2 ^ i - 1)) (i - 1) && pureIs (floorLog2 (2 ^ i + 1)) i)) = true := by decide +kernel

/-- fundu-core/src/util.rs:83 `test_floor_log2_for_u64_when_u64_max` -/
example : (pureIs (floorLog2 U64_MAX) 63) = true := by decide +kernel

/-- fundu-core/src/util.rs:89 `test_floor_log2_for_u64_when_zero` -/
example : (purePanics (floorLog2 0)) = true := by decide +kernel

/-- fundu-core/src/util.rs:94 `test_floor_log10_for_u64_at_critical_margins` -/
example : ((List.range 19).all fun i => pureIs (floorLog10 (10 ^ i)) i && (i = 0 || pureIs (floorLog10 (10 ^ i - 1)) (i - 1)) && pureIs (floorLog10 (10 ^ i + 1)) i) = true := by decide +kernel

/-- fundu-core/src/util.rs:106 `test_floor_log10_for_u64_when_u64_max` -/
example : (pureIs (floorLog10 U64_MAX) 19) = true := by decide +kernel

/-- fundu-core/src/util.rs:112 `test_floor_log10_for_u64_when_zero` -/
example : (purePanics (floorLog10 0)) = true := by decide +kernel

end Fundu.Conformance.Util
