import Verif.Conformance.Basic
/-! Generated by tools/conformance.py from fundu/src/custom/mod.rs: 8 cases. -/
namespace Fundu.Conformance.CustomNumerals

def last : Numeral := ⟨[b! "last"], ⟨-1, 0⟩⟩

/-- fundu/src/custom/mod.rs:133 `test_numerals_with_valid_numerals`: 3 cases -/
example : ([
  ((b! "last"), ⟨-1, 0⟩),
  ((b! "this"), ⟨0, 0⟩),
  ((b! "next"), ⟨1, 0⟩)] : List (Bytes × Multiplier)).all
    (fun (s, m) => numeralsGet [last, ⟨[b! "this"], ⟨0, 0⟩⟩, ⟨[b! "next"], ⟨1, 0⟩⟩] s = some m) = true := by decide +kernel

/-- fundu/src/custom/mod.rs:151 `test_numerals_with_invalid_numerals`: 5 cases -/
example : ([
  (b! ""),
  (b! "las"),
  (b! "lasts"),
  (b! "Last"),
  (b! "LAST")] : List Bytes).all
    (fun s => numeralsGet [last] s = none) = true := by decide +kernel

end Fundu.Conformance.CustomNumerals
