import Verif.Props.Phrases
import Verif.Model.Gnu
import Verif.Model.Systemd
/-!
# Witnesses of the findings in DESIGN.md which are no theorems elsewhere

Each example is the behaviour of the model on a text, evaluated by the kernel.
-/
namespace Fundu.Props
open Fundu Fundu.Spec

/-- a custom parser after some calls -/
def customAfter (calls : List CustomCall) : CustomDurationParser := calls.foldl callCustomSetter CustomDurationParser.new

/-- F3: a negative number which is zero in nanoseconds is an error -/
example : DurationParser.new.parse (b! "-1e-10") = fail .negativeNumber ∧ DurationParser.new.parse (b! "1e-10") = .ok ⟨false, ⟨0, 0⟩⟩ := by
  decide +kernel

/-- F6: an identifier which starts with `e` cannot be read directly behind digits, even if exponents are disabled; with white space
in between it can -/
example :
    (customAfter [.timeUnit ⟨.year, ⟨1000, 0⟩, [b! "era"]⟩]).parse (b! "1era") = fail (.syntax 2 .exponentWithoutDigit) ∧
    (customAfter [.timeUnit ⟨.year, ⟨1000, 0⟩, [b! "era"]⟩, .option .disableExponent]).parse (b! "1era") =
      fail (.syntax 1 .noExponentAllowed) ∧
    (customAfter [.timeUnit ⟨.year, ⟨1000, 0⟩, [b! "era"]⟩, .option .allowTimeUnitDelimiter]).parse (b! "1 era") =
      .ok ⟨false, ⟨31557600000, 0⟩⟩ := by decide +kernel

/-- F6: an identifier which starts with `inf` cannot be read alone, but behind a number -/
example :
    (customAfter [.timeUnit ⟨.year, ⟨1000, 0⟩, [b! "info"]⟩, .option .numberIsOptional]).parse (b! "info") =
      fail (.syntax 3 (.infinityInvalidCharacter 111)) ∧
    (customAfter [.timeUnit ⟨.year, ⟨1000, 0⟩, [b! "info"]⟩, .option .numberIsOptional]).parse (b! "1info") =
      .ok ⟨false, ⟨31557600000, 0⟩⟩ := by decide +kernel

/-- F7: allowing white space in front of time units makes a text with a conjunction an error -/
example :
    (customAfter [.timeUnit ⟨.second, ⟨1, 0⟩, [b! "s"]⟩, .option (.parseMultiple (some [b! "and"]))]).parse (b! "1 and 2") =
      .ok ⟨false, ⟨3, 0⟩⟩ ∧
    (customAfter [.timeUnit ⟨.second, ⟨1, 0⟩, [b! "s"]⟩, .option .allowTimeUnitDelimiter,
      .option (.parseMultiple (some [b! "and"]))]).parse (b! "1 and 2") = fail (.invalidInput (.text (b! "and 2"))) := by decide +kernel

/-- F8: the first conjunction which is a prefix of the text counts -/
example :
    (customAfter [.timeUnit ⟨.second, ⟨1, 0⟩, [b! "s"]⟩, .option (.parseMultiple (some [b! "a", b! "and"]))]).parse (b! "1s and 2s") =
      fail (.syntax 4 (.conjunctionNotSeparated 110)) ∧
    (customAfter [.timeUnit ⟨.second, ⟨1, 0⟩, [b! "s"]⟩, .option (.parseMultiple (some [b! "and", b! "a"]))]).parse (b! "1s and 2s") =
      .ok ⟨false, ⟨3, 0⟩⟩ := by decide +kernel

/-- F16: two numbers, and a number and a keyword, without anything in between; a numeral behind a number -/
example :
    (customAfter [.option (.parseMultiple none)]).parse (b! "1.5.5") = .ok ⟨false, ⟨2, 0⟩⟩ ∧
    (customAfter [.keyword ⟨⟨.day, ⟨-1, 0⟩, [b! "yesterday"]⟩⟩, .option .allowNegative, .option (.parseMultiple none)]).parse
      (b! "1yesterday") = .ok ⟨true, ⟨86399, 0⟩⟩ ∧
    Gnu.parseFuzzy (b! "1eighth day") = fail (.syntax 1 .noExponentAllowed) ∧
    Gnu.parseFuzzy (b! "eighth day") = .ok (0, 0, ⟨false, ⟨691200, 0⟩⟩) := by decide +kernel

/-- F18: the constructors accept coefficients up to `i64::MAX / 60` for minutes and panic above, also below `u64::MAX / 60` -/
example : (CustomTimeUnit.new .minute [b! "m"] (some ⟨9223372036854775807 / 60, 0⟩)).toOption.isSome = true ∧
    (CustomTimeUnit.new .minute [b! "m"] (some ⟨9223372036854775807 / 60 + 1, 0⟩)).toOption.isSome = false ∧
    9223372036854775807 / 60 + 1 < 18446744073709551615 / 60 := by decide +kernel

/-- F20: white space in front of a duration is reported as invalid input -/
example : DurationParser.new.parse (b! " 1s") = fail (.invalidInput (.text (b! " 1s"))) := by decide +kernel

/-- F21: the position is the one in the text without white space in front: not 3 -/
example : Gnu.parseFuzzy (b! "  -") = fail (.syntax 1 .signWithoutNumber) := by decide +kernel

end Fundu.Props
