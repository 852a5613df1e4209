import Verif.Spec.Number
import Verif.Model.Message
/-!
# Specification of the messages of errors
-/
namespace Fundu.Spec

/-- the kinds of errors as a user sees them: the kind, the position if there is one and the text of the reason -/
inductive ErrorView where
  | empty | overflow | negativeExponentOverflow | positiveExponentOverflow | negativeNumber
  | syntax (column : Nat) (reason : Bytes)
  | timeUnit (column : Nat) (reason : Bytes)
  | invalidInput (reason : Bytes)

/-- `ParseError` of the crate has texts as reasons -/
def view : ParseError → ErrorView
  | .empty => .empty
  | .overflow => .overflow
  | .negativeExponentOverflow => .negativeExponentOverflow
  | .positiveExponentOverflow => .positiveExponentOverflow
  | .negativeNumber => .negativeNumber
  | .syntax p r => .syntax p r.message
  | .timeUnit p r => .timeUnit p r.message
  | .invalidInput r => .invalidInput r.message

end Fundu.Spec
