import Verif.Model.Config
/-!
# Specification: the same error at another place
-/
namespace Fundu.Spec

/-- the same error `n` bytes further in the text; errors without a position stay what they are -/
def movedBy (n : Nat) : ParseError → ParseError
  | .syntax pos reason => .syntax (pos + n) reason
  | .timeUnit pos reason => .timeUnit (pos + n) reason
  | e => e

end Fundu.Spec
