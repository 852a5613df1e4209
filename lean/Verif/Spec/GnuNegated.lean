import Verif.Spec.Gnu
import Verif.Spec.Negated
/-!
# Specification: relative times with the opposite signs
-/
namespace Fundu.Spec

/-- `t` is the relative time `s` with the other sign in front of each of its parts. `r` is the text behind the sign of the first part,
`front` the first part with its sign and the white space behind it, and `rest` what follows. -/
inductive GnuOpposite : Bytes → Bytes → Prop
  | last {s neg r part t} : GnuSign s neg r → GnuText neg r part [] → OtherSign s t → GnuOpposite s t
  | more {s neg r part front rest rest' t} : GnuSign s neg r → GnuText neg r part rest → s = front ++ rest →
      GnuOpposite rest rest' → OtherSign (front ++ rest') t → GnuOpposite s t

/-- The numbers of months and years of the part lie strictly between the smallest and the largest `i64`. -/
def GnuPart.Inside : GnuPart → Prop
  | .exact _ => True
  | .months n => -2 ^ 63 < n ∧ n < 2 ^ 63 - 1
  | .years n => -2 ^ 63 < n ∧ n < 2 ^ 63 - 1

end Fundu.Spec
