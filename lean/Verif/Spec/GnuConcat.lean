import Verif.Spec.Gnu
/-!
# Specification: relative times written one after the other
-/
namespace Fundu.Spec

/-- what a part adds to the years, months and nanoseconds -/
def GnuPart.total : GnuPart → GnuTotal
  | .exact x => ⟨0, 0, x⟩
  | .months n => ⟨0, n, 0⟩
  | .years n => ⟨n, 0, 0⟩

/-- the sum without any limits -/
def exactTotal (l : List GnuPart) : GnuTotal :=
  ⟨(l.map (·.total.years)).sum, (l.map (·.total.months)).sum, (l.map (·.total.nanoseconds)).sum⟩

/-- years and months fit into `i64`, and the nanoseconds into a duration -/
def GnuTotal.InRange (t : GnuTotal) : Prop := IsI64 t.years ∧ IsI64 t.months ∧ Representable t.nanoseconds

end Fundu.Spec
