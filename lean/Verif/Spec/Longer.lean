import Verif.Spec.Lengths
import Verif.Spec.Grammar
/-!
# Specification: the same words with longer units
-/
namespace Fundu.Spec

/-- neither the coefficient nor the exponent is larger than that of the other multiplier, signs aside -/
def Shorter (m m' : Multiplier) : Prop := |m.coefficient| ≤ |m'.coefficient| ∧ m.exponent ≤ m'.exponent

instance (m m' : Multiplier) : Decidable (Shorter m m') := by unfold Shorter; infer_instance

/-- the two tables of time units or keywords know the same words, and what a word stands for in the second table is at least as
long as what it stands for in the first. The multiplier whose sign cannot be changed by `ago` is excluded. -/
structure ShorterTable (t t' : TimeUnitsLike) : Prop where
  words : SameWords t t'
  shorter : ∀ w u m u' m', t.get w = some (u, m) → t'.get w = some (u', m') →
    Shorter (product u.multiplier m) (product u'.multiplier m')
  ago : ∀ w u m, t'.get w = some (u, m) → m.coefficient ≠ -2 ^ 63

/-- the two tables of numerals know the same words, and the numbers of the second are at least as large, signs aside -/
def ShorterNumbers (n n' : NumbersLike) : Prop :=
  SameNumberWords n n' ∧ ∀ w q q', n w = some q → n' w = some q' → Shorter q q'

end Fundu.Spec
