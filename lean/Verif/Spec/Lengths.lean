import Verif.Model.Config
/-!
# Specification: the same words with other lengths
-/
namespace Fundu.Spec

/-- two tables of time units or keywords know the same words, whatever the words stand for -/
structure SameWords (t t' : TimeUnitsLike) : Prop where
  empty : t'.isEmpty = t.isEmpty
  words : ∀ w, (t'.get w).isSome = (t.get w).isSome

/-- two tables of numerals know the same words -/
def SameNumberWords (n n' : NumbersLike) : Prop := ∀ w, (n' w).isSome = (n w).isSome

/-- no word of the table has a negative multiplier -/
def NonnegativeTable (t : TimeUnitsLike) : Prop := ∀ id u m, t.get id = some (u, m) → 0 ≤ m.coefficient

end Fundu.Spec
