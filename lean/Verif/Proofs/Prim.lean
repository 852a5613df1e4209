import Verif.Model.Prim
/-! # Lemmas about the primitive operations -/
namespace Fundu

theorem isI64_iff (x : Int) :
    IsI64 x ↔ -9223372036854775808 ≤ x ∧ x ≤ 9223372036854775807 := Iff.rfl
theorem isI32_iff (x : Int) : IsI32 x ↔ -2147483648 ≤ x ∧ x ≤ 2147483647 := Iff.rfl
theorem isI16_iff (x : Int) : IsI16 x ↔ -32768 ≤ x ∧ x ≤ 32767 := Iff.rfl
theorem isI128_iff (x : Int) : IsI128 x ↔ -170141183460469231731687303715884105728 ≤ x ∧
    x ≤ 170141183460469231731687303715884105727 := Iff.rfl

theorem arithI64_ok {x : Int} (h1 : -9223372036854775808 ≤ x) (h2 : x ≤ 9223372036854775807) :
    arithI64 x = .ok x := if_pos ⟨h1, h2⟩
theorem arithI32_ok {x : Int} (h1 : -2147483648 ≤ x) (h2 : x ≤ 2147483647) :
    arithI32 x = .ok x := if_pos ⟨h1, h2⟩
theorem arithI128_ok {x : Int} (h1 : -170141183460469231731687303715884105728 ≤ x)
    (h2 : x ≤ 170141183460469231731687303715884105727) : arithI128 x = .ok x := if_pos ⟨h1, h2⟩
theorem checkedI64_some {x : Int} (h1 : -9223372036854775808 ≤ x) (h2 : x ≤ 9223372036854775807) :
    checkedI64 x = some x := if_pos ⟨h1, h2⟩
theorem asI64_eq {x : Int} (h1 : -9223372036854775808 ≤ x) (h2 : x ≤ 9223372036854775807) :
    asI64 x = x := by unfold asI64; omega
theorem asI32_eq {x : Int} (h1 : -2147483648 ≤ x) (h2 : x ≤ 2147483647) :
    asI32 x = x := by unfold asI32; omega

end Fundu

namespace Fundu

-- These hold by `rfl`; they are stated with `id rfl` so that `simp` keeps them as proof steps instead of
-- asking the kernel to find the (possibly huge) definitional unfolding.
theorem ok_bind {ε α β} (a : α) (f : α → Except ε β) : (Except.ok a >>= f) = f a := id rfl
theorem error_bind {ε α β} (e : ε) (f : α → Except ε β) :
    ((Except.error e : Except ε α) >>= f) = .error e := id rfl
theorem ok_pure {ε α} (a : α) : (pure a : Except ε α) = .ok a := id rfl
theorem some_bind {α β} (a : α) (f : α → Option β) : (some a >>= f) = f a := id rfl
theorem none_bind {α β} (f : α → Option β) : ((none : Option α) >>= f) = none := id rfl
theorem some_pure {α} (a : α) : (pure a : Option α) = some a := id rfl

end Fundu
