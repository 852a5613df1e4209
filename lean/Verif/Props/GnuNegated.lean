import Verif.Proofs.GnuNegated
import Verif.Props.GnuConcat
/-!
# C91: the opposite of a relative time

The specification is `Verif/Spec/GnuNegated.lean`.
-/
namespace Fundu.Props
open Fundu Fundu.Spec Fundu.GnuNegated

/-- C91: With the other sign in front of each part, a relative time is a relative time with the negated number of nanoseconds, whatever
its size. -/
theorem C91_opposite (s t m m' : Bytes) (hs : IsText s) (ht : IsText t) (h1 : Trimmed s m) (h2 : Trimmed t m') (h : GnuOpposite m m') :
    ∃ y mo d y' mo' d', Gnu.parseFuzzy s = .ok (y, mo, d) ∧ Gnu.parseFuzzy t = .ok (y', mo', d') ∧ d.WF ∧ d'.WF ∧ nanos d' = -nanos d := by
  obtain ⟨l, l', g1, g2, g3⟩ := opposite_parts h
  obtain ⟨d, k1, k2, k3⟩ := (C60_parse_fuzzy s hs _ _ _).2 ⟨m, l, h1, g1, rfl⟩
  obtain ⟨d', k1', k2', k3'⟩ := (C60_parse_fuzzy t ht _ _ _).2 ⟨m', l', h2, g2, rfl⟩
  exact ⟨_, _, d, _, _, d', k1, k1', k2, k2', by rw [k3, k3']; exact GnuNegated.nanos_neg g3 ⟨0, 0, 0⟩ ⟨0, 0, 0⟩ rfl⟩

/-- C91: If no number of months or years is out of range, neither in a part nor in a partial sum, the years and months are negated,
too. -/
theorem C91_exact (s t m m' : Bytes) (l : List GnuPart) (hs : IsText s) (ht : IsText t) (h1 : Trimmed s m) (h2 : Trimmed t m')
    (hl : RelativeTime m l) (h : GnuOpposite m m') (hi : ∀ p ∈ l, p.Inside)
    (hr : ∀ k, k ≤ l.length → (exactTotal (l.take k)).InRange ∧ (exactTotal (l.take k)).years ≠ -2 ^ 63 ∧
      (exactTotal (l.take k)).months ≠ -2 ^ 63) :
    ∃ y mo d d', Gnu.parseFuzzy s = .ok (y, mo, d) ∧ Gnu.parseFuzzy t = .ok (-y, -mo, d') ∧ d.WF ∧ d'.WF ∧ nanos d' = -nanos d := by
  obtain ⟨l0, l', g1, g2, g3⟩ := opposite_parts h
  obtain rfl := Gnu.relative_unique hl g1
  obtain ⟨d, k1, k2, k3⟩ := C82_exact s m l hs h1 hl fun k hk => (hr k hk).1
  obtain ⟨d', k1', k2', k3'⟩ := C82_exact t m' l' ht h2 g2 (by
    intro k hk
    have hk' : k ≤ l.length := by rw [g3.length_eq]; exact hk
    have e := exactTotal_neg (List.forall₂_take k g3) fun p hp => hi p (List.mem_of_mem_take hp)
    obtain ⟨⟨a1, a2, a3⟩, a4, a5⟩ := hr k hk'
    rw [e]
    have key : ∀ x : Int, IsI64 x → x ≠ -2 ^ 63 → IsI64 (-x) := by
      intro x hx hne
      have h1 : -2 ^ 63 ≤ x := hx.1
      have h2 : x ≤ 2 ^ 63 - 1 := hx.2
      have b1 : -2 ^ 63 ≤ -x := by omega
      have b2 : -x ≤ 2 ^ 63 - 1 := by omega
      exact ⟨b1, b2⟩
    refine ⟨key _ a1 a4, key _ a2 a5, ?_⟩
    unfold Representable at *
    simp only
    omega)
  have e := exactTotal_neg g3 hi
  simp only [exactTotal, GnuTotal.mk.injEq] at e
  obtain ⟨e1, e2, e3⟩ := e
  rw [e1, e2] at k1'
  exact ⟨_, _, d, d', k1, k1', k2, k2', by rw [k3, k3', e3]⟩

/-- C91: every relative time which is accepted has an opposite. -/
theorem C91_exists (s : Bytes) (hs : IsText s) (y mo : Int) (d : Duration) (h : Gnu.parseFuzzy s = .ok (y, mo, d)) :
    ∃ m m', Trimmed s m ∧ GnuOpposite m m' := by
  rcases parseFuzzy_result s hs with ⟨t, l, d', g1, g2, -⟩ | ⟨g1, e, g2, -⟩
  · obtain ⟨m', hm⟩ := opposite_exists g2
    exact ⟨t, m', g1, hm⟩
  · rw [g2] at h; cases h

/-! ## Concrete cases -/

example : ∃ m m', Trimmed (b! " 2 months -next day tomorrow") m ∧ GnuOpposite m m' :=
  C91_exists (b! " 2 months -next day tomorrow") (isText_ascii (by decide)) 0 2 ⟨false, ⟨0, 0⟩⟩ (by decide +kernel)

example : Gnu.parseFuzzy (b! " 2 months -3 days 5") = .ok (0, 2, ⟨true, ⟨259195, 0⟩⟩) ∧
    Gnu.parseFuzzy (b! "-2 months +3 days -5") = .ok (0, -2, ⟨false, ⟨259195, 0⟩⟩) := by decide +kernel

/-- the conditions of `C91_exact` are met -/
example : ∃ y mo d d', Gnu.parseFuzzy (b! "2 months") = .ok (y, mo, d) ∧ Gnu.parseFuzzy (b! "-2 months") = .ok (-y, -mo, d') ∧ d.WF ∧ d'.WF ∧
    nanos d' = -nanos d := by
  have hsign : GnuSign (b! "2 months") false (b! "2 months") :=
    .absent (by rw [show b! "2 months" = 50 :: b! " months" from rfl, startsWith_cons]; decide)
  have htext : GnuText false (b! "2 months") (.months 2) [] :=
    .numberUnit (W := b! "2") (r := b! " months") (r' := b! "months") (len := .months) (ago := false)
        ⟨⟨rfl, by decide, by rw [show b! " months" = 32 :: b! "months" from rfl, startsWith_cons]; decide⟩, by decide,
          by rw [show b! " months" = 32 :: b! "months" from rfl, startsWith_cons]; decide⟩
        ⟨b! " ", rfl, by decide, by rw [show b! "months" = 109 :: b! "onths" from rfl, startsWith_cons]; decide⟩
        ⟨[], [], ⟨b! "months", ⟨rfl, by decide, not_startsWith_nil⟩, [b! "months", b! "month"], by decide, b! "months", by decide, rfl⟩,
          .absent (by
            rintro ⟨r, sp, r', ⟨g1, -⟩, g2, -⟩
            exact g2 (List.append_eq_nil_iff.1 g1.symm).1),
          ⟨[], split_nil not_startsWith_nil⟩, fun _ => rfl⟩
  have tr : ∀ s : Bytes, (∀ b ∈ s.head?, ¬ PosixSpace b) → (∀ b ∈ s.getLast?, ¬ PosixSpace b) → Trimmed s s :=
    fun s h1 h2 => ⟨[], [], by simp, by simp, by simp, h1, h2⟩
  refine C91_exact (b! "2 months") (b! "-2 months") _ _ [.months 2] (isText_ascii (by decide)) (isText_ascii (by decide))
    (tr _ (by decide) (by decide)) (tr _ (by decide) (by decide)) (.last hsign htext)
    (.last hsign htext (Or.inl ⟨by rw [show b! "2 months" = 50 :: b! " months" from rfl, startsWith_cons]; decide, rfl⟩)) ?_ ?_
  · intro p hp
    simp only [List.mem_singleton] at hp
    subst hp
    exact ⟨by decide, by decide⟩
  · intro k hk
    have : k = 0 ∨ k = 1 := by simp at hk; omega
    rcases this with rfl | rfl <;> exact ⟨⟨⟨by decide, by decide⟩, ⟨by decide, by decide⟩, ⟨by decide +kernel, by decide +kernel⟩⟩, by decide, by decide⟩

/-- the conditions on the months are necessary: there is one more negative than positive `i64` -/
example : Gnu.parseFuzzy (b! "9223372036854775808 months") = .ok (0, 9223372036854775807, ⟨false, ⟨0, 0⟩⟩) ∧
    Gnu.parseFuzzy (b! "-9223372036854775808 months") = .ok (0, -9223372036854775808, ⟨false, ⟨0, 0⟩⟩) := by decide +kernel

end Fundu.Props
