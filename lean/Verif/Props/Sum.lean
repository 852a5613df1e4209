import Verif.Props.Grammar
/-!
# Property C29: the sum of multiple durations
-/
namespace Fundu.Props
open Fundu Fundu.Spec

theorem foldl_exact (l : List Int) (acc : Int) (h : ∀ k, k ≤ l.length → Representable (acc + (l.take k).sum)) :
    l.foldl (fun a x => clamp (a + x)) acc = acc + l.sum := by
  induction l generalizing acc with
  | nil => simp
  | cons x l ih =>
    have h1 := h 1 (by simp)
    simp only [List.take_succ_cons, List.take_zero, List.sum_cons, List.sum_nil, Int.add_zero] at h1
    have hx : clamp (acc + x) = acc + x := by
      unfold clamp; unfold Representable at h1; omega
    rw [List.foldl_cons, hx, ih]
    · rw [List.sum_cons, Int.add_assoc]
    · intro k hk
      have := h (k + 1) (by simpa using hk)
      rw [List.take_succ_cons, List.sum_cons] at this
      rwa [Int.add_assoc]

theorem foldl_nonneg (l : List Int) (acc : Int) (h0 : 0 ≤ acc) (hm : acc ≤ maxNanos) (h : ∀ x ∈ l, 0 ≤ x) :
    l.foldl (fun a x => clamp (a + x)) acc = min maxNanos (acc + l.sum) := by
  induction l generalizing acc with
  | nil => simp [min_eq_right hm]
  | cons x l ih =>
    have hx := h x (by simp)
    have hs : 0 ≤ l.sum := by
      have hl : ∀ y ∈ l, 0 ≤ y := fun y hy => h y (by simp [hy])
      clear ih h
      induction l with
      | nil => simp
      | cons y l ih =>
        have h1 := hl y (by simp)
        have h2 := ih (fun z hz => hl z (by simp [hz]))
        rw [List.sum_cons]
        omega
    have hM : (0 : Int) < maxNanos := by decide
    have hc : clamp (acc + x) = min maxNanos (acc + x) := by unfold clamp; omega
    rw [List.foldl_cons, hc, ih _ (by omega) (by omega) (fun y hy => h y (by simp [hy])), List.sum_cons]
    omega

section
variable (cfg : Config) (units : TimeUnitsLike) (keywords : Option TimeUnitsLike) (numerals : Option NumbersLike)
variable (s : Bytes) (hs : IsText s) (hc : CfgText cfg) (hm : cfg.allowMultiple = true)
  (hd : (∀ b, cfg.innerDelimiter b = true → cfg.outerDelimiter b = true) ∨ (keywords = none ∧ numerals = none))

include hs hc hm hd

/-- C29: what is accepted is a sequence of durations of the grammar and the result is the saturating sum of their
values, from left to right. -/
theorem C29_saturating_sum (d : Duration) (h : parse cfg units keywords numerals s = .ok d) :
    d.WF ∧ ∃ ds, DenotesMultiple cfg units keywords numerals s ds ∧ nanos d = saturatingSum (ds.map nanos) := by
  have hwf : d.WF := by
    rcases C23_only_multiplication_panics cfg units keywords numerals s hs hc with ⟨d', g1, g2⟩ | ⟨e, g⟩ | g
    · rw [g1] at h; cases h; exact g2
    · rw [g] at h; cases h
    · rw [g] at h; cases h
  exact ⟨hwf, (C27_multiple cfg units keywords numerals s _ hs hc hm hd).1 ⟨d, h, hwf, rfl⟩⟩

/-- C29: every sequence of durations of the grammar is accepted, and the result is the exact sum if no partial sum
leaves the representable range. -/
theorem C29_exact (ds : List Duration) (h : DenotesMultiple cfg units keywords numerals s ds)
    (hp : ∀ k, k ≤ ds.length → Representable (((ds.map nanos).take k).sum)) :
    ∃ d, parse cfg units keywords numerals s = .ok d ∧ d.WF ∧ nanos d = (ds.map nanos).sum := by
  refine (C27_multiple cfg units keywords numerals s _ hs hc hm hd).2 ⟨ds, h, ?_⟩
  unfold saturatingSum
  rw [foldl_exact]
  · omega
  · intro k hk
    rw [Int.zero_add]
    exact hp k (by simpa using hk)

/-- C29: if negative durations are not allowed, the result is the sum, or the maximum if the sum is greater. -/
theorem C29_nonnegative (ds : List Duration) (h : DenotesMultiple cfg units keywords numerals s ds)
    (hn : cfg.allowNegative = false) :
    ∃ d, parse cfg units keywords numerals s = .ok d ∧ d.WF ∧ nanos d = min maxNanos (ds.map nanos).sum := by
  refine (C27_multiple cfg units keywords numerals s _ hs hc hm hd).2 ⟨ds, h, ?_⟩
  unfold saturatingSum
  rw [foldl_nonneg _ _ (by decide) (by decide), Int.zero_add]
  obtain ⟨items, -, hf⟩ := h
  have hall : ∀ d ∈ ds, 0 ≤ nanos d := by
    intro d hd
    have : d.isNegative = false := by
      induction hf with
      | nil => cases hd
      | cons g1 _ ih =>
        rcases List.mem_cons.1 hd with rfl | hd
        · exact g1.2.resolve_left (by rw [hn]; simp)
        · exact ih hd
    unfold nanos
    rw [this]
    simp only [Bool.false_eq_true, if_false]
    omega
  intro x hx
  obtain ⟨d, hd', rfl⟩ := List.mem_map.1 hx
  exact hall d hd'

/-- C29: and then it does not depend on the order of the durations: two texts with the same durations in a
different order give the same result. -/
theorem C29_order_independent (s' : Bytes) (hs' : IsText s') (ds ds' : List Duration)
    (h : DenotesMultiple cfg units keywords numerals s ds) (h' : DenotesMultiple cfg units keywords numerals s' ds')
    (hp : ds.Perm ds') (hn : cfg.allowNegative = false) :
    parse cfg units keywords numerals s = parse cfg units keywords numerals s' := by
  obtain ⟨d, g1, g2, g3⟩ := C29_nonnegative cfg units keywords numerals s hs hc hm hd ds h hn
  obtain ⟨d', g1', g2', g3'⟩ := C29_nonnegative cfg units keywords numerals s' hs' hc hm hd ds' h' hn
  rw [g1, g1']
  congr 1
  refine Duration.eq_of g2 g2' ?_ ?_
  · rw [(C22_nonnegative cfg units keywords numerals s d hn g1).1,
      (C22_nonnegative cfg units keywords numerals s' d' hn g1').1]
  · rw [g3, g3', (hp.map nanos).sum_eq]

end

/-- The hypotheses are met by the example of C27: three durations, negative ones not allowed. -/
example : ∃ ds, DenotesMultiple exampleConfig exampleUnits (some exampleKeywords) (some exampleNumerals)
    (b! "two s and 1.5µs +0.1century") ds ∧ exampleConfig.allowNegative = false ∧ exampleConfig.allowMultiple = true := by
  obtain ⟨-, ds, h, -⟩ := C29_saturating_sum exampleConfig exampleUnits (some exampleKeywords) (some exampleNumerals)
    (b! "two s and 1.5µs +0.1century") exampleInput_text exampleConfig_text rfl (Or.inl (fun _ h => h))
    ⟨false, ⟨315576002, 1500⟩⟩ (by decide +kernel)
  exact ⟨ds, h, rfl, rfl⟩

/-- C29: with negative durations the order matters if a partial sum saturates (finding F4). -/
theorem C29_order_matters :
    parse { exampleConfig with allowNegative := true } exampleUnits none none (b! "inf 1s -1s") =
      .ok ⟨false, ⟨18446744073709551614, 999999999⟩⟩ ∧
    parse { exampleConfig with allowNegative := true } exampleUnits none none (b! "inf -1s 1s") = .ok Duration.MAX := by
  decide +kernel

end Fundu.Props
