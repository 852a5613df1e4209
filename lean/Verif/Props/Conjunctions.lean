import Verif.Spec.Conjunctions
import Verif.Props.Local
/-!
# Property C118: the list of conjunctions

The order of the conjunctions and repeated conjunctions don't matter if no conjunction is the start of another one. A
conjunction behind another one it starts with has no influence.
-/
namespace Fundu.Props
open Fundu Fundu.Spec

variable (cfg : Config) (units : TimeUnitsLike) (keywords : Option TimeUnitsLike) (numerals : Option NumbersLike)

/-- two lists of conjunctions which find the same conjunctions in a text -/
theorem conjunctions_same (l l' : Option (List Bytes)) (s : Bytes)
    (h : ∀ r, r <:+ s → foundConjunction (l'.getD []) r = foundConjunction (l.getD []) r) :
    parse { cfg with conjunctions := l' } units keywords numerals s = parse { cfg with conjunctions := l } units keywords numerals s :=
  C104_bytes (cfg := { cfg with conjunctions := l }) { sameOptions_refl { cfg with conjunctions := l } with conjunctions := h }
    (fun _ _ => rfl) rfl (fun _ _ => rfl) rfl (fun _ _ => rfl) rfl

theorem found_mem {l : List Bytes} {r w : Bytes} (h : foundConjunction l r = some w) : w ∈ l ∧ SameText (r.take w.length) w := by
  induction l with
  | nil => cases h
  | cons v l ih =>
    unfold foundConjunction at h
    split at h
    · cases h; exact ⟨by simp, by assumption⟩
    · exact ⟨List.mem_cons_of_mem _ (ih h).1, (ih h).2⟩

theorem found_none {l : List Bytes} {r : Bytes} (h : foundConjunction l r = none) : ∀ w ∈ l, ¬ SameText (r.take w.length) w := by
  induction l with
  | nil => intro w hw; cases hw
  | cons v l ih =>
    unfold foundConjunction at h
    split at h
    · cases h
    · intro w hw
      rcases List.mem_cons.1 hw with rfl | hw
      · assumption
      · exact ih h w hw

/-- of two words at the same place the longer one starts with the shorter one -/
theorem begins_of_same {r v w : Bytes} (hv : SameText (r.take v.length) v) (hw : SameText (r.take w.length) w)
    (hl : v.length ≤ w.length) : BeginsWith w v := by
  unfold BeginsWith SameText at *
  have h1 : (w.map lower).take v.length = v.map lower := by
    rw [← hw, ← hv, ← List.map_take, List.take_take, Nat.min_eq_left hl]
  rw [List.map_take, h1]

theorem found_unique {l : List Bytes} (hp : PrefixFree l) {r v w : Bytes} (hv : v ∈ l) (hw : w ∈ l)
    (h1 : SameText (r.take v.length) v) (h2 : SameText (r.take w.length) w) : v = w := by
  rcases Nat.le_total v.length w.length with h | h
  · exact hp v hv w hw (begins_of_same h1 h2 h)
  · exact (hp w hw v hv (begins_of_same h2 h1 h)).symm

theorem found_iff {l : List Bytes} (hp : PrefixFree l) {r w : Bytes} :
    foundConjunction l r = some w ↔ w ∈ l ∧ SameText (r.take w.length) w := by
  refine ⟨found_mem, fun ⟨h1, h2⟩ => ?_⟩
  cases h : foundConjunction l r with
  | none => exact absurd h2 (found_none h w h1)
  | some v => rw [found_unique hp h1 (found_mem h).1 h2 (found_mem h).2]

/-- C118: neither the order of the conjunctions matters nor how often one is in the list, if none is the start of another one. -/
theorem C118_order (l l' : List Bytes) (s : Bytes) (hp : PrefixFree l) (h : ∀ w, w ∈ l' ↔ w ∈ l) :
    parse { cfg with conjunctions := some l' } units keywords numerals s = parse { cfg with conjunctions := some l } units keywords numerals s := by
  have hp' : PrefixFree l' := fun v hv w hw => hp v ((h v).1 hv) w ((h w).1 hw)
  refine conjunctions_same cfg units keywords numerals (some l) (some l') s fun r _ => ?_
  show foundConjunction l' r = foundConjunction l r
  refine Option.ext fun w => ?_
  rw [found_iff hp', found_iff hp, h]

theorem found_append (a b : List Bytes) (r : Bytes) :
    foundConjunction (a ++ b) r = (foundConjunction a r).orElse fun _ => foundConjunction b r := by
  induction a with
  | nil => rfl
  | cons v a ih =>
    show (if SameText (r.take v.length) v then some v else foundConjunction (a ++ b) r) =
      (if SameText (r.take v.length) v then some v else foundConjunction a r).orElse fun _ => foundConjunction b r
    by_cases h : SameText (r.take v.length) v
    · rw [if_pos h, if_pos h]; rfl
    · rw [if_neg h, if_neg h]; exact ih

/-- C118: a conjunction behind another one it starts with has no influence: the other one is always found first. -/
theorem C118_shadowed (a b c : List Bytes) (v w : Bytes) (s : Bytes) (h : BeginsWith w v) :
    parse { cfg with conjunctions := some (a ++ v :: b ++ w :: c) } units keywords numerals s =
      parse { cfg with conjunctions := some (a ++ v :: b ++ c) } units keywords numerals s := by
  refine conjunctions_same cfg units keywords numerals (some (a ++ v :: b ++ c)) (some (a ++ v :: b ++ w :: c)) s fun r _ => ?_
  show foundConjunction (a ++ v :: b ++ w :: c) r = foundConjunction (a ++ v :: b ++ c) r
  rw [found_append (a ++ v :: b), found_append (a ++ v :: b)]
  cases hf : foundConjunction (a ++ v :: b) r with
  | some x => rfl
  | none =>
    have hv := found_none hf v (by simp)
    show foundConjunction (w :: c) r = foundConjunction c r
    have hw : ¬ SameText (r.take w.length) w := by
      intro hw
      apply hv
      have hl : v.length ≤ w.length := by
        have := congrArg List.length h
        rw [List.length_map, List.length_map, List.length_take] at this
        omega
      unfold BeginsWith SameText at *
      have h3 : (w.map lower).take v.length = v.map lower := by rw [← List.map_take]; exact h
      rw [← h3, ← hw, ← List.map_take, List.take_take, Nat.min_eq_left hl]
    show (if _ then _ else _) = _
    rw [if_neg hw]

/-- C118: an empty list is the same as no list. -/
theorem C118_none (s : Bytes) :
    parse { cfg with conjunctions := none } units keywords numerals s = parse { cfg with conjunctions := some [] } units keywords numerals s :=
  conjunctions_same cfg units keywords numerals (some []) none s fun _ _ => rfl

/-! ## Parsers -/

/-- C118 for `DurationParser` -/
theorem C118_standard (p : DurationParser) (v : Bool) (l l' : List Bytes) (s : Bytes) (hp : PrefixFree l) (h : ∀ w, w ∈ l' ↔ w ∈ l) :
    (p.parseMultiple v (some l')).parse s = (p.parseMultiple v (some l)).parse s :=
  C118_order { p.config with allowMultiple := v } _ none none l l' s hp h

/-- C118 for `CustomDurationParser` -/
theorem C118_custom (p : CustomDurationParser) (v : Bool) (l l' : List Bytes) (s : Bytes) (hp : PrefixFree l) (h : ∀ w, w ∈ l' ↔ w ∈ l) :
    (p.parseMultiple v (some l')).parse s = (p.parseMultiple v (some l)).parse s :=
  C118_order { p.config with allowMultiple := v } _ _ _ l l' s hp h

/-! ## Examples -/

example (s : Bytes) : (DurationParser.withAllTimeUnits.parseMultiple true (some [b! "plus", b! "and", b! "plus", b! ","])).parse s =
    (DurationParser.withAllTimeUnits.parseMultiple true (some [b! "and", b! ",", b! "plus"])).parse s :=
  C118_standard _ true _ _ s (by decide) (by
    intro w
    simp only [List.mem_cons, List.not_mem_nil, or_false]
    tauto)

/-- the condition is needed: `and` is found in the first list, and in the second one `a`, behind which no delimiter follows -/
theorem C118_condition_needed :
    (DurationParser.withAllTimeUnits.parseMultiple true (some [b! "and", b! "a"])).parse (b! "1h AND 2m") = .ok ⟨false, ⟨3720, 0⟩⟩ ∧
    (DurationParser.withAllTimeUnits.parseMultiple true (some [b! "a", b! "and"])).parse (b! "1h AND 2m") =
      fail (.syntax 4 (.conjunctionNotSeparated 78)) := by decide +kernel

/-- so `and` has no influence in the second list -/
example (s : Bytes) : parse { ({} : Config) with conjunctions := some [b! "a", b! "and"] } DurationParser.withAllTimeUnits.timeUnits.like none none s =
    parse { ({} : Config) with conjunctions := some [b! "a"] } DurationParser.withAllTimeUnits.timeUnits.like none none s :=
  C118_shadowed {} _ none none [] [] [] (b! "a") (b! "and") s (by decide)

end Fundu.Props
