import Verif.Proofs.CostRun
/-! # Steps of numbers, gaps and infinity -/
namespace Fundu.Cost
open Fundu

theorem parseSignIsNegative_reads (c : Cursor) : Reads 0 c (parseSignIsNegative c) (fun o => o.2) := by
  unfold parseSignIsNegative
  cases hc : c.cur with
  | none => exact Reads.fail
  | some b =>
    exact Run.ite (fun _ => Reads.ok (moved_advance hc))
      (fun _ => Run.ite (fun _ => Reads.ok (moved_advance hc)) (fun _ => Reads.ok (Moved.refl c)))

theorem afterSign_reads (cfg : Config) (c : Cursor) (o : Option Bool) : Reads 1 c (afterSign cfg c o) (fun o => o.2) := by
  unfold afterSign
  cases o with
  | none => exact Reads.ok (Moved.refl c)
  | some neg =>
    cases hc : c.cur with
    | none => exact Reads.fail
    | some b =>
      refine Run.ite (fun h => ?_) (fun _ => Reads.ok (Moved.refl c))
      rw [Bool.and_eq_true] at h
      exact Reads.bind (b := 1) (b' := 0) (tryConsumeDelimiter_reads _ c hc h.2) (fun c' _ _ => Reads.pure (Moved.refl _))

theorem parseNumberSign_reads (cfg : Config) (c : Cursor) : Reads 1 c (parseNumberSign cfg c) (fun o => o.2) := by
  unfold parseNumberSign
  exact Reads.bind (b := 0) (b' := 1) (parseSignIsNegative_reads c) (fun o _ _ => afterSign_reads cfg o.2 o.1)

theorem fractionDigits_reads (w : Option Range) (c : Cursor) (hp : c.pos ≤ c.input.length) :
    Reads 9 c (fractionDigits w c) (fun o => o.2.2) := by
  unfold fractionDigits
  cases hc : c.cur with
  | none =>
    exact Run.ite (fun _ => Reads.lift (fun _ _ => Reads.fail)) (fun _ => Reads.ok (Moved.refl c))
  | some b =>
    refine Run.ite (fun _ => ?_) (fun _ => Run.ite (fun _ => Reads.lift (fun _ _ => Reads.fail)) (fun _ => Reads.ok (Moved.refl c)))
    exact Reads.bind (b := 9) (b' := 0) (parseDigits_reads c hp) (fun o _ _ => Reads.pure (Moved.refl _))

/-- a step forward before the rest -/
theorem Reads.advance {α : Type} {b : Nat} {c c' : Cursor} {x : T α} {out : α → Cursor} (hm : Moved c c') (h : Reads b c' x out) :
    Reads b c x out := by
  have hl := hm.left
  exact Run.mono h (by omega) (fun a k _ _ hk => ⟨hm.trans hk.1, by omega⟩)

theorem parseNumberFraction_reads (w : Option Range) (dis : Bool) (c : Cursor) (hp : c.pos ≤ c.input.length) :
    Reads 9 c (parseNumberFraction w dis c) (fun o => o.2.2) := by
  unfold parseNumberFraction
  cases hc : c.cur with
  | none => exact Reads.ok (Moved.refl c)
  | some b =>
    refine Run.ite (fun _ => Run.ite (fun _ => Reads.fail) (fun _ => ?_)) (fun _ => Reads.ok (Moved.refl c))
    exact Reads.advance (moved_advance hc) (fractionDigits_reads w c.advance ((moved_advance hc).pos hp))

theorem exponentLoop_reads (neg : Bool) (fuel : Nat) (e : Int) (c : Cursor) :
    Reads 1 c (exponentLoop neg fuel e c) (fun o => o.2) := by
  induction fuel generalizing e c with
  | zero =>
    unfold exponentLoop
    refine Reads.charge (b := 0) ?_
    cases hc : c.cur with
    | none => exact Reads.ok (Moved.refl c)
    | some b => exact Run.ite (fun _ => Reads.panic) (fun _ => Reads.ok (Moved.refl c))
  | succ fuel ih =>
    unfold exponentLoop
    refine Run.charge (by omega) ?_
    cases hc : c.cur with
    | none => exact Run.ok ⟨Moved.refl c, by show 1 + 0 + left c ≤ _; omega⟩
    | some b =>
      refine Run.ite (fun _ => ?_) (fun _ => Run.ok ⟨Moved.refl c, by show 1 + 0 + left c ≤ _; omega⟩)
      dsimp only
      cases exponentStep neg e b with
      | none => exact Run.fail
      | some x =>
        have hm := moved_advance hc
        have h1 := cur_left hc
        have e : left c.advance = left c - 1 := left_advanceBy c 1
        refine Run.mono (ih x c.advance) (by omega) ?_
        intro o m _ _ ho
        exact ⟨hm.trans ho.1, by have := ho.2; dsimp only at this; omega⟩

theorem parseExponent_reads (c : Cursor) : Reads 1 c (parseExponent c) (fun o => o.2) := by
  unfold parseExponent
  refine Reads.bind (b := 0) (b' := 1) (parseSignIsNegative_reads c) ?_
  rintro ⟨sign, c'⟩ _ _
  refine Reads.bind (b := 1) (b' := 0) (exponentLoop_reads _ _ _ c') ?_
  rintro ⟨e, c''⟩ _ _
  refine Reads.lift (fun n _ => ?_)
  exact Run.ite (fun _ => Reads.pure (Moved.refl _)) (fun _ => Run.ite (fun _ => Reads.fail) (fun _ => Reads.fail))

theorem parseNumberExponent_reads (dis : Bool) (c : Cursor) : Reads 1 c (parseNumberExponent dis c) (fun o => o.2.2) := by
  unfold parseNumberExponent
  cases hc : c.cur with
  | none => exact Reads.ok (Moved.refl c)
  | some b =>
    refine Run.ite (fun _ => Run.ite (fun _ => Reads.fail) (fun _ => ?_)) (fun _ => Reads.ok (Moved.refl c))
    exact Reads.advance (moved_advance hc)
      (Reads.bind (b := 1) (b' := 0) (parseExponent_reads c.advance) (fun o _ _ => Reads.pure (Moved.refl _)))

theorem parseNumberDelimiter_reads (d : Option Delimiter) (c : Cursor) : Reads 1 c (parseNumberDelimiter d c) (fun o => o.2) := by
  unfold parseNumberDelimiter
  cases hc : c.cur with
  | none => exact Reads.ok (Moved.refl c)
  | some b =>
    cases d with
    | none => exact Reads.ok (Moved.refl c)
    | some d =>
      refine Run.ite (fun h => ?_) (fun _ => Reads.ok (Moved.refl c))
      exact Reads.bind (b := 1) (b' := 0) (tryConsumeDelimiter_reads d c hc h) (fun o _ _ => Reads.pure (Moved.refl _))

/-! ## Connections -/

/-- what it takes to try all of the words -/
def wordsCost (words : List Bytes) : Nat := (words.map fun w => w.length + 1).sum

theorem nextIs_left {c : Cursor} {w : Bytes} (h : c.nextIs w = true) : w.length ≤ left c := by
  unfold Cursor.nextIs Cursor.peek at h
  by_cases hl : c.pos + w.length ≤ c.input.length
  · unfold left; omega
  · rw [if_neg hl] at h; cases h

theorem consumeConjunction_reads (d : Delimiter) (start : Nat) (c : Cursor) (words : List Bytes) :
    Reads (wordsCost words + 1) c (consumeConjunction d start c words) id := by
  induction words with
  | nil => exact Reads.ok (Moved.refl c)
  | cons w ws ih =>
    unfold consumeConjunction
    have e : wordsCost (w :: ws) + 1 = (w.length + 1) + (wordsCost ws + 1) := by
      unfold wordsCost
      rw [List.map_cons, List.sum_cons]
      omega
    rw [e]
    refine Reads.charge ?_
    refine Run.ite (fun h => ?_) (fun _ => ih)
    refine Reads.mono (b := 1) ?_ (by omega)
    refine Reads.advance (moved_by (nextIs_left h)) ?_
    unfold afterConjunction
    cases hc : (c.advanceBy w.length).cur with
    | none => exact Reads.fail
    | some b =>
      exact Run.ite (fun hd => tryConsumeDelimiter_reads d _ hc hd)
        (fun _ => Run.ite (fun _ => Reads.ok (Moved.refl _)) (fun _ => Reads.fail))

/-- what it takes to try all conjunctions, and two more steps -/
def connCost (cfg : Config) : Nat := wordsCost (cfg.conjunctions.getD []) + 2

theorem tryConnection_reads (cfg : Config) (c : Cursor) {b : UInt8} (hc : c.cur = some b) (hb : cfg.outerDelimiter b = true) :
    Reads (connCost cfg) c (tryConnection cfg c) id := by
  unfold tryConnection tryConsumeConnection
  refine Reads.lift (fun _ _ => ?_)
  have e : connCost cfg = 1 + (wordsCost (cfg.conjunctions.getD []) + 1) := by unfold connCost; omega
  rw [e]
  exact Reads.bind (tryConsumeDelimiter_reads _ c hc hb) (fun c' _ _ => consumeConjunction_reads _ _ _ _)

theorem consumeConnectionIfAny_reads (cfg : Config) (c : Cursor) : Reads (connCost cfg) c (consumeConnectionIfAny cfg c) id := by
  unfold consumeConnectionIfAny
  cases hc : c.cur with
  | none => exact Reads.ok (Moved.refl c)
  | some b => exact Run.ite (fun h => tryConnection_reads cfg c hc h) (fun _ => Reads.ok (Moved.refl c))

theorem finalizeMultiple_reads (cfg : Config) (r : DurationRepr) (c : Cursor) :
    Reads (connCost cfg) c (finalizeMultiple cfg r c) (fun o => o.2.getD c) := by
  unfold finalizeMultiple
  cases hc : c.cur with
  | none => exact Reads.ok (Moved.refl c)
  | some b =>
    refine Run.ite (fun h => ?_) (fun _ => Reads.ok (Moved.refl c))
    exact Reads.bind (b' := 0) (tryConnection_reads cfg c hc h) (fun o _ _ => Reads.pure (Moved.refl _))

/-! ## Infinity -/

theorem inityLoopMultiple_reads (start : Nat) (c : Cursor) (l : Bytes) : Reads l.length c (inityLoopMultiple start c l) id := by
  induction l generalizing c with
  | nil => exact Reads.ok (Moved.refl c)
  | cons b bs ih =>
    unfold inityLoopMultiple
    rw [List.length_cons, Nat.add_comm]
    refine Reads.charge ?_
    cases hc : c.cur with
    | none => exact Reads.lift (fun _ _ => Reads.lift (fun _ _ => Reads.fail))
    | some x => exact Run.ite (fun _ => Reads.advance (moved_advance hc) (ih _)) (fun _ => Reads.fail)

theorem inityLoop_reads (c : Cursor) (l : Bytes) : Reads l.length c (inityLoop c l) id := by
  induction l generalizing c with
  | nil => exact Reads.ok (Moved.refl c)
  | cons b bs ih =>
    unfold inityLoop
    rw [List.length_cons, Nat.add_comm]
    refine Reads.charge ?_
    cases hc : c.cur with
    | none => exact Reads.fail
    | some x => exact Run.ite (fun _ => Reads.advance (moved_advance hc) (ih _)) (fun _ => Reads.fail)

theorem afterInfinity_reads (cfg : Config) (r : DurationRepr) (c : Cursor) :
    Reads (connCost cfg) c (afterInfinity cfg r c) (fun o => o.2.getD c) := by
  unfold afterInfinity
  cases hc : c.cur with
  | none => exact Reads.ok (Moved.refl c)
  | some b =>
    refine Run.ite (fun h => ?_) (fun _ => Reads.fail)
    exact Reads.bind (b' := 0) (tryConnection_reads cfg c hc h) (fun o _ _ => Reads.pure (Moved.refl _))

end Fundu.Cost
