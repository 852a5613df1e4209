import Verif.Proofs.CostWord
/-! # Steps of one of several durations -/
namespace Fundu.Cost
open Fundu

variable {α β : Type} {cfg : Config}

theorem W_zero {c : Cursor} {b : UInt8} (hc : c.cur = some b) (hb : wordEnd cfg b = true) : W cfg c = 0 := by
  have := W_le (cfg := cfg) (c := c) (n := 0) (fun x hx => by
    have hx : c.cur = some x := hx
    rw [hc] at hx; cases hx; exact hb)
  omega

theorem wordEnd_outer {b : UInt8} (h : cfg.outerDelimiter b = true) : wordEnd cfg b = true := by
  unfold wordEnd; rw [h]; rfl

/-- the end of a duration: the word which was not a time unit is either part of it or is still there -/
theorem finalizeMultiple_word (cfg : Config) (r : DurationRepr) (c : Cursor) :
    Run (finalizeMultiple cfg r c) (left c + connCost cfg) (fun o k => ∀ c', o.2 = some c' → Moved c c' ∧
      k ≤ (c'.pos - c.pos) + connCost cfg ∧ W cfg c ≤ (c'.pos - c.pos) + W cfg c') := by
  unfold finalizeMultiple
  cases hc : c.cur with
  | none => exact Run.ok (fun c' h => by cases h)
  | some b =>
    refine Run.ite (fun h => ?_) (fun _ => Run.ok (fun c' h => ?_))
    · refine Run.bind (tryConnection_reads cfg c hc h) ?_
      intro c1 k _ _ hk
      refine Run.pure (fun c' h' => ?_)
      have h' : some c1 = some c' := h'
      cases h'
      have hm : Moved c c1 := hk.1
      have hk2 : k + left c1 ≤ left c + connCost cfg := hk.2
      have hl := hm.left
      rw [W_zero hc (wordEnd_outer h)]
      exact ⟨hm, by omega, Nat.zero_le _⟩
    · cases h
      exact ⟨Moved.refl c, by omega, by omega⟩

/-- the steps of the rest of a duration: those of the word after it are the steps of the next duration -/
def Ends (cfg : Config) (b : Nat) (c : Cursor) (x : T Output) : Prop :=
  Run x (12 * left c + b) (fun o k => ∀ c', o.2 = some c' →
    Later cfg c c' ∧ k ≤ 6 * (c'.pos - c.pos) + 2 * W cfg c' + b)

theorem Ends.mono {b b' : Nat} {c : Cursor} {x : T Output} (h : Ends cfg b c x) (hb : b ≤ b') : Ends cfg b' c x :=
  Run.mono h (by omega) (fun _ _ _ _ ho c' hc' => ⟨(ho c' hc').1, by have := (ho c' hc').2; omega⟩)

theorem Ends.fail {b : Nat} {c : Cursor} {e : ParseError} : Ends cfg b c (Cost.fail e) := Run.fail

theorem Ends.none {b : Nat} {c : Cursor} {r : DurationRepr} : Ends cfg b c (Pure.pure (r, none)) :=
  Run.pure (fun c' h => by cases h)

theorem Ends.charge {n b : Nat} {c : Cursor} {x : T Output} (h : Ends cfg b c x) : Ends cfg (n + b) c (Cost.charge n x) :=
  Run.charge (by omega) (Run.mono h (by omega) (fun _ _ _ _ ho c' hc' => ⟨(ho c' hc').1, by have := (ho c' hc').2; omega⟩))

theorem Ends.reads {b b' : Nat} {c : Cursor} {x : T α} {out : α → Cursor} {f : α → T Output} (hw : Wf cfg c) (h : Reads b c x out)
    (hf : ∀ a, x.res = .ok a → Moved c (out a) → Wf cfg (out a) → Ends cfg b' (out a) (f a)) : Ends cfg (b + b') c (x >>= f) := by
  refine Run.bind (Run.mono h (by omega) (fun a k _ _ hk => hk)) ?_
  intro a k ha _ hk
  have hl := hk.1.left
  refine Run.mono (hf a ha hk.1 (hw.moved hk.1)) (by omega) ?_
  intro o m _ _ ho c' hc'
  have h1 := (ho c' hc').1
  have h2 := (ho c' hc').2
  have hp := h1.pos
  exact ⟨(hk.1.later hw).trans h1, by omega⟩

/-- the end of a number -/
theorem makeOutput_ends {b : Nat} {r : DurationRepr} {c : Cursor} (hw : Wf cfg c) :
    Ends cfg b c (Pure.pure (makeOutput .multiple r c)) := by
  refine Run.pure (fun c' h => ?_)
  have h : unlessEnd c = some c' := h
  unfold unlessEnd at h
  split at h
  · cases h
    exact ⟨⟨rfl, Nat.le_refl _, hw⟩, Nat.zero_le _⟩
  · cases h

variable {env : Env}

theorem parseUnitPart_ends (H : ∀ b, env.cfg.innerDelimiter b = true → env.cfg.outerDelimiter b = true) (r : DurationRepr) {c : Cursor}
    (hw : Wf env.cfg c) : Ends env.cfg (2 * connCost env.cfg + 8) c (parseUnitPart .multiple env r c) := by
  unfold parseUnitPart parseNumberTimeUnit
  cases hc : c.cur with
  | none =>
    refine (Ends.reads (b := 0) (b' := 2 * connCost env.cfg + 8) (out := fun _ => c) hw
      (Reads.ok (Moved.refl c)) ?_).mono (by omega)
    intro a ha _ _
    cases ha
    exact makeOutput_ends hw
  | some b =>
    dsimp only
    unfold numberTimeUnitMultiple
    refine Run.bind (P := fun o k => o.1 = true ∧ Later env.cfg c o.2.2 ∧
      (k ≤ 2 * (o.2.2.pos - c.pos) + (connCost env.cfg + 8) ∨ (o.2.2.pos = c.pos ∧ k ≤ 2 * W env.cfg c + (connCost env.cfg + 8)))) ?_ ?_
    · refine Run.ite (fun _ => ?_) (fun _ => Run.ok ⟨rfl, ⟨rfl, Nat.le_refl _, hw⟩, Or.inl (Nat.zero_le _)⟩)
      refine Run.bind (Run.mono (timeUnitMultiple_looks H hw) (by omega) (fun _ _ _ _ h => h)) ?_
      rintro ⟨u, c1⟩ k _ _ ⟨hl, hm⟩
      refine Run.pure ⟨rfl, hl, ?_⟩
      cases u with
      | none => exact Or.inr ⟨hm.1, by have := hm.2; omega⟩
      | some u => exact Or.inl (by have := hm.2; exact this)
    · rintro ⟨go, u, c1⟩ k _ _ ⟨hgo, hl, hk⟩
      have hgo : go = true := hgo
      subst hgo
      have hl : Later env.cfg c c1 := hl
      have hk : k ≤ 2 * (c1.pos - c.pos) + (connCost env.cfg + 8) ∨ (c1.pos = c.pos ∧ k ≤ 2 * W env.cfg c + (connCost env.cfg + 8)) := hk
      have hl1 := hl.left
      have hp1 := hl.pos
      have hW := W_left env.cfg c
      show Run (finalizeMultiple env.cfg _ c1) _ _
      refine Run.mono (finalizeMultiple_word env.cfg _ c1) (by rcases hk with hk | hk <;> omega) ?_
      intro o m _ _ ho c' hc'
      obtain ⟨h1, h2, h3⟩ := ho c' hc'
      have l1 := h1.later hl.wf
      have hp2 := l1.pos
      refine ⟨hl.trans l1, ?_⟩
      rcases hk with hk | ⟨he, hk⟩
      · omega
      · rw [W_congr (cfg := env.cfg) (c := c) (c' := c1) hl.input he] at h3
        omega

theorem parseDelimiterPart_ends (H : ∀ b, env.cfg.innerDelimiter b = true → env.cfg.outerDelimiter b = true) (r : DurationRepr) {c : Cursor}
    (hw : Wf env.cfg c) : Ends env.cfg (1 + (2 * connCost env.cfg + 8)) c (parseDelimiterPart .multiple env r c) := by
  unfold parseDelimiterPart
  refine Ends.reads hw (parseNumberDelimiter_reads _ c) ?_
  rintro ⟨go, c1⟩ ha _ hw1
  exact Run.ite (fun _ => makeOutput_ends hw1) (fun _ => parseUnitPart_ends H r hw1)

theorem parseExponentPart_ends (H : ∀ b, env.cfg.innerDelimiter b = true → env.cfg.outerDelimiter b = true) (r : DurationRepr) {c : Cursor}
    (hw : Wf env.cfg c) : Ends env.cfg (1 + (1 + (2 * connCost env.cfg + 8))) c (parseExponentPart .multiple env r c) := by
  unfold parseExponentPart
  refine Ends.reads hw (parseNumberExponent_reads _ c) ?_
  rintro ⟨go, e, c1⟩ ha _ hw1
  exact Run.ite (fun _ => makeOutput_ends hw1) (fun _ => parseDelimiterPart_ends H _ hw1)

theorem parseAfterWhole_ends (H : ∀ b, env.cfg.innerDelimiter b = true → env.cfg.outerDelimiter b = true) (r : DurationRepr) {c : Cursor}
    (hw : Wf env.cfg c) : Ends env.cfg (9 + (1 + (1 + (2 * connCost env.cfg + 8)))) c (parseAfterWhole .multiple env r c) := by
  unfold parseAfterWhole
  refine Ends.reads hw (parseNumberFraction_reads _ _ c hw.pos) ?_
  rintro ⟨go, f, c1⟩ ha _ hw1
  exact Run.ite (fun _ => makeOutput_ends hw1) (fun _ => parseExponentPart_ends H _ hw1)

theorem parseWhole_ends (H : ∀ b, env.cfg.innerDelimiter b = true → env.cfg.outerDelimiter b = true) (r : DurationRepr) {c : Cursor}
    (hw : Wf env.cfg c) : Ends env.cfg (9 + (9 + (1 + (1 + (2 * connCost env.cfg + 8))))) c (parseWhole .multiple env r c) := by
  unfold parseWhole
  refine Ends.reads hw (parseDigitsStripZeros_reads c hw.pos) ?_
  rintro ⟨w, c1⟩ ha _ hw1
  exact parseAfterWhole_ends H _ hw1

end Fundu.Cost
