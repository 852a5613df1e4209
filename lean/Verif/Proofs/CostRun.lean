import Verif.Proofs.CostErase
import Verif.Proofs.Cursor
import Verif.Proofs.Safe
import Verif.Proofs.Buffer
/-! # Steps of the reader -/
namespace Fundu.Cost
open Fundu Fundu.Spec

variable {α β : Type}

/-- `x` takes at most `E` steps, and if it has a value, then `P` holds for the value and the number of steps -/
def Run (x : T α) (E : Nat) (P : α → Nat → Prop) : Prop := x.cost ≤ E ∧ ∀ a, x.res = .ok a → P a x.cost

namespace Run
variable {x : T α} {E E' : Nat} {P P' : α → Nat → Prop}

theorem mono (h : Run x E P) (hE : E ≤ E') (hP : ∀ a k, x.res = .ok a → k ≤ E → P a k → P' a k) : Run x E' P' :=
  ⟨Nat.le_trans h.1 hE, fun a ha => hP a _ ha h.1 (h.2 a ha)⟩

theorem ok {a : α} (h : P a 0) : Run (T.ok a) E P :=
  ⟨Nat.zero_le _, fun b hb => by cases hb; exact h⟩

theorem pure {a : α} (h : P a 0) : Run (Pure.pure a : T α) E P := ok h

theorem fail {e : ParseError} : Run (Cost.fail e : T α) E P := ⟨Nat.zero_le _, fun b hb => by cases hb⟩
theorem panic {e : Panic} : Run (Cost.panic e : T α) E P := ⟨Nat.zero_le _, fun b hb => by cases hb⟩

theorem lift {y : R α} (h : ∀ a, y = .ok a → P a 0) : Run (Cost.lift y) E P := ⟨Nat.zero_le _, h⟩

theorem charge {n : Nat} (hn : n ≤ E) (h : Run x (E - n) (fun a k => P a (n + k))) : Run (Cost.charge n x) E P :=
  ⟨by have := h.1; show n + x.cost ≤ E; omega, h.2⟩

theorem bind {f : α → T β} {Q : β → Nat → Prop} (h : Run x E P)
    (hf : ∀ a k, x.res = .ok a → k ≤ E → P a k → Run (f a) (E - k) (fun b m => Q b (k + m))) : Run (x >>= f) E Q := by
  show Run (T.bind x f) E Q
  unfold T.bind
  cases hx : x.res with
  | error e => exact ⟨h.1, fun b hb => by cases hb⟩
  | ok a =>
    obtain ⟨h1, h2⟩ := hf a x.cost hx h.1 (h.2 a hx)
    have := h.1
    exact ⟨by show x.cost + (f a).cost ≤ E; omega, h2⟩

theorem ite {p : Prop} [Decidable p] {y : T α} (h1 : p → Run x E P) (h2 : ¬ p → Run y E P) : Run (if p then x else y) E P := by
  by_cases h : p
  · rw [if_pos h]; exact h1 h
  · rw [if_neg h]; exact h2 h
end Run

/-- the number of bytes from the current position on -/
def left (c : Cursor) : Nat := c.input.length - c.pos

theorem left_rest (c : Cursor) : left c = c.rest.length := (Cursor.rest_length c).symm
theorem left_advanceBy (c : Cursor) (n : Nat) : left (c.advanceBy n) = left c - n := by
  show c.input.length - (c.pos + n) = c.input.length - c.pos - n
  omega

theorem cur_left {c : Cursor} {b : UInt8} (h : c.cur = some b) : 1 ≤ left c := by
  rw [left_rest]
  rw [Cursor.cur_eq] at h
  cases hr : c.rest with
  | nil => rw [hr] at h; cases h
  | cons x xs => simp

/-! ## Words and delimiters -/

theorem skipTo_cost (d : Delimiter) (n : Nat) (c : Cursor) (h : c.rest.length ≤ n) :
    (skipTo d n c).cost = (c.word d).length + 1 := by
  unfold Cursor.word
  induction n generalizing c with
  | zero =>
    have : c.rest = [] := List.eq_nil_of_length_eq_zero (by omega)
    simp only [skipTo, Cursor.cur_eq, this, charge, T.ok]
    rfl
  | succ n ih =>
    cases hr : c.rest with
    | nil => simp only [skipTo, Cursor.cur_eq, hr, charge, T.ok]; rfl
    | cons b r =>
      simp only [skipTo, Cursor.cur_eq, hr, List.head?_cons, charge]
      by_cases hd : d b = true
      · rw [if_pos hd]; simp [hd, T.ok]
      · have hadv : c.advance.rest = r := by rw [Cursor.rest_advance, hr]; rfl
        rw [if_neg hd, ih _ (by rw [hadv]; rw [hr] at h; simp at h; omega), hadv]
        simp [hd, Nat.add_comm]

theorem advanceTo_run (d : Delimiter) (c : Cursor) (hp : c.pos ≤ c.input.length) :
    Run (advanceTo d c) (left c + 1) (fun o k => o = (c.word d, c.advanceBy (c.word d).length) ∧ k = (c.word d).length + 1) := by
  have hc : (advanceTo d c).cost = (c.word d).length + 1 := by
    unfold advanceTo
    show (T.bind _ _).cost = _
    unfold T.bind
    rw [skipTo_res, Cursor.skipTo_input]
    dsimp only
    rw [skipTo_cost d _ c (by rw [Cursor.rest_length]; omega)]
    show _ + (T.bind _ _).cost = _
    unfold T.bind lift
    dsimp only
    rw [Cursor.input_advanceBy, Cursor.pos_advanceBy, Cursor.sliceR_rest c _ hp (Cursor.takeWhile_length_le _ _)]
    rfl
  refine ⟨?_, ?_⟩
  · rw [hc, left_rest]
    have := Cursor.word_length d c
    omega
  · intro a ha
    rw [advanceTo_res, Cursor.advanceTo_eq d c hp] at ha
    cases ha
    exact ⟨rfl, hc⟩

theorem bufferedAdvanceTo_miss (d : Delimiter) (c : Cursor) (hp : c.pos ≤ c.input.length) (hb : c.buffered d = none) :
    (bufferedAdvanceTo d c).cost = (c.word d).length + 2 := by
  unfold bufferedAdvanceTo
  rw [hb]
  show 1 + (T.bind _ _).cost = _
  unfold T.bind
  rw [skipTo_res, Cursor.skipTo_input]
  dsimp only
  rw [skipTo_cost d _ c (by rw [Cursor.rest_length]; omega)]
  show _ + (_ + (T.bind _ _).cost) = _
  unfold T.bind lift
  dsimp only
  rw [Cursor.input_advanceBy, Cursor.pos_advanceBy, Cursor.sliceR_rest c _ hp (Cursor.takeWhile_length_le _ _)]
  show 1 + (_ + 1 + (0 + 0)) = _
  omega

theorem bufferedAdvanceTo_hit (d : Delimiter) (c : Cursor) {w : Bytes} (hb : c.buffered d = some w) :
    (bufferedAdvanceTo d c).cost = 1 := by
  unfold bufferedAdvanceTo
  rw [hb]
  rfl

theorem tryConsumeDelimiter_run (d : Delimiter) (c : Cursor) {b : UInt8} (hb : c.cur = some b) (hd : d b = true) :
    Run (tryConsumeDelimiter d c) (left c + 1) (fun c' k => c' = c.advanceBy (c.delims d).length ∧ c.pos < c'.pos ∧
      c'.pos < c.input.length ∧ k ≤ (c.delims d).length + 1) := by
  have h1 := cur_left hb
  have hc : (tryConsumeDelimiter d c).cost ≤ (c.delims d).length + 1 := by
    unfold tryConsumeDelimiter
    show (T.bind _ _).cost ≤ _
    unfold T.bind lift
    rw [Cursor.assertDelimiter_ok d c b hb hd]
    dsimp only
    by_cases h0 : c.pos = 0
    · rw [if_pos h0]; show 0 + 0 ≤ _; omega
    · rw [if_neg h0]
      show 0 + (T.bind _ _).cost ≤ _
      unfold T.bind
      rw [skipTo_res]
      have hr : c.advance.rest.length ≤ c.input.length := by rw [Cursor.rest_length]; exact Nat.sub_le _ _
      rw [Cursor.skipTo_eq _ _ _ hr]
      dsimp only
      rw [skipTo_cost _ _ _ hr]
      have e : (c.advance.word (fun b => !d b)).length + 1 = (c.delims d).length := by
        unfold Cursor.delims Cursor.word
        rw [Cursor.rest_advance]
        rw [Cursor.cur_eq] at hb
        cases hr : c.rest with
        | nil => rw [hr] at hb; cases hb
        | cons x xs =>
          rw [hr] at hb
          cases hb
          simp [hd]
      rw [e]
      cases (Cursor.advanceBy c.advance (List.takeWhile (fun b => !!d b) c.advance.rest).length).cur with
      | none => show 0 + (_ + 0) ≤ _; omega
      | some y => show 0 + (_ + 0) ≤ _; omega
  have hl : (c.delims d).length ≤ left c := by rw [left_rest]; exact Cursor.takeWhile_length_le _ _
  refine ⟨by omega, ?_⟩
  intro a ha
  rw [tryConsumeDelimiter_res] at ha
  have hs : a.cur.isSome = true := tryConsumeDelimiter_cur ha
  by_cases h0 : c.pos = 0
  · unfold Cursor.tryConsumeDelimiter at ha
    rw [Cursor.assertDelimiter_ok d c b hb hd, ok_bind, if_pos h0] at ha
    cases ha
  · rw [Cursor.tryConsumeDelimiter_eq d c b hb hd h0] at ha
    have e : a = c.advanceBy (c.delims d).length := by
      revert ha
      split
      · intro ha; cases ha
      · intro ha; cases ha; rfl
    have hpos : 0 < (c.delims d).length := by
      unfold Cursor.delims
      rw [Cursor.cur_eq] at hb
      cases hr : c.rest with
      | nil => rw [hr] at hb; cases hb
      | cons x xs => rw [hr] at hb; cases hb; simp [hd]
    obtain ⟨y, hy⟩ := Option.isSome_iff_exists.1 hs
    have h2 := cur_left hy
    refine ⟨e, ?_, ?_, hc⟩
    · rw [e]; show c.pos < c.pos + _; omega
    · rw [e] at h2 ⊢
      unfold left at h2
      rw [Cursor.input_advanceBy] at h2
      omega

/-! ## Digits -/

/-- a cursor further on, in the input -/
def Moved (c c' : Cursor) : Prop := ∃ n, c' = c.advanceBy n ∧ n ≤ left c

theorem Moved.refl (c : Cursor) : Moved c c := ⟨0, rfl, Nat.zero_le _⟩
theorem Moved.trans {a b c : Cursor} (h1 : Moved a b) (h2 : Moved b c) : Moved a c := by
  obtain ⟨m, rfl, hm⟩ := h1
  obtain ⟨n, rfl, hn⟩ := h2
  rw [left_advanceBy] at hn
  exact ⟨m + n, Cursor.advanceBy_advanceBy .., by omega⟩
theorem Moved.left {a b : Cursor} (h : Moved a b) : Cost.left b + (b.pos - a.pos) = Cost.left a ∧ a.pos ≤ b.pos := by
  obtain ⟨m, rfl, hm⟩ := h
  rw [left_advanceBy, Cursor.pos_advanceBy]
  omega
theorem Moved.pos {a b : Cursor} (h : Moved a b) (hp : a.pos ≤ a.input.length) : b.pos ≤ b.input.length := by
  obtain ⟨m, rfl, hm⟩ := h
  unfold Cost.left at hm
  show a.pos + m ≤ a.input.length
  omega
theorem moved_by {c : Cursor} {n : Nat} (h : n ≤ Cost.left c) : Moved c (c.advanceBy n) := ⟨n, rfl, h⟩
theorem moved_advance {c : Cursor} {b : UInt8} (h : c.cur = some b) : Moved c c.advance := ⟨1, rfl, cur_left h⟩

theorem parse8_run (c : Cursor) (hp : c.pos ≤ c.input.length) :
    Run (parse8 c) 8 (fun o k => k = 8 ∧ (o = none ∨ ∃ n, o = some (n, c.advanceBy 8) ∧ 8 ≤ left c)) := by
  refine ⟨by show 8 + 0 ≤ 8; omega, ?_⟩
  intro a ha
  refine ⟨rfl, ?_⟩
  have ha' : c.parse8 = .ok a := ha
  rw [Cursor.parse8_eq c hp] at ha'
  by_cases h : 8 ≤ c.rest.length ∧ AllDigits (c.rest.take 8)
  · rw [if_pos h] at ha'
    cases ha'
    exact Or.inr ⟨_, rfl, by rw [left_rest]; exact h.1⟩
  · rw [if_neg h] at ha'
    cases ha'
    exact Or.inl rfl

/-- a part of the parser which reads on, with a constant amount of additional steps -/
def Reads (b : Nat) (c : Cursor) (x : T α) (out : α → Cursor) : Prop :=
  Run x (left c + b) (fun o k => Moved c (out o) ∧ k + left (out o) ≤ left c + b)

theorem Reads.mono {b b' : Nat} {c : Cursor} {x : T α} {out : α → Cursor} (h : Reads b c x out) (hb : b ≤ b') : Reads b' c x out :=
  Run.mono h (by omega) (fun a k _ _ hk => ⟨hk.1, by omega⟩)

theorem Reads.ok {b : Nat} {c : Cursor} {a : α} {out : α → Cursor} (h : Moved c (out a)) : Reads b c (T.ok a) out :=
  Run.ok ⟨h, by have := h.left; omega⟩

theorem Reads.pure {b : Nat} {c : Cursor} {a : α} {out : α → Cursor} (h : Moved c (out a)) : Reads b c (Pure.pure a) out :=
  Reads.ok h

theorem Reads.fail {b : Nat} {c : Cursor} {e : ParseError} {out : α → Cursor} : Reads b c (Cost.fail e) out := Run.fail
theorem Reads.panic {b : Nat} {c : Cursor} {e : Panic} {out : α → Cursor} : Reads b c (Cost.panic e) out := Run.panic

theorem Reads.charge {n b : Nat} {c : Cursor} {x : T α} {out : α → Cursor} (h : Reads b c x out) : Reads (n + b) c (Cost.charge n x) out :=
  Run.charge (by omega) (Run.mono h (by omega) (fun a k _ _ hk => ⟨hk.1, by omega⟩))

theorem Reads.bind {b b' : Nat} {c : Cursor} {x : T α} {out : α → Cursor} {f : α → T β} {out' : β → Cursor} (h : Reads b c x out)
    (hf : ∀ a, x.res = .ok a → Moved c (out a) → Reads b' (out a) (f a) out') : Reads (b + b') c (x >>= f) out' := by
  refine Run.bind (Run.mono h (by omega) (fun a k _ _ hk => hk)) ?_
  intro a k ha _ hk
  refine Run.mono (hf a ha hk.1) (by omega) ?_
  intro o m _ _ hm
  exact ⟨hk.1.trans hm.1, by omega⟩

/-- what does not take a step and does not move -/
theorem Reads.lift {b : Nat} {c : Cursor} {y : R α} {f : α → T β} {out' : β → Cursor} (hf : ∀ a, y = .ok a → Reads b c (f a) out') :
    Reads b c (Cost.lift y >>= f) out' := by
  have h : Reads 0 c (Cost.lift y) (fun _ => c) := Run.lift (fun a _ => ⟨Moved.refl c, by show 0 + left c ≤ left c + 0; omega⟩)
  have := Reads.bind h (fun a ha _ => hf a ha)
  rwa [Nat.zero_add] at this

theorem skipBlocks_reads (fuel : Nat) (c : Cursor) (hp : c.pos ≤ c.input.length) : Reads 8 c (skipBlocks fuel c) id := by
  induction fuel generalizing c with
  | zero =>
    unfold skipBlocks
    refine Run.bind (Run.mono (parse8_run c hp) (by omega) (fun a k _ _ h => h)) ?_
    rintro a k _ _ ⟨rfl, rfl | ⟨n, rfl, h8⟩⟩
    · exact Run.pure ⟨Moved.refl c, by show 8 + 0 + left c ≤ _; omega⟩
    · exact Run.panic
  | succ fuel ih =>
    unfold skipBlocks
    refine Run.bind (Run.mono (parse8_run c hp) (by omega) (fun a k _ _ h => h)) ?_
    rintro a k _ _ ⟨rfl, rfl | ⟨n, rfl, h8⟩⟩
    · exact Run.pure ⟨Moved.refl c, by show 8 + 0 + left c ≤ _; omega⟩
    · have hm := moved_by h8
      have e := left_advanceBy c 8
      refine Run.mono (ih (c.advanceBy 8) (hm.pos hp)) (by omega) ?_
      intro o m _ _ ho
      exact ⟨hm.trans ho.1, by have := ho.2; omega⟩

theorem stripBlocks_reads (fuel start : Nat) (strip : Bool) (c : Cursor) (hp : c.pos ≤ c.input.length) :
    Reads 8 c (stripBlocks fuel start strip c) (fun o => o.2.2) := by
  induction fuel generalizing c start strip with
  | zero =>
    unfold stripBlocks
    refine Run.bind (Run.mono (parse8_run c hp) (by omega) (fun a k _ _ h => h)) ?_
    rintro a k _ _ ⟨rfl, rfl | ⟨n, rfl, h8⟩⟩
    · exact Run.pure ⟨Moved.refl c, by show 8 + 0 + left c ≤ _; omega⟩
    · exact Run.panic
  | succ fuel ih =>
    unfold stripBlocks
    refine Run.bind (Run.mono (parse8_run c hp) (by omega) (fun a k _ _ h => h)) ?_
    rintro a k _ _ ⟨rfl, rfl | ⟨n, rfl, h8⟩⟩
    · exact Run.pure ⟨Moved.refl c, by show 8 + 0 + left c ≤ _; omega⟩
    · have hm := moved_by h8
      have e := left_advanceBy c 8
      have key : ∀ start strip, Run (stripBlocks fuel start strip (c.advanceBy 8)) (left c + 8 - 8)
          (fun o m => Moved c o.2.2 ∧ 8 + m + left o.2.2 ≤ left c + 8) := by
        intro start strip
        refine Run.mono (ih start strip (c.advanceBy 8) (hm.pos hp)) (by omega) ?_
        intro o m _ _ ho
        exact ⟨hm.trans ho.1, by have := ho.2; dsimp only at this; omega⟩
      dsimp only
      refine Run.ite (fun _ => Run.ite (fun _ => key _ _) (fun _ => ?_)) (fun _ => key _ _)
      refine Run.bind (P := fun _ k => k = 0) (Run.lift (fun _ _ => rfl)) ?_
      rintro d k _ _ rfl
      refine Run.mono (key _ _) (by omega) ?_
      intro o m _ _ ho
      rwa [Nat.zero_add]

theorem skipDigits_reads (fuel : Nat) (c : Cursor) : Reads 1 c (skipDigits fuel c) id := by
  have step : ∀ {c' : Cursor}, c.parseDigit = some c' → Moved c c' ∧ left c' + 1 = left c := by
    intro c' h
    unfold Cursor.parseDigit at h
    cases hc : c.cur with
    | none => rw [hc] at h; cases h
    | some b =>
      rw [hc] at h
      dsimp only at h
      cases hb : isDigit b with
      | false => rw [hb] at h; cases h
      | true =>
        rw [hb] at h
        cases h
        have := cur_left hc
        have e := left_advanceBy c 1
        exact ⟨moved_advance hc, by show left (c.advanceBy 1) + 1 = _; omega⟩
  induction fuel generalizing c with
  | zero =>
    unfold skipDigits
    refine Run.charge (by omega) ?_
    cases h : c.parseDigit with
    | none => exact Run.ok ⟨Moved.refl c, by show 1 + 0 + left c ≤ _; omega⟩
    | some c' => exact Run.panic
  | succ fuel ih =>
    unfold skipDigits
    refine Run.charge (by omega) ?_
    cases h : c.parseDigit with
    | none => exact Run.ok ⟨Moved.refl c, by show 1 + 0 + left c ≤ _; omega⟩
    | some c' =>
      obtain ⟨hm, hl⟩ := step h
      refine Run.mono (ih c' ?_) (by omega) ?_
      · intro c'' h'
        unfold Cursor.parseDigit at h'
        cases hc : c'.cur with
        | none => rw [hc] at h'; cases h'
        | some b =>
          rw [hc] at h'
          dsimp only at h'
          cases hb : isDigit b with
          | false => rw [hb] at h'; cases h'
          | true =>
            rw [hb] at h'
            cases h'
            have := cur_left hc
            have e := left_advanceBy c' 1
            exact ⟨moved_advance hc, by show left (c'.advanceBy 1) + 1 = _; omega⟩
      · intro o m _ _ ho
        exact ⟨hm.trans ho.1, by have := ho.2; omega⟩

theorem stripEach_reads (fuel start : Nat) (strip : Bool) (c : Cursor) : Reads 1 c (stripEach fuel start strip c) (fun o => o.2) := by
  induction fuel generalizing c start strip with
  | zero =>
    unfold stripEach
    refine Run.charge (by omega) ?_
    cases hc : c.cur with
    | none => exact Run.ok ⟨Moved.refl c, by show 1 + 0 + left c ≤ _; omega⟩
    | some b => exact Run.ite (fun _ => Run.panic) (fun _ => Run.ok ⟨Moved.refl c, by show 1 + 0 + left c ≤ _; omega⟩)
  | succ fuel ih =>
    unfold stripEach
    refine Run.charge (by omega) ?_
    cases hc : c.cur with
    | none => exact Run.ok ⟨Moved.refl c, by show 1 + 0 + left c ≤ _; omega⟩
    | some b =>
      have hm := moved_advance hc
      have h1 := cur_left hc
      have e : left c.advance = left c - 1 := left_advanceBy c 1
      have key : ∀ start strip, Run (stripEach fuel start strip c.advance) (left c + 1 - 1)
          (fun o m => Moved c o.2 ∧ 1 + m + left o.2 ≤ left c + 1) := by
        intro start strip
        refine Run.mono (ih start strip c.advance) (by omega) ?_
        intro o m _ _ ho
        exact ⟨hm.trans ho.1, by have := ho.2; dsimp only at this; omega⟩
      exact Run.ite (fun _ => Run.ite (fun _ => key _ _) (fun _ => key _ _))
        (fun _ => Run.ok ⟨Moved.refl c, by show 1 + 0 + left c ≤ _; omega⟩)

theorem parseDigits_reads (c : Cursor) (hp : c.pos ≤ c.input.length) : Reads 9 c (parseDigits c) (fun o => o.2) := by
  unfold parseDigits
  refine Reads.lift (fun _ _ => ?_)
  refine Reads.bind (b := 8) (b' := 1) (skipBlocks_reads _ c hp) ?_
  intro c' _ hm
  refine Reads.bind (b := 1) (b' := 0) (skipDigits_reads _ c') ?_
  intro c'' _ hm'
  exact Reads.pure (Moved.refl _)

theorem parseDigitsStripZeros_reads (c : Cursor) (hp : c.pos ≤ c.input.length) : Reads 9 c (parseDigitsStripZeros c) (fun o => o.2) := by
  unfold parseDigitsStripZeros
  refine Reads.lift (fun _ _ => ?_)
  refine Reads.bind (b := 8) (b' := 1) (stripBlocks_reads _ _ _ c hp) ?_
  rintro ⟨s, t, c'⟩ _ hm
  refine Reads.bind (b := 1) (b' := 0) (stripEach_reads _ _ _ c') ?_
  rintro ⟨s', c''⟩ _ hm'
  exact Reads.pure (Moved.refl _)

theorem tryConsumeDelimiter_reads (d : Delimiter) (c : Cursor) {b : UInt8} (hb : c.cur = some b) (hd : d b = true) :
    Reads 1 c (tryConsumeDelimiter d c) id := by
  refine Run.mono (tryConsumeDelimiter_run d c hb hd) (Nat.le_refl _) ?_
  rintro c' k _ _ ⟨rfl, _, _, hk⟩
  have : (c.delims d).length ≤ left c := by rw [left_rest]; exact Cursor.takeWhile_length_le _ _
  have e := left_advanceBy c (c.delims d).length
  exact ⟨moved_by this, by show k + left (c.advanceBy _) ≤ _; omega⟩

end Fundu.Cost
