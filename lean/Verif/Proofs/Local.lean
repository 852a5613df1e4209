import Verif.Model.Parse
import Verif.Proofs.Prim
/-!
# The parser asks its delimiters and tables only about the text

A pass over the parser: two runs with delimiters which agree on the bytes of the text and tables which agree on its parts are the same.
-/
namespace Fundu.Local
open Fundu

variable {α β : Type}

/-- The two runs are the same, and `P` holds for their result. If `L` holds, the second run may panic instead, but not like the multiplication. -/
def Agrees (L : Prop) (P : α → Prop) (x y : R α) : Prop := (x = y ∨ (L ∧ ∃ p, p ≠ .unwrap ∧ y = panic p)) ∧ ∀ a, x = .ok a → P a

namespace Agrees
variable {L : Prop} {x y : R α} {P P' : α → Prop}

theorem mono (h : Agrees L P x y) (hP : ∀ a, P a → P' a) : Agrees L P' x y := ⟨h.1, fun a ha => hP a (h.2 a ha)⟩
theorem ok {a : α} (h : P a) : Agrees L P (.ok a) (.ok a) := ⟨Or.inl rfl, fun b hb => by cases hb; exact h⟩
theorem pure {a : α} (h : P a) : Agrees L P (Pure.pure a : R α) (Pure.pure a) := ok h
theorem fail {e : ParseError} : Agrees L P (Fundu.fail e) (Fundu.fail e) := ⟨Or.inl rfl, fun b hb => by cases hb⟩
theorem panic {e : Panic} : Agrees L P (Fundu.panic e) (Fundu.panic e) := ⟨Or.inl rfl, fun b hb => by cases hb⟩
theorem any : Agrees L (fun _ => True) x x := ⟨Or.inl rfl, fun _ _ => trivial⟩
theorem same (h : ∀ a, x = .ok a → P a) : Agrees L P x x := ⟨Or.inl rfl, h⟩

theorem bind {f g : α → R β} {Q : β → Prop} (h : Agrees L P x y) (hf : ∀ a, P a → Agrees L Q (f a) (g a)) : Agrees L Q (x >>= f) (y >>= g) := by
  obtain ⟨h, hP⟩ := h
  constructor
  · rcases h with rfl | ⟨hl, p, hp, rfl⟩
    · cases x with
      | error e => exact Or.inl rfl
      | ok a => rw [ok_bind, ok_bind]; exact (hf a (hP a rfl)).1
    · exact Or.inr ⟨hl, p, hp, rfl⟩
  · intro b hb
    cases x with
    | error e => cases hb
    | ok a => rw [ok_bind] at hb; exact (hf a (hP a rfl)).2 b hb

theorem ite {p q : Prop} [Decidable p] [Decidable q] {x' y' : R α} (e : p ↔ q) (h1 : p → Agrees L P x y) (h2 : ¬ p → Agrees L P x' y') :
    Agrees L P (if p then x else x') (if q then y else y') := by
  by_cases h : p
  · rw [if_pos h, if_pos (e.1 h)]; exact h1 h
  · rw [if_neg h, if_neg (fun hq => h (e.2 hq))]; exact h2 h
end Agrees

/-! ## The reader -/

/-- the reader reads `s`, and what it keeps in its buffer is a part of `s` -/
structure Good (s : Bytes) (c : Cursor) : Prop where
  input : c.input = s
  word : ∀ p w n, c.buffer = some (p, w, n) → w <:+: s
  next : ∀ p w b, c.buffer = some (p, w, some b) → b ∈ s

variable {L : Prop} {s : Bytes} {c : Cursor}

theorem good_new (s : Bytes) : Good s (Cursor.new s) := ⟨rfl, (fun _ _ _ h => by cases h), (fun _ _ _ h => by cases h)⟩

theorem Good.move (h : Good s c) (n : Nat) : Good s { c with pos := n } := ⟨h.input, h.word, h.next⟩
theorem Good.advance (h : Good s c) : Good s c.advance := h.move _
theorem Good.advanceBy (h : Good s c) (n : Nat) : Good s (c.advanceBy n) := h.move _
theorem Good.reset (h : Good s c) (n : Nat) : Good s (c.reset n) := h.move _
theorem Good.finish (h : Good s c) : Good s c.finish := h.move _

theorem Good.cur (h : Good s c) {b : UInt8} (hb : c.cur = some b) : b ∈ s := by
  unfold Cursor.cur at hb
  rw [h.input] at hb
  exact List.mem_of_getElem? hb

theorem slice_agrees (h : Good s c) (a b : Nat) : Agrees L (fun w => w <:+: s) (sliceR c.input a b) (sliceR c.input a b) := by
  refine Agrees.same fun w hw => ?_
  unfold sliceR slice at hw
  by_cases e : a ≤ b ∧ b ≤ c.input.length
  · rw [if_pos e] at hw
    cases hw
    rw [h.input]
    exact (List.drop_suffix _ _).isInfix.trans (List.take_prefix _ _).isInfix
  · rw [if_neg e] at hw
    cases hw

theorem skipTo_agrees {d d' : Delimiter} (hd : ∀ b ∈ s, d b = d' b) (n : Nat) (h : Good s c) :
    Agrees L (fun c' => Good s c') (Cursor.skipTo d n c) (Cursor.skipTo d' n c) := by
  induction n generalizing c with
  | zero =>
    unfold Cursor.skipTo
    cases hc : c.cur with
    | none => exact Agrees.ok h
    | some b => exact Agrees.ite (by rw [hd b (h.cur hc)]) (fun _ => Agrees.ok h) (fun _ => Agrees.panic)
  | succ n ih =>
    unfold Cursor.skipTo
    cases hc : c.cur with
    | none => exact Agrees.ok h
    | some b => exact Agrees.ite (by rw [hd b (h.cur hc)]) (fun _ => Agrees.ok h) (fun _ => ih h.advance)

/-- the result of a scan -/
def Scanned (s : Bytes) (p : Bytes × Cursor) : Prop := p.1 <:+: s ∧ Good s p.2

theorem advanceTo_agrees {d d' : Delimiter} (hd : ∀ b ∈ s, d b = d' b) (h : Good s c) :
    Agrees L (Scanned s) (c.advanceTo d) (c.advanceTo d') := by
  unfold Cursor.advanceTo
  refine Agrees.bind (skipTo_agrees hd _ h) fun c' h' => ?_
  refine Agrees.bind (slice_agrees h' _ _) fun w hw => ?_
  exact Agrees.pure ⟨hw, h'⟩

theorem buffered_agrees {d d' : Delimiter} (hd : ∀ b ∈ s, d b = d' b) (h : Good s c) :
    c.buffered d = c.buffered d' ∧ ∀ w, c.buffered d = some w → w <:+: s := by
  unfold Cursor.buffered
  cases hb : c.buffer with
  | none => exact ⟨rfl, fun w hw => by cases hw⟩
  | some x =>
    obtain ⟨p, w, _ | n⟩ := x
    · refine ⟨rfl, fun w' hw => ?_⟩
      dsimp only at hw
      split at hw
      · cases hw; exact h.word _ _ _ hb
      · cases hw
    · dsimp only
      rw [hd n (h.next _ _ _ hb)]
      refine ⟨rfl, fun w' hw => ?_⟩
      split at hw
      · cases hw; exact h.word _ _ _ hb
      · cases hw

theorem bufferedAdvanceTo_agrees {d d' : Delimiter} (hd : ∀ b ∈ s, d b = d' b) (h : Good s c) :
    Agrees L (Scanned s) (Cursor.bufferedAdvanceTo d c) (Cursor.bufferedAdvanceTo d' c) := by
  unfold Cursor.bufferedAdvanceTo
  obtain ⟨e, hw⟩ := buffered_agrees hd h
  rw [← e]
  cases hb : c.buffered d with
  | some w => exact Agrees.ok ⟨hw w hb, h.advanceBy _⟩
  | none =>
    refine Agrees.bind (skipTo_agrees hd _ h) fun c' h' => ?_
    refine Agrees.bind (slice_agrees h' _ _) fun w hw => ?_
    refine Agrees.pure ⟨hw, h'.input, ?_, ?_⟩
    · rintro p w' n e'; cases e'; exact hw
    · intro p w' b e'
      have e' : (some (c.pos, w, c'.cur) : Option (Nat × Bytes × Option UInt8)) = some (p, w', some b) := e'
      have e2 : c'.cur = some b := by injection e' with e'; injection e' with _ e'; injection e' with _ e'
      exact h'.cur e2

theorem assertDelimiter_agrees {d d' : Delimiter} (hd : ∀ b ∈ s, d b = d' b) (h : Good s c) :
    Agrees L (fun _ => True) (Cursor.assertDelimiter d c) (Cursor.assertDelimiter d' c) := by
  unfold Cursor.assertDelimiter
  cases hc : c.cur with
  | none => exact Agrees.panic
  | some b => exact Agrees.ite (by rw [hd b (h.cur hc)]) (fun _ => Agrees.ok trivial) (fun _ => Agrees.panic)

theorem tryConsumeDelimiter_agrees {d d' : Delimiter} (hd : ∀ b ∈ s, d b = d' b) (h : Good s c) :
    Agrees L (Good s) (c.tryConsumeDelimiter d) (c.tryConsumeDelimiter d') := by
  unfold Cursor.tryConsumeDelimiter
  refine Agrees.bind (assertDelimiter_agrees hd h) fun _ _ => ?_
  refine Agrees.ite Iff.rfl (fun _ => Agrees.fail) (fun _ => ?_)
  refine Agrees.bind (skipTo_agrees (fun b hb => by rw [hd b hb]) _ h.advance) fun c' h' => ?_
  cases hc : c'.cur with
  | none => exact Agrees.fail
  | some b => exact Agrees.pure h'

/-- what `advance_to` returns -/
theorem skipTo_result {d : Delimiter} (n : Nat) (c : Cursor) :
    (∃ m, Cursor.skipTo d n c = .ok { c with pos := m }) ∨ Cursor.skipTo d n c = Fundu.panic .fuel := by
  induction n generalizing c with
  | zero =>
    unfold Cursor.skipTo
    cases hc : c.cur with
    | none => exact Or.inl ⟨c.pos, rfl⟩
    | some b =>
      dsimp only
      by_cases e : d b = true
      · rw [if_pos e]; exact Or.inl ⟨c.pos, rfl⟩
      · rw [if_neg e]; exact Or.inr rfl
  | succ n ih =>
    unfold Cursor.skipTo
    cases hc : c.cur with
    | none => exact Or.inl ⟨c.pos, rfl⟩
    | some b =>
      dsimp only
      by_cases e : d b = true
      · rw [if_pos e]; exact Or.inl ⟨c.pos, rfl⟩
      · rw [if_neg e]; exact ih c.advance

theorem advanceTo_result {d : Delimiter} (c : Cursor) :
    (∃ w m, c.advanceTo d = .ok (w, { c with pos := m }) ∧ (w = [] → m = c.pos) ∧ w <:+: c.input) ∨
      ∃ p, p ≠ .unwrap ∧ c.advanceTo d = Fundu.panic p := by
  unfold Cursor.advanceTo
  rcases skipTo_result (d := d) c.input.length c with ⟨m, e⟩ | e
  · rw [e, ok_bind]
    unfold sliceR slice
    by_cases h : c.pos ≤ m ∧ m ≤ c.input.length
    · rw [if_pos h]
      refine Or.inl ⟨_, m, rfl, fun h0 => ?_, (List.drop_suffix _ _).isInfix.trans (List.take_prefix _ _).isInfix⟩
      have := congrArg List.length h0
      dsimp only at this
      rw [List.length_drop, List.length_take, List.length_nil] at this
      omega
    · rw [if_neg h]
      exact Or.inr ⟨_, by decide, rfl⟩
  · rw [e]
    exact Or.inr ⟨_, by decide, rfl⟩

/-- looking up a word in a table which does not have it, with the unbuffered reader -/
theorem miss_agrees {γ : Type} (h : Good s c) (hL : L) (d : Delimiter) (f : Bytes → Cursor → R (Option γ × Cursor))
    (hf : ∀ w c', w <:+: s → f w c' = .ok (none, c'.reset c.pos)) :
    Agrees L (fun p => Good s p.2) (.ok (none, c)) (do
      let (w, c') ← c.advanceTo d
      if w.isEmpty then return (none, c') else do
        let v ← utf8Unchecked w
        f v c') := by
  refine ⟨?_, fun a ha => by cases ha; exact h⟩
  rcases advanceTo_result (d := d) c with ⟨w, m, e, h0, hw⟩ | ⟨p, hp, e⟩
  · rw [e, ok_bind]
    dsimp only
    rw [h.input] at hw
    by_cases hw0 : w.isEmpty = true
    · rw [if_pos hw0, h0 (List.isEmpty_iff.1 hw0)]
      exact Or.inl rfl
    · rw [if_neg hw0]
      unfold utf8Unchecked
      by_cases hu : utf8Valid w = true
      · rw [if_pos hu, ok_bind, hf w _ hw]
        exact Or.inl rfl
      · rw [if_neg hu]
        exact Or.inr ⟨hL, _, by decide, rfl⟩
  · rw [e]
    exact Or.inr ⟨hL, p, hp, rfl⟩

/-! ## Digits -/

theorem parse8_good (h : Good s c) : Agrees L (fun o => ∀ n c', o = some (n, c') → Good s c') c.parse8 c.parse8 := by
  unfold Cursor.parse8
  cases hp : c.peek 8 with
  | none => exact Agrees.ok fun _ _ e => by cases e
  | some d =>
    refine Agrees.bind Agrees.any fun num _ => ?_
    refine Agrees.ite Iff.rfl (fun _ => Agrees.pure ?_) (fun _ => Agrees.pure fun _ _ e => by cases e)
    rintro n c' e
    cases e
    exact h.advanceBy _

theorem stripBlocks_good (fuel start : Nat) (strip : Bool) (h : Good s c) :
    Agrees L (fun p => Good s p.2.2) (Cursor.stripBlocks fuel start strip c) (Cursor.stripBlocks fuel start strip c) := by
  induction fuel generalizing start strip c with
  | zero =>
    unfold Cursor.stripBlocks
    refine Agrees.bind (parse8_good h) ?_
    rintro (_ | ⟨n, c'⟩) h'
    · exact Agrees.pure h
    · exact Agrees.panic
  | succ fuel ih =>
    unfold Cursor.stripBlocks
    refine Agrees.bind (parse8_good h) ?_
    rintro (_ | ⟨n, c'⟩) h'
    · exact Agrees.pure h
    · have h' := h' n c' rfl
      refine Agrees.ite Iff.rfl (fun _ => ?_) (fun _ => ih _ _ h')
      refine Agrees.ite Iff.rfl (fun _ => ih _ _ h') (fun _ => ?_)
      exact Agrees.bind Agrees.any fun _ _ => ih _ _ h'

theorem stripEach_good (fuel start : Nat) (strip : Bool) (h : Good s c) :
    Agrees L (fun p => Good s p.2) (Cursor.stripEach fuel start strip c) (Cursor.stripEach fuel start strip c) := by
  induction fuel generalizing start strip c with
  | zero =>
    unfold Cursor.stripEach
    cases hc : c.cur with
    | none => exact Agrees.ok h
    | some b => exact Agrees.ite Iff.rfl (fun _ => Agrees.panic) (fun _ => Agrees.ok h)
  | succ fuel ih =>
    unfold Cursor.stripEach
    cases hc : c.cur with
    | none => exact Agrees.ok h
    | some b =>
      refine Agrees.ite Iff.rfl (fun _ => ?_) (fun _ => Agrees.ok h)
      exact Agrees.ite Iff.rfl (fun _ => ih _ _ h.advance) (fun _ => ih _ _ h.advance)

theorem parseDigitsStripZeros_good (h : Good s c) : Agrees L (fun p => Good s p.2) c.parseDigitsStripZeros c.parseDigitsStripZeros := by
  unfold Cursor.parseDigitsStripZeros
  refine Agrees.bind Agrees.any fun _ _ => ?_
  refine Agrees.bind (stripBlocks_good _ _ _ h) ?_
  rintro ⟨a, b, c1⟩ h1
  refine Agrees.bind (stripEach_good _ _ _ h1) ?_
  rintro ⟨a', c2⟩ h2
  exact Agrees.pure h2

theorem skipBlocks_good (fuel : Nat) (h : Good s c) : Agrees L (Good s) (Cursor.skipBlocks fuel c) (Cursor.skipBlocks fuel c) := by
  induction fuel generalizing c with
  | zero =>
    unfold Cursor.skipBlocks
    refine Agrees.bind (parse8_good h) ?_
    rintro (_ | ⟨n, c'⟩) h'
    · exact Agrees.pure h
    · exact Agrees.panic
  | succ fuel ih =>
    unfold Cursor.skipBlocks
    refine Agrees.bind (parse8_good h) ?_
    rintro (_ | ⟨n, c'⟩) h'
    · exact Agrees.pure h
    · exact ih (h' n c' rfl)

theorem parseDigit_good (h : Good s c) {c' : Cursor} (e : c.parseDigit = some c') : Good s c' := by
  unfold Cursor.parseDigit at e
  cases hc : c.cur with
  | none => rw [hc] at e; cases e
  | some b =>
    rw [hc] at e
    dsimp only at e
    split at e
    · cases e; exact h.advance
    · cases e

theorem skipDigits_good (fuel : Nat) (h : Good s c) : Agrees L (Good s) (Cursor.skipDigits fuel c) (Cursor.skipDigits fuel c) := by
  induction fuel generalizing c with
  | zero =>
    unfold Cursor.skipDigits
    cases hc : c.parseDigit with
    | none => exact Agrees.ok h
    | some c' => exact Agrees.panic
  | succ fuel ih =>
    unfold Cursor.skipDigits
    cases hc : c.parseDigit with
    | none => exact Agrees.ok h
    | some c' => exact ih (parseDigit_good h hc)

theorem parseDigits_good (h : Good s c) : Agrees L (fun p => Good s p.2) c.parseDigits c.parseDigits := by
  unfold Cursor.parseDigits
  refine Agrees.bind Agrees.any fun _ _ => ?_
  refine Agrees.bind (skipBlocks_good _ h) fun c1 h1 => ?_
  refine Agrees.bind (skipDigits_good _ h1) fun c2 h2 => ?_
  exact Agrees.pure h2

end Fundu.Local
