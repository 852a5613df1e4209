import Verif.Model.RawBytes
import Verif.Proofs.Prim
/-! # The stored current byte and the computed one -/
namespace Fundu.RawBytes
open Fundu

/-- the stored byte is the byte at the current position -/
def Coherent (r : RawBytes) : Prop := r.currentByte = r.input[r.currentPos]?

/-- the model with a stored byte which belongs to a cursor -/
def ofCursor (c : Cursor) : RawBytes := ⟨c.pos, c.cur, c.buffer, c.input⟩

theorem ofCursor_coherent (c : Cursor) : Coherent (ofCursor c) := rfl
theorem cursor_ofCursor (c : Cursor) : (ofCursor c).cursor = c := rfl
theorem of_coherent {r : RawBytes} (h : Coherent r) : r = ofCursor r.cursor := by
  obtain ⟨p, b, u, i⟩ := r
  unfold Coherent at h
  dsimp only at h
  subst h
  rfl

variable (c : Cursor)

theorem new_of (I : Bytes) : new I = ofCursor (Cursor.new I) := by
  unfold new ofCursor Cursor.new Cursor.cur
  cases I <;> rfl

theorem advance_of : (ofCursor c).advance = ofCursor c.advance := rfl
theorem advanceBy_of (n : Nat) : (ofCursor c).advanceBy n = ofCursor (c.advanceBy n) := rfl
theorem reset_of (p : Nat) : (ofCursor c).reset p = ofCursor (c.reset p) := rfl
theorem finish_of : (ofCursor c).finish = ofCursor c.finish := by
  unfold finish ofCursor Cursor.finish Cursor.cur
  dsimp only
  rw [List.getElem?_eq_none (Nat.le_refl _)]

theorem skipTo_of (d : Delimiter) (n : Nat) : skipTo d n (ofCursor c) = (Cursor.skipTo d n c).map ofCursor := by
  induction n generalizing c with
  | zero =>
    unfold skipTo Cursor.skipTo
    show (match c.cur with | none => _ | some b => _) = _
    cases c.cur with
    | none => rfl
    | some b => dsimp only; cases d b <;> rfl
  | succ n ih =>
    unfold skipTo Cursor.skipTo
    show (match c.cur with | none => _ | some b => _) = _
    cases c.cur with
    | none => rfl
    | some b =>
      dsimp only
      cases d b
      · exact ih c.advance
      · rfl

/-- a result together with the state -/
def lift2 {α : Type} (x : R (α × Cursor)) : R (α × RawBytes) := x.map fun p => (p.1, ofCursor p.2)

theorem advanceTo_of (d : Delimiter) : advanceTo d (ofCursor c) = lift2 (Cursor.advanceTo d c) := by
  unfold advanceTo Cursor.advanceTo lift2
  show (skipTo d c.input.length (ofCursor c) >>= fun r => _) = _
  rw [skipTo_of]
  cases Cursor.skipTo d c.input.length c with
  | error e => rfl
  | ok c' =>
    show (sliceR c'.input c.pos c'.pos >>= fun x => _) = _
    cases h : sliceR c'.input c.pos c'.pos with
    | error e => simp only [bind, Except.bind, Except.map]; rw [h]
    | ok w => simp only [bind, Except.bind, Except.map]; rw [h]; rfl

theorem fillBuffer_of (d : Delimiter) (h : c.buffered d = none) : fillBuffer d (ofCursor c) = lift2 (Cursor.bufferedAdvanceTo d c) := by
  unfold fillBuffer Cursor.bufferedAdvanceTo lift2
  rw [h]
  show (skipTo d c.input.length (ofCursor c) >>= fun r => _) = _
  rw [skipTo_of]
  cases Cursor.skipTo d c.input.length c with
  | error e => rfl
  | ok c' =>
    show (sliceR c'.input c.pos c'.pos >>= fun x => _) = _
    cases h : sliceR c'.input c.pos c'.pos with
    | error e => simp only [bind, Except.bind, Except.map]; rw [h]
    | ok w => simp only [bind, Except.bind, Except.map]; rw [h]; rfl

theorem bufferedAdvanceTo_of (d : Delimiter) : bufferedAdvanceTo d (ofCursor c) = lift2 (Cursor.bufferedAdvanceTo d c) := by
  have key : ∀ b, c.buffered d = some b → lift2 (Cursor.bufferedAdvanceTo d c) = .ok (b, (ofCursor c).advanceBy b.length) := by
    intro b h
    unfold lift2 Cursor.bufferedAdvanceTo
    rw [h]
    rfl
  have e : bufferedAdvanceTo d (ofCursor c) = match c.buffer with
      | some (pos, buffer, some next) =>
        if pos = c.pos && d next then .ok (buffer, (ofCursor c).advanceBy buffer.length) else fillBuffer d (ofCursor c)
      | some (pos, buffer, none) => if pos = c.pos then .ok (buffer, (ofCursor c).advanceBy buffer.length) else fillBuffer d (ofCursor c)
      | none => fillBuffer d (ofCursor c) := rfl
  have e' : c.buffered d = match c.buffer with
      | some (pos, buffer, some next) => if pos = c.pos && d next then some buffer else none
      | some (pos, buffer, none) => if pos = c.pos then some buffer else none
      | none => none := rfl
  rw [e]
  cases hb : c.buffer with
  | none => rw [hb] at e'; exact fillBuffer_of c d e'
  | some x =>
    obtain ⟨pos, buffer, next⟩ := x
    rw [hb] at e'
    cases next with
    | none =>
      dsimp only at e' ⊢
      by_cases h : pos = c.pos
      · rw [if_pos h] at e' ⊢; exact (key _ e').symm
      · rw [if_neg h] at e' ⊢; exact fillBuffer_of c d e'
    | some n =>
      dsimp only at e' ⊢
      by_cases h : (pos = c.pos && d n) = true
      · rw [if_pos h] at e' ⊢; exact (key _ e').symm
      · rw [if_neg h] at e' ⊢; exact fillBuffer_of c d e'

theorem parseDigit_of : (parseDigit (ofCursor c)) =
    match c.parseDigit with
    | some c' => (c.cur, ofCursor c')
    | none => (none, ofCursor c) := by
  unfold parseDigit Cursor.parseDigit
  show (match c.cur with | some byte => _ | none => _) = _
  cases c.cur with
  | none => rfl
  | some b => dsimp only; cases isDigit b <;> rfl

theorem parseDigit_cur {c' : Cursor} (h : c.parseDigit = some c') : ∃ b, c.cur = some b ∧ isDigit b = true := by
  unfold Cursor.parseDigit at h
  cases hc : c.cur with
  | none => rw [hc] at h; cases h
  | some b =>
    rw [hc] at h
    dsimp only at h
    cases hb : isDigit b with
    | false => rw [hb] at h; cases h
    | true => exact ⟨b, rfl, hb⟩

/-- the result of `parse_8_digits` with the state -/
def with8 : Option (Nat × Cursor) → Option Nat × RawBytes
  | some (n, c') => (some n, ofCursor c')
  | none => (none, ofCursor c)

theorem parse8_of : parse8 (ofCursor c) = c.parse8.map (with8 c) := by
  unfold parse8 Cursor.parse8
  show (match c.peek 8 with | none => _ | some digits => _) = _
  cases c.peek 8 with
  | none => rfl
  | some digits =>
    dsimp only
    cases liftP (readU64 digits) with
    | error e => rfl
    | ok num =>
      rw [ok_bind, ok_bind]
      generalize hg : num &&& ((num + 0x0606060606060606) % 18446744073709551616) &&& 0xf0f0f0f0f0f0f0f0 = x
      by_cases hx : x = 0x3030303030303030
      · rw [if_pos hx, if_pos hx]; rfl
      · rw [if_neg hx, if_neg hx]; rfl

theorem assertDigit_of : assertDigit (ofCursor c) = c.assertDigit := rfl
theorem assertDelimiter_of (d : Delimiter) : assertDelimiter d (ofCursor c) = c.assertDelimiter d := rfl
theorem checkEnd_of : checkEndOfInput (ofCursor c) = c.checkEnd := rfl

theorem stripBlocks_of (fuel start : Nat) (strip : Bool) :
    stripBlocks fuel start strip (ofCursor c) = (Cursor.stripBlocks fuel start strip c).map fun p => (p.1, p.2.1, ofCursor p.2.2) := by
  induction fuel generalizing start strip c with
  | zero =>
    unfold stripBlocks Cursor.stripBlocks
    rw [parse8_of]
    cases c.parse8 with
    | error e => rfl
    | ok o =>
      cases o with
      | none => rfl
      | some x => rfl
  | succ fuel ih =>
    unfold stripBlocks Cursor.stripBlocks
    rw [parse8_of]
    cases c.parse8 with
    | error e => rfl
    | ok o =>
      cases o with
      | none => rfl
      | some x =>
        obtain ⟨eight, c'⟩ := x
        show (if strip = true then _ else _) = Except.map _ (if strip = true then _ else _)
        cases strip with
        | false => exact ih c' start false
        | true =>
          rw [if_pos rfl, if_pos rfl]
          by_cases h : eight = 0x3030303030303030
          · rw [if_pos h, if_pos h]; exact ih c' _ _
          · rw [if_neg h, if_neg h]
            cases liftP (subUsize eight 0x3030303030303030) with
            | error e => rfl
            | ok d => exact ih c' _ _

theorem stripEach_of (fuel start : Nat) (strip : Bool) :
    stripEach fuel start strip (ofCursor c) = lift2 (Cursor.stripEach fuel start strip c) := by
  induction fuel generalizing start strip c with
  | zero =>
    unfold stripEach Cursor.stripEach
    show (match c.cur with | none => _ | some b => _) = _
    cases c.cur with
    | none => rfl
    | some b => dsimp only; cases isDigit b <;> rfl
  | succ fuel ih =>
    unfold stripEach Cursor.stripEach
    show (match c.cur with | none => _ | some b => _) = _
    cases c.cur with
    | none => rfl
    | some b =>
      dsimp only
      cases isDigit b with
      | false => rfl
      | true =>
        rw [if_pos rfl, if_pos rfl]
        cases (strip && decide (b = 48)) with
        | false => exact ih c.advance _ _
        | true => exact ih c.advance _ _

theorem parseDigitsStripZeros_of : parseDigitsStripZeros (ofCursor c) = lift2 c.parseDigitsStripZeros := by
  unfold parseDigitsStripZeros Cursor.parseDigitsStripZeros
  rw [assertDigit_of]
  cases c.assertDigit with
  | error e => rfl
  | ok u =>
    rw [ok_bind, ok_bind]
    show (stripBlocks c.input.length c.pos true (ofCursor c) >>= fun p => _) = _
    rw [stripBlocks_of]
    cases Cursor.stripBlocks c.input.length c.pos true c with
    | error e => rfl
    | ok p =>
      obtain ⟨start, strip, c'⟩ := p
      show (stripEach c'.input.length start strip (ofCursor c') >>= fun p => _) =
        lift2 (Cursor.stripEach c'.input.length start strip c' >>= fun p => _)
      rw [stripEach_of]
      cases Cursor.stripEach c'.input.length start strip c' with
      | error e => rfl
      | ok q => rfl

theorem skipBlocks_of (fuel : Nat) : skipBlocks fuel (ofCursor c) = (Cursor.skipBlocks fuel c).map ofCursor := by
  induction fuel generalizing c with
  | zero =>
    unfold skipBlocks Cursor.skipBlocks
    rw [parse8_of]
    cases c.parse8 with
    | error e => rfl
    | ok o => cases o <;> rfl
  | succ fuel ih =>
    unfold skipBlocks Cursor.skipBlocks
    rw [parse8_of]
    cases c.parse8 with
    | error e => rfl
    | ok o =>
      cases o with
      | none => rfl
      | some x => exact ih x.2

theorem skipDigits_of (fuel : Nat) : skipDigits fuel (ofCursor c) = (Cursor.skipDigits fuel c).map ofCursor := by
  induction fuel generalizing c with
  | zero =>
    unfold skipDigits Cursor.skipDigits
    rw [parseDigit_of]
    cases h : c.parseDigit with
    | none => rfl
    | some c' => obtain ⟨b, hb, -⟩ := parseDigit_cur c h; dsimp only; rw [hb]; rfl
  | succ fuel ih =>
    unfold skipDigits Cursor.skipDigits
    rw [parseDigit_of]
    cases h : c.parseDigit with
    | none => rfl
    | some c' => obtain ⟨b, hb, -⟩ := parseDigit_cur c h; dsimp only; rw [hb]; exact ih c'

theorem parseDigits_of : parseDigits (ofCursor c) = lift2 c.parseDigits := by
  unfold parseDigits Cursor.parseDigits
  rw [assertDigit_of]
  cases c.assertDigit with
  | error e => rfl
  | ok u =>
    rw [ok_bind, ok_bind]
    show (skipBlocks c.input.length (ofCursor c) >>= fun p => _) = _
    rw [skipBlocks_of]
    cases Cursor.skipBlocks c.input.length c with
    | error e => rfl
    | ok c' =>
      show (skipDigits c.input.length (ofCursor c') >>= fun p => _) =
        lift2 (Cursor.skipDigits c.input.length c' >>= fun p => _)
      rw [skipDigits_of]
      cases Cursor.skipDigits c.input.length c' with
      | error e => rfl
      | ok c'' => rfl

theorem skipDelimiters_of (d : Delimiter) (n : Nat) :
    skipDelimiters d n (ofCursor c) = (Cursor.skipTo (fun b => !d b) n c).map ofCursor := by
  induction n generalizing c with
  | zero =>
    unfold skipDelimiters Cursor.skipTo
    show (match c.cur with | none => _ | some b => _) = _
    cases c.cur with
    | none => rfl
    | some b => dsimp only; cases d b <;> rfl
  | succ n ih =>
    unfold skipDelimiters Cursor.skipTo
    show (match c.cur with | none => _ | some b => _) = _
    cases c.cur with
    | none => rfl
    | some b =>
      dsimp only
      cases d b
      · rfl
      · exact ih c.advance

/-- the error of `try_consume_delimiter` leaves the parser without a state -/
def dropState {α β : Type} (x : R (Except ParseError α × β)) : R β :=
  match x with
  | .error f => .error f
  | .ok (.error e, _) => fail e
  | .ok (.ok _, r) => .ok r

theorem tryConsumeDelimiter_of (d : Delimiter) :
    dropState (tryConsumeDelimiter d (ofCursor c)) = (c.tryConsumeDelimiter d).map ofCursor := by
  unfold tryConsumeDelimiter Cursor.tryConsumeDelimiter
  rw [assertDelimiter_of]
  cases c.assertDelimiter d with
  | error e => rfl
  | ok u =>
    rw [ok_bind, ok_bind]
    show dropState (if c.pos = 0 then _ else _) = _
    by_cases h0 : c.pos = 0
    · rw [if_pos h0, if_pos h0]; rfl
    · rw [if_neg h0, if_neg h0]
      show dropState (skipDelimiters d c.input.length (ofCursor c.advance) >>= fun r => _) = _
      rw [skipDelimiters_of]
      cases Cursor.skipTo (fun b => !d b) c.input.length c.advance with
      | error e => rfl
      | ok c' =>
        show dropState (match c'.cur with | some _ => _ | none => _) =
          Except.map _ (match c'.cur with | some _ => _ | none => _)
        cases c'.cur with
        | none => rfl
        | some b => rfl

end Fundu.RawBytes
