import Verif.Proofs.RawBytes
import Verif.Proofs.Cursor
/-!
# Property C102: the byte the parser looks at is the byte at its position

The reader of the input stores the byte at the current position next to the position. Whatever the parser calls on it, in whatever order,
the two belong together, and the buffer holds a part of the input.
-/
namespace Fundu.RawBytes
open Fundu

/-- the calls the parser can make to change the state of the reader -/
inductive Call where
  | advance
  | advanceBy (num : Nat)
  | advanceTo (d : Delimiter)
  | bufferedAdvanceTo (d : Delimiter)
  | finish
  | reset (position : Nat)
  | parseDigit
  | parse8
  | parseDigitsStripZeros
  | parseDigits
  | tryConsumeDelimiter (d : Delimiter)

/-- the state after a call; the errors of `tryConsumeDelimiter` leave a state, a panic leaves none -/
def Call.run : Call → RawBytes → R RawBytes
  | .advance, r => .ok r.advance
  | .advanceBy n, r => .ok (r.advanceBy n)
  | .advanceTo d, r => (r.advanceTo d).map Prod.snd
  | .bufferedAdvanceTo d, r => (r.bufferedAdvanceTo d).map Prod.snd
  | .finish, r => .ok r.finish
  | .reset p, r => .ok (r.reset p)
  | .parseDigit, r => .ok r.parseDigit.2
  | .parse8, r => r.parse8.map Prod.snd
  | .parseDigitsStripZeros, r => r.parseDigitsStripZeros.map Prod.snd
  | .parseDigits, r => r.parseDigits.map Prod.snd
  | .tryConsumeDelimiter d, r => (r.tryConsumeDelimiter d).map Prod.snd

/-- the state after a history of calls -/
def runCalls : List Call → RawBytes → R RawBytes
  | [], r => .ok r
  | call :: calls, r => call.run r >>= runCalls calls

/-- what the calls other than `bufferedAdvanceTo` keep -/
structure Keeps (I : Bytes) (u : Option (Nat × Bytes × Option UInt8)) (r : RawBytes) : Prop where
  input : r.input = I
  buffer : r.buffer = u
  byte : r.currentByte = I[r.currentPos]?

section
variable {I : Bytes} {u : Option (Nat × Bytes × Option UInt8)} {r r' : RawBytes}

theorem keeps_advance (h : Keeps I u r) : Keeps I u r.advance :=
  ⟨h.input, h.buffer, by rw [← h.input]; rfl⟩
theorem keeps_advanceBy (h : Keeps I u r) (n : Nat) : Keeps I u (r.advanceBy n) :=
  ⟨h.input, h.buffer, by rw [← h.input]; rfl⟩
theorem keeps_reset (h : Keeps I u r) (p : Nat) : Keeps I u (r.reset p) :=
  ⟨h.input, h.buffer, by rw [← h.input]; rfl⟩
theorem keeps_finish (h : Keeps I u r) : Keeps I u r.finish :=
  ⟨h.input, h.buffer, by rw [← h.input]; exact (List.getElem?_eq_none (Nat.le_refl _)).symm⟩

theorem keeps_skipTo (d : Delimiter) (n : Nat) (h : Keeps I u r) (e : skipTo d n r = .ok r') : Keeps I u r' := by
  induction n generalizing r with
  | zero =>
    unfold skipTo at e
    cases hb : r.currentByte with
    | none => rw [hb] at e; cases e; exact h
    | some b =>
      rw [hb] at e
      dsimp only at e
      cases hd : d b with
      | false => rw [hd] at e; cases e
      | true => rw [hd] at e; cases e; exact h
  | succ n ih =>
    unfold skipTo at e
    cases hb : r.currentByte with
    | none => rw [hb] at e; cases e; exact h
    | some b =>
      rw [hb] at e
      dsimp only at e
      cases hd : d b with
      | false => rw [hd] at e; exact ih (keeps_advance h) e
      | true => rw [hd] at e; cases e; exact h

theorem keeps_skipDelimiters (d : Delimiter) (n : Nat) (h : Keeps I u r) (e : skipDelimiters d n r = .ok r') : Keeps I u r' := by
  induction n generalizing r with
  | zero =>
    unfold skipDelimiters at e
    cases hb : r.currentByte with
    | none => rw [hb] at e; cases e; exact h
    | some b =>
      rw [hb] at e
      dsimp only at e
      cases hd : d b with
      | true => rw [hd] at e; cases e
      | false => rw [hd] at e; cases e; exact h
  | succ n ih =>
    unfold skipDelimiters at e
    cases hb : r.currentByte with
    | none => rw [hb] at e; cases e; exact h
    | some b =>
      rw [hb] at e
      dsimp only at e
      cases hd : d b with
      | true => rw [hd] at e; exact ih (keeps_advance h) e
      | false => rw [hd] at e; cases e; exact h

theorem keeps_parseDigit (h : Keeps I u r) : Keeps I u r.parseDigit.2 := by
  unfold parseDigit
  cases r.currentByte with
  | none => exact h
  | some b =>
    dsimp only
    cases isDigit b with
    | false => exact h
    | true => exact keeps_advance h

theorem keeps_parse8 {o : Option Nat} (h : Keeps I u r) (e : r.parse8 = .ok (o, r')) : Keeps I u r' := by
  unfold parse8 at e
  cases hp : r.cursor.peek 8 with
  | none => rw [hp] at e; cases e; exact h
  | some digits =>
    rw [hp] at e
    dsimp only at e
    cases hl : liftP (readU64 digits) with
    | error f => rw [hl] at e; cases e
    | ok num =>
      rw [hl, ok_bind] at e
      generalize num &&& ((num + 0x0606060606060606) % 18446744073709551616) &&& 0xf0f0f0f0f0f0f0f0 = x at e
      by_cases hx : x = 0x3030303030303030
      · rw [if_pos hx] at e; cases e; exact keeps_advanceBy h 8
      · rw [if_neg hx] at e; cases e; exact h

theorem keeps_stripBlocks {fuel start start' : Nat} {strip strip' : Bool} (h : Keeps I u r)
    (e : stripBlocks fuel start strip r = .ok (start', strip', r')) : Keeps I u r' := by
  induction fuel generalizing r start strip with
  | zero =>
    unfold stripBlocks at e
    cases hp : r.parse8 with
    | error f => rw [hp] at e; cases e
    | ok p =>
      obtain ⟨o, s⟩ := p
      have hs := keeps_parse8 h hp
      rw [hp] at e
      cases o with
      | none => cases e; exact hs
      | some x => cases e
  | succ fuel ih =>
    unfold stripBlocks at e
    cases hp : r.parse8 with
    | error f => rw [hp] at e; cases e
    | ok p =>
      obtain ⟨o, s⟩ := p
      have hs := keeps_parse8 h hp
      rw [hp, ok_bind] at e
      cases o with
      | none => cases e; exact hs
      | some x =>
        dsimp only at e
        cases strip with
        | false => exact ih hs e
        | true =>
          rw [if_pos rfl] at e
          by_cases hx : x = 0x3030303030303030
          · rw [if_pos hx] at e; exact ih hs e
          · rw [if_neg hx] at e
            cases hl : liftP (subUsize x 0x3030303030303030) with
            | error f => rw [hl] at e; cases e
            | ok d => rw [hl] at e; exact ih hs e

theorem keeps_stripEach {fuel start start' : Nat} {strip : Bool} (h : Keeps I u r)
    (e : stripEach fuel start strip r = .ok (start', r')) : Keeps I u r' := by
  induction fuel generalizing r start strip with
  | zero =>
    unfold stripEach at e
    cases hb : r.currentByte with
    | none => rw [hb] at e; cases e; exact h
    | some b =>
      rw [hb] at e
      dsimp only at e
      cases hd : isDigit b with
      | true => rw [hd] at e; cases e
      | false => rw [hd] at e; cases e; exact h
  | succ fuel ih =>
    unfold stripEach at e
    cases hb : r.currentByte with
    | none => rw [hb] at e; cases e; exact h
    | some b =>
      rw [hb] at e
      dsimp only at e
      cases hd : isDigit b with
      | false => rw [hd] at e; cases e; exact h
      | true =>
        rw [hd, if_pos rfl] at e
        by_cases hz : (strip && decide (b = 48)) = true
        · rw [if_pos hz] at e; exact ih (keeps_advance h) e
        · rw [if_neg hz] at e; exact ih (keeps_advance h) e

theorem keeps_skipBlocks {fuel : Nat} (h : Keeps I u r) (e : skipBlocks fuel r = .ok r') : Keeps I u r' := by
  induction fuel generalizing r with
  | zero =>
    unfold skipBlocks at e
    cases hp : r.parse8 with
    | error f => rw [hp] at e; cases e
    | ok p =>
      obtain ⟨o, s⟩ := p
      have hs := keeps_parse8 h hp
      rw [hp] at e
      cases o with
      | none => cases e; exact hs
      | some x => cases e
  | succ fuel ih =>
    unfold skipBlocks at e
    cases hp : r.parse8 with
    | error f => rw [hp] at e; cases e
    | ok p =>
      obtain ⟨o, s⟩ := p
      have hs := keeps_parse8 h hp
      rw [hp] at e
      cases o with
      | none => cases e; exact hs
      | some x => exact ih hs e

theorem keeps_skipDigits {fuel : Nat} (h : Keeps I u r) (e : skipDigits fuel r = .ok r') : Keeps I u r' := by
  induction fuel generalizing r with
  | zero =>
    have hs := keeps_parseDigit h
    unfold skipDigits at e
    generalize r.parseDigit = p at e hs
    obtain ⟨o, s⟩ := p
    cases o with
    | none => cases e; exact hs
    | some x => cases e
  | succ fuel ih =>
    have hs := keeps_parseDigit h
    unfold skipDigits at e
    generalize r.parseDigit = p at e hs
    obtain ⟨o, s⟩ := p
    cases o with
    | none => cases e; exact hs
    | some x => exact ih hs e

theorem keeps_advanceTo {d : Delimiter} {w : Bytes} (h : Keeps I u r) (e : r.advanceTo d = .ok (w, r')) : Keeps I u r' := by
  unfold advanceTo at e
  cases hs : skipTo d r.input.length r with
  | error f => rw [hs] at e; cases e
  | ok s =>
    rw [hs, ok_bind] at e
    cases hw : sliceR s.input r.currentPos s.currentPos with
    | error f => rw [hw] at e; cases e
    | ok x => rw [hw] at e; cases e; exact keeps_skipTo d _ h hs

theorem keeps_parseDigitsStripZeros {x : Range} (h : Keeps I u r) (e : r.parseDigitsStripZeros = .ok (x, r')) : Keeps I u r' := by
  unfold parseDigitsStripZeros at e
  cases ha : assertDigit r with
  | error f => rw [ha] at e; cases e
  | ok _ =>
    rw [ha, ok_bind] at e
    cases hb : stripBlocks r.input.length r.currentPos true r with
    | error f => rw [hb] at e; cases e
    | ok p =>
      obtain ⟨start, strip, s⟩ := p
      rw [hb, ok_bind] at e
      dsimp only at e
      cases hc : stripEach s.input.length start strip s with
      | error f => rw [hc] at e; cases e
      | ok q => obtain ⟨q, s'⟩ := q; rw [hc] at e; cases e; exact keeps_stripEach (keeps_stripBlocks h hb) hc

theorem keeps_parseDigits {x : Range} (h : Keeps I u r) (e : r.parseDigits = .ok (x, r')) : Keeps I u r' := by
  unfold parseDigits at e
  cases ha : assertDigit r with
  | error f => rw [ha] at e; cases e
  | ok _ =>
    rw [ha, ok_bind] at e
    dsimp only at e
    cases hb : skipBlocks r.input.length r with
    | error f => rw [hb] at e; cases e
    | ok s =>
      rw [hb, ok_bind] at e
      cases hc : skipDigits r.input.length s with
      | error f => rw [hc] at e; cases e
      | ok q => rw [hc] at e; cases e; exact keeps_skipDigits (keeps_skipBlocks h hb) hc

theorem keeps_tryConsumeDelimiter {d : Delimiter} {x : Except ParseError Unit} (h : Keeps I u r)
    (e : r.tryConsumeDelimiter d = .ok (x, r')) : Keeps I u r' := by
  unfold tryConsumeDelimiter at e
  cases ha : assertDelimiter d r with
  | error f => rw [ha] at e; cases e
  | ok _ =>
    rw [ha, ok_bind] at e
    by_cases h0 : r.currentPos = 0
    · rw [if_pos h0] at e; cases e; exact h
    · rw [if_neg h0] at e
      dsimp only at e
      cases hs : skipDelimiters d r.input.length r.advance with
      | error f => rw [hs] at e; cases e
      | ok s =>
        rw [hs, ok_bind] at e
        have k := keeps_skipDelimiters d _ (keeps_advance h) hs
        cases hb : s.currentByte with
        | none => rw [hb] at e; cases e; exact k
        | some b => rw [hb] at e; cases e; exact k

end

/-- the buffer holds a part of the input and the byte after it -/
def BufferOf (I : Bytes) (u : Option (Nat × Bytes × Option UInt8)) : Prop :=
  ∀ start word next, u = some (start, word, next) →
    ∃ before after, I = before ++ word ++ after ∧ before.length = start ∧ next = after.head?

theorem slice_parts {I w : Bytes} {a b : Nat} (h : sliceR I a b = .ok w) :
    ∃ before after, I = before ++ w ++ after ∧ before.length = a ∧ I[b]? = after.head? := by
  unfold sliceR at h
  by_cases hab : a ≤ b ∧ b ≤ I.length
  · rw [slice_ok hab.1 hab.2] at h
    cases h
    refine ⟨I.take a, I.drop b, ?_, by rw [List.length_take]; omega, by rw [List.head?_drop]⟩
    have : I.take a = (I.take b).take a := by rw [List.take_take, Nat.min_eq_left hab.1]
    rw [this, List.take_append_drop, List.take_append_drop]
  · exfalso
    unfold slice at h
    rw [if_neg (by simpa using hab)] at h
    cases h

theorem fillBuffer_keeps {I : Bytes} {u : Option (Nat × Bytes × Option UInt8)} {r r' : RawBytes} {d : Delimiter} {w : Bytes}
    (h : Keeps I u r) (e : r.fillBuffer d = .ok (w, r')) : ∃ v, Keeps I v r' ∧ BufferOf I v := by
  unfold fillBuffer at e
  dsimp only at e
  cases hs : skipTo d r.input.length r with
  | error f => rw [hs] at e; cases e
  | ok s =>
    rw [hs, ok_bind] at e
    have k := keeps_skipTo d _ h hs
    cases hw : sliceR s.input r.currentPos s.currentPos with
    | error f => rw [hw] at e; cases e
    | ok x =>
      rw [hw] at e
      cases e
      refine ⟨_, ⟨k.input, rfl, k.byte⟩, ?_⟩
      intro start word next hh
      cases hh
      rw [k.byte]
      rw [k.input] at hw
      exact slice_parts hw

theorem run_keeps {I : Bytes} {u : Option (Nat × Bytes × Option UInt8)} {r r' : RawBytes} {call : Call}
    (h : Keeps I u r) (hu : BufferOf I u) (e : call.run r = .ok r') : ∃ v, Keeps I v r' ∧ BufferOf I v := by
  have snd : ∀ {α : Type} {x : R (α × RawBytes)}, x.map Prod.snd = .ok r' → ∃ a, x = .ok (a, r') := by
    intro α x hx
    cases x with
    | error f => cases hx
    | ok p => cases hx; exact ⟨p.1, rfl⟩
  cases call with
  | advance => cases e; exact ⟨u, keeps_advance h, hu⟩
  | advanceBy n => cases e; exact ⟨u, keeps_advanceBy h n, hu⟩
  | advanceTo d => obtain ⟨a, ha⟩ := snd e; exact ⟨u, keeps_advanceTo h ha, hu⟩
  | finish => cases e; exact ⟨u, keeps_finish h, hu⟩
  | reset p => cases e; exact ⟨u, keeps_reset h p, hu⟩
  | parseDigit => cases e; exact ⟨u, keeps_parseDigit h, hu⟩
  | parse8 => obtain ⟨a, ha⟩ := snd e; exact ⟨u, keeps_parse8 h ha, hu⟩
  | parseDigitsStripZeros => obtain ⟨a, ha⟩ := snd e; exact ⟨u, keeps_parseDigitsStripZeros h ha, hu⟩
  | parseDigits => obtain ⟨a, ha⟩ := snd e; exact ⟨u, keeps_parseDigits h ha, hu⟩
  | tryConsumeDelimiter d => obtain ⟨a, ha⟩ := snd e; exact ⟨u, keeps_tryConsumeDelimiter h ha, hu⟩
  | bufferedAdvanceTo d =>
    obtain ⟨a, ha⟩ := snd e
    unfold bufferedAdvanceTo at ha
    cases hb : r.buffer with
    | none => rw [hb] at ha; exact fillBuffer_keeps h ha
    | some x =>
      obtain ⟨pos, buffer, next⟩ := x
      rw [hb] at ha
      cases next with
      | none =>
        dsimp only at ha
        by_cases hp : pos = r.currentPos
        · rw [if_pos hp] at ha; cases ha; exact ⟨u, keeps_advanceBy h _, hu⟩
        · rw [if_neg hp] at ha; exact fillBuffer_keeps h ha
      | some n =>
        dsimp only at ha
        by_cases hp : (pos = r.currentPos && d n) = true
        · rw [if_pos hp] at ha; cases ha; exact ⟨u, keeps_advanceBy h _, hu⟩
        · rw [if_neg hp] at ha; exact fillBuffer_keeps h ha

theorem runCalls_keeps {I : Bytes} {u : Option (Nat × Bytes × Option UInt8)} {r r' : RawBytes} {calls : List Call}
    (h : Keeps I u r) (hu : BufferOf I u) (e : runCalls calls r = .ok r') : ∃ v, Keeps I v r' ∧ BufferOf I v := by
  induction calls generalizing r u with
  | nil => cases e; exact ⟨u, h, hu⟩
  | cons call calls ih =>
    unfold runCalls at e
    cases hc : call.run r with
    | error f => rw [hc] at e; cases e
    | ok s =>
      rw [hc] at e
      obtain ⟨v, hv, hv'⟩ := run_keeps h hu hc
      exact ih hv hv' e

end Fundu.RawBytes
namespace Fundu.Props
open Fundu Fundu.RawBytes

/-- C102: after every history of calls on a new reader which does not end in a panic the input is unchanged and the stored byte is the byte
at the stored position, no byte beyond the end; `is_end_of_input` tells whether the position is the end (or beyond it) -/
theorem C102_current_byte (input : Bytes) (calls : List Call) (r : RawBytes) (h : runCalls calls (RawBytes.new input) = .ok r) :
    r.input = input ∧ r.currentByte = input[r.currentPos]? ∧ (r.isEndOfInput = true ↔ input.length ≤ r.currentPos) := by
  obtain ⟨v, hv, -⟩ := runCalls_keeps (u := none) (I := input)
    ⟨rfl, rfl, by unfold RawBytes.new; cases input <;> rfl⟩ (fun _ _ _ h => by cases h) h
  refine ⟨hv.input, hv.byte, ?_⟩
  have e : r.isEndOfInput = r.currentByte.isNone := rfl
  rw [e, hv.byte, Option.isNone_iff_eq_none, List.getElem?_eq_none_iff]

/-- C102: after every history of calls the buffer, if it is filled, holds a part of the input, where this part starts and the byte after it -/
theorem C102_buffer (input : Bytes) (calls : List Call) (r : RawBytes) (h : runCalls calls (RawBytes.new input) = .ok r)
    (start : Nat) (word : Bytes) (next : Option UInt8) (hb : r.buffer = some (start, word, next)) :
    ∃ before after, input = before ++ word ++ after ∧ before.length = start ∧ next = after.head? := by
  obtain ⟨v, hv, hv'⟩ := runCalls_keeps (u := none) (I := input)
    ⟨rfl, rfl, by unfold RawBytes.new; cases input <;> rfl⟩ (fun _ _ _ h => by cases h) h
  exact hv' start word next (hv.buffer ▸ hb)

/-- C102: without a stored byte the reader does the same. `ofCursor` adds the byte at the position to a state of the model of the parser; a
call on the result is the call of the model, with the same results, errors and panics. -/
theorem C102_refines (c : Cursor) :
    (∀ I, RawBytes.new I = ofCursor (Cursor.new I)) ∧
    (ofCursor c).advance = ofCursor c.advance ∧
    (∀ n, (ofCursor c).advanceBy n = ofCursor (c.advanceBy n)) ∧
    (∀ p, (ofCursor c).reset p = ofCursor (c.reset p)) ∧
    (ofCursor c).finish = ofCursor c.finish ∧
    (∀ d, (ofCursor c).advanceTo d = (c.advanceTo d).map fun p => (p.1, ofCursor p.2)) ∧
    (∀ d, (ofCursor c).bufferedAdvanceTo d = (c.bufferedAdvanceTo d).map fun p => (p.1, ofCursor p.2)) ∧
    ((ofCursor c).parseDigit = match c.parseDigit with | some c' => (c.cur, ofCursor c') | none => (none, ofCursor c)) ∧
    ((ofCursor c).parse8 = c.parse8.map fun o => match o with
      | some (n, c') => (some n, ofCursor c')
      | none => (none, ofCursor c)) ∧
    ((ofCursor c).parseDigitsStripZeros = c.parseDigitsStripZeros.map fun p => (p.1, ofCursor p.2)) ∧
    ((ofCursor c).parseDigits = c.parseDigits.map fun p => (p.1, ofCursor p.2)) ∧
    ((ofCursor c).checkEndOfInput = c.checkEnd) ∧
    (∀ d, dropState ((ofCursor c).tryConsumeDelimiter d) = (c.tryConsumeDelimiter d).map ofCursor) := by
  refine ⟨new_of, rfl, fun _ => rfl, fun _ => rfl, finish_of c, advanceTo_of c, bufferedAdvanceTo_of c, parseDigit_of c, parse8_of c,
    parseDigitsStripZeros_of c, parseDigits_of c, rfl, tryConsumeDelimiter_of c⟩

/-- a history which uses most of the calls on the input `12 weeks ago` and comes back to a position from the buffer -/
example : (runCalls [.parseDigits, .tryConsumeDelimiter (fun b => b == 32), .bufferedAdvanceTo (fun b => b == 32), .reset 3, .bufferedAdvanceTo (fun b => b == 32),
      .advance, .advanceTo (fun b => b == 32)] (RawBytes.new (b! "12 weeks ago"))) =
    .ok ⟨12, none, some (3, b! "weeks", some 32), b! "12 weeks ago"⟩ := by decide +kernel
example : (runCalls [.parseDigitsStripZeros, .tryConsumeDelimiter (fun b => b == 32), .bufferedAdvanceTo (fun b => b == 32), .finish, .reset 1]
      (RawBytes.new (b! "0123456789 x y"))) =
    .ok ⟨1, some 49, some (11, b! "x", some 32), b! "0123456789 x y"⟩ := by decide +kernel

end Fundu.Props
