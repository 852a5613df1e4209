import Verif.Proofs.Scan
import Verif.Proofs.Literal
import Verif.Proofs.Rational
/-! # The parser does not panic, and its error positions lie in the input -/
namespace Fundu
open Spec

/-- the position of an error lies in an input of `n` bytes; the error is not `Empty` -/
def ErrOk (n : Nat) : ParseError → Prop
  | .empty => False
  | .syntax p _ => p ≤ n
  | .timeUnit p _ => p ≤ n
  | _ => True

/-- `x` does not panic, its error satisfies `ErrOk n`, its value satisfies `Q` -/
def Safe {α} (n : Nat) (x : R α) (Q : α → Prop) : Prop :=
  match x with
  | .ok a => Q a
  | .error (.err e) => ErrOk n e
  | .error (.panic _) => False

theorem Safe.ok {α} {n : Nat} {Q : α → Prop} {a : α} (h : Q a) : Safe n (.ok a) Q := h
theorem Safe.pure {α} {n : Nat} {Q : α → Prop} {a : α} (h : Q a) : Safe n (pure a) Q := h
theorem Safe.fail {α} {n : Nat} {Q : α → Prop} {e : ParseError} (h : ErrOk n e) : Safe n (fail e : R α) Q := h

theorem Safe.bind {α β} {n : Nat} {x : R α} {f : α → R β} {P : α → Prop} {Q : β → Prop} (hx : Safe n x P)
    (hf : ∀ a, P a → Safe n (f a) Q) : Safe n (x >>= f) Q := by
  match x, hx with
  | .ok a, hx => exact hf a hx
  | .error (.err e), hx => exact hx
  | .error (.panic p), hx => exact hx.elim

theorem Safe.mono {α} {n : Nat} {x : R α} {P Q : α → Prop} (hx : Safe n x P) (h : ∀ a, P a → Q a) : Safe n x Q := by
  match x, hx with
  | .ok a, hx => exact h a hx
  | .error (.err e), hx => exact hx
  | .error (.panic p), hx => exact hx.elim

theorem Safe.of_ok {α} {n : Nat} {x : R α} {P : α → Prop} (hx : Safe n x P) {a : α} (h : x = .ok a) : P a := by
  subst h; exact hx

/-- the cursor is at a character boundary of `I`, and its buffer is a part of `I` -/
structure Inv (I : Bytes) (c : Cursor) : Prop where
  input : c.input = I
  pos : c.pos ≤ I.length
  valid : utf8Valid c.rest = true
  buffer : ∀ p w n, c.buffer = some (p, w, n) →
    p + w.length ≤ I.length ∧ w = (I.drop p).take w.length ∧ utf8Valid w = true ∧
      utf8Valid (I.drop (p + w.length)) = true

namespace Inv
variable {I : Bytes} {c : Cursor}

theorem pos' (h : Inv I c) : c.pos ≤ c.input.length := by rw [h.input]; exact h.pos

theorem restLength (h : Inv I c) : c.rest.length = I.length - c.pos := by
  rw [Cursor.rest_length, h.input]

theorem advanceBy (h : Inv I c) {A B : Bytes} (hr : c.rest = A ++ B) (hA : utf8Valid A = true) :
    Inv I (c.advanceBy A.length) where
  input := h.input
  pos := by
    have := h.restLength
    rw [hr, List.length_append] at this
    show c.pos + A.length ≤ I.length
    have := h.pos
    omega
  valid := by
    rw [Cursor.rest_advanceBy, hr, List.drop_left]
    have := h.valid
    rw [hr] at this
    exact utf8Valid_right this hA
  buffer := h.buffer

theorem advanceBy_take (h : Inv I c) {k : Nat} (hk : k ≤ c.rest.length) (hA : utf8Valid (c.rest.take k) = true) :
    Inv I (c.advanceBy k) := by
  have := h.advanceBy (List.take_append_drop k c.rest).symm hA
  rwa [List.length_take, Nat.min_eq_left hk] at this

theorem advance (h : Inv I c) {b : UInt8} (hb : c.cur = some b) (ha : b.toNat < 128) : Inv I c.advance := by
  have := h.advanceBy (A := [b]) (B := (c.advanceBy 1).rest) (Cursor.rest_cons hb)
    (utf8Valid_ascii (by simpa using ha))
  exact this

theorem reset (h : Inv I c) {c' : Cursor} (h' : Inv I c') : Inv I (c'.reset c.pos) where
  input := h'.input
  pos := h.pos
  valid := by
    have : (c'.reset c.pos).rest = c.rest := by
      simp [Cursor.rest, Cursor.reset, h.input, h'.input]
    rw [this]; exact h.valid
  buffer := h'.buffer

theorem finish (h : Inv I c) : Inv I c.finish where
  input := h.input
  pos := by simp [Cursor.finish, h.input]
  valid := by rw [Cursor.rest_finish]; rfl
  buffer := h.buffer

theorem new (h : utf8Valid I = true) : Inv I (Cursor.new I) where
  input := rfl
  pos := Nat.zero_le _
  valid := h
  buffer := by intro p w n h; cases h

theorem getRemainderStr (h : Inv I c) : c.getRemainderStr = .ok c.rest := by
  unfold Cursor.getRemainderStr
  rw [Cursor.getRemainder_eq c h.pos', ok_bind, if_pos h.valid]

theorem getRemainderStrUnchecked (h : Inv I c) : c.getRemainderStrUnchecked = .ok c.rest := by
  unfold Cursor.getRemainderStrUnchecked utf8Unchecked
  rw [Cursor.getRemainder_eq c h.pos', ok_bind, if_pos h.valid]

end Inv

theorem takeWhile_mem {p : UInt8 → Bool} {l : Bytes} {x : UInt8} (h : x ∈ l.takeWhile p) : p x = true := by
  induction l with
  | nil => simp at h
  | cons a l ih =>
    rw [List.takeWhile_cons] at h
    by_cases ha : p a = true
    · rw [if_pos ha] at h
      rcases List.mem_cons.mp h with rfl | h
      · exact ha
      · exact ih h
    · rw [if_neg ha] at h; cases h

theorem dropWhile_head {p : UInt8 → Bool} {l : Bytes} {x : UInt8} (h : (l.dropWhile p).head? = some x) :
    p x = false := by
  have := List.head?_dropWhile_not p l
  rw [h] at this
  simpa using this

namespace Cursor
variable {I : Bytes} {c : Cursor}

theorem cur_advanceBy_word (d : Delimiter) (c : Cursor) {x : UInt8}
    (h : (c.advanceBy (c.word d).length).cur = some x) : d x = true := by
  rw [cur_eq, rest_advanceBy, word, takeWhile_drop] at h
  simpa using dropWhile_head h

/-- the word in front is a sequence of characters -/
theorem word_valid {d : Delimiter} (hd : AsciiOnly d) (hc : Inv I c) : utf8Valid (c.word d) = true := by
  refine utf8Valid_left (b := (c.advanceBy (c.word d).length).rest) ?_ ?_
  · have h : c.word d ++ (c.advanceBy (c.word d).length).rest = c.rest := by
      rw [rest_advanceBy, ← word_take d c, word_take]
      nth_rewrite 1 [← word_take d c]
      exact List.take_append_drop _ _
    rw [h]; exact hc.valid
  · intro x hx
    rw [← cur_eq] at hx
    exact isCont_of_ascii (hd x (cur_advanceBy_word d c hx))

theorem inv_word {d : Delimiter} (hd : AsciiOnly d) (hc : Inv I c) : Inv I (c.advanceBy (c.word d).length) :=
  hc.advanceBy_take (word_length d c) (by rw [word_take]; exact word_valid hd hc)

theorem advanceTo_safe {d : Delimiter} (hd : AsciiOnly d) (hc : Inv I c) :
    Safe I.length (c.advanceTo d) (fun o => Inv I o.2 ∧ utf8Valid o.1 = true ∧ o.2.pos = c.pos + o.1.length ∧
      ∀ x, o.2.cur = some x → d x = true) := by
  rw [advanceTo_eq d c hc.pos']
  exact ⟨inv_word hd hc, word_valid hd hc, rfl, fun x hx => cur_advanceBy_word d c hx⟩

theorem bufferedAdvanceTo_safe {d : Delimiter} (hd : AsciiOnly d) (hc : Inv I c) :
    Safe I.length (c.bufferedAdvanceTo d) (fun o => Inv I o.2 ∧ utf8Valid o.1 = true ∧
      o.2.pos = c.pos + o.1.length) := by
  cases hb : c.buffered d with
  | none =>
    rw [bufferedAdvanceTo_none d c hc.pos' hb]
    have hw := inv_word hd hc
    refine ⟨⟨hw.input, hw.pos, hw.valid, ?_⟩, word_valid hd hc, rfl⟩
    intro p w n h
    simp only [Option.some.injEq, Prod.mk.injEq] at h
    obtain ⟨rfl, rfl, -⟩ := h
    have hrest : I.drop c.pos = c.rest := by rw [Cursor.rest, hc.input]
    refine ⟨hw.pos, by rw [hrest, word_take], word_valid hd hc, ?_⟩
    have := hw.valid
    rw [rest_advanceBy] at this
    rw [← List.drop_drop, hrest]; exact this
  | some w =>
    unfold bufferedAdvanceTo
    rw [hb]
    simp only
    unfold buffered at hb
    have key : ∀ p n, c.buffer = some (p, w, n) → p = c.pos →
        Safe I.length (Except.ok (w, c.advanceBy w.length) : R _) (fun o => Inv I o.2 ∧ utf8Valid o.1 = true ∧
          o.2.pos = c.pos + o.1.length) := by
      intro p n h hp
      subst hp
      obtain ⟨h1, h2, h3, h4⟩ := hc.buffer _ _ _ h
      refine ⟨⟨hc.input, h1, ?_, hc.buffer⟩, h3, rfl⟩
      rw [Cursor.rest, hc.input.symm] at *
      exact h4
    split at hb
    · rename_i p buf n h
      split at hb
      · rename_i hh
        cases hb
        simp at hh
        exact key p _ h hh.1
      · cases hb
    · rename_i p buf h
      split at hb
      · rename_i hh
        cases hb
        exact key p _ h hh
      · cases hb
    · cases hb

theorem tryConsumeDelimiter_safe {d : Delimiter} (hd : AsciiOnly d) (hc : Inv I c) {b : UInt8}
    (hb : c.cur = some b) (hdb : d b = true) :
    Safe I.length (c.tryConsumeDelimiter d) (fun c' => Inv I c' ∧ c.pos < c'.pos ∧ c'.cur.isSome = true) := by
  by_cases hp : c.pos = 0
  · unfold tryConsumeDelimiter
    rw [assertDelimiter_ok d c b hb hdb, ok_bind, if_pos hp]
    exact Nat.zero_le _
  · rw [tryConsumeDelimiter_eq d c b hb hdb hp]
    by_cases h : (c.advanceBy (c.delims d).length).rest = []
    · rw [if_pos h]; exact hc.pos
    · rw [if_neg h]
      refine ⟨hc.advanceBy_take (delims_length d c) ?_, ?_, ?_⟩
      · rw [delims_take]
        exact utf8Valid_ascii (fun x hx => hd x (takeWhile_mem hx))
      · show c.pos < c.pos + _
        have : 0 < (c.delims d).length := by
          rw [delims, rest_cons hb, List.takeWhile_cons, if_pos hdb]; simp
        omega
      · rw [cur_eq]
        cases hr : (c.advanceBy (c.delims d).length).rest with
        | nil => exact absurd hr h
        | cons x l => rfl

theorem checkEnd_safe (hc : Inv I c) : Safe I.length c.checkEnd (fun _ => True) := by
  unfold checkEnd
  cases h : c.cur with
  | none => trivial
  | some b =>
    simp only [hc.getRemainderStr, ok_bind]
    exact hc.pos

theorem nextIs_inv {word : Bytes} (hw : utf8Valid word = true) (hc : Inv I c) (h : c.nextIs word = true) :
    Inv I (c.advanceBy word.length) := by
  rw [nextIs_eq c word hc.pos'] at h
  simp only [startsWith, Bool.and_eq_true, decide_eq_true_eq] at h
  exact hc.advanceBy_take h.1 (utf8Valid_ignoreCase h.2 hw)

end Cursor

/-! ## Connections -/

/-- What the parser needs to know about its configuration: delimiters are ASCII, conjunctions are strings -/
structure CfgOk (cfg : Config) : Prop where
  inner : AsciiOnly cfg.innerDelimiter
  outer : AsciiOnly cfg.outerDelimiter
  conjunctions : ∀ w ∈ cfg.conjunctions.getD [], utf8Valid w = true

section
variable {I : Bytes} {cfg : Config} {c : Cursor}

/-- the cursor is after position `p`, and not at the end -/
def Moved (I : Bytes) (p : Nat) (c : Cursor) : Prop := Inv I c ∧ p < c.pos ∧ c.cur.isSome = true

theorem consumeConjunction_safe {d : Delimiter} (hd : AsciiOnly d) (start : Nat) (hs : start ≤ I.length) (p : Nat)
    (hc : Moved I p c) (ws : List Bytes) (hw : ∀ w ∈ ws, utf8Valid w = true) :
    Safe I.length (consumeConjunction d start c ws) (Moved I p) := by
  induction ws with
  | nil => exact hc
  | cons w ws ih =>
    unfold consumeConjunction
    by_cases h : c.nextIs w = true
    · rw [if_pos h]
      have hi := Cursor.nextIs_inv (hw w (by simp)) hc.1 h
      have hp : p < (c.advanceBy w.length).pos := by
        have := hc.2.1
        show p < c.pos + w.length
        omega
      unfold afterConjunction
      cases hb : (c.advanceBy w.length).cur with
      | none => exact hs
      | some b =>
        simp only
        by_cases hdb : d b = true
        · rw [if_pos hdb]
          refine (Cursor.tryConsumeDelimiter_safe hd hi hb hdb).mono ?_
          intro c' hc'
          exact ⟨hc'.1, by omega, hc'.2.2⟩
        · rw [if_neg hdb]
          by_cases hn : isNextDuration b = true
          · rw [if_pos hn]; exact ⟨hi, hp, by rw [hb]; rfl⟩
          · rw [if_neg hn]; exact hi.pos
    · rw [if_neg h]
      exact ih (fun x hx => hw x (by simp [hx]))

theorem tryConnection_safe (ho : CfgOk cfg) (hc : Inv I c) {b : UInt8} (hb : c.cur = some b)
    (hdb : cfg.outerDelimiter b = true) : Safe I.length (tryConnection cfg c) (Moved I c.pos) := by
  unfold tryConnection tryConsumeConnection
  rw [Cursor.assertDelimiter_ok _ c b hb hdb, ok_bind]
  refine (Cursor.tryConsumeDelimiter_safe ho.outer hc hb hdb).bind ?_
  intro c' hc'
  exact consumeConjunction_safe ho.outer _ hc'.1.pos _ hc' _ ho.conjunctions

theorem consumeConnectionIfAny_safe (ho : CfgOk cfg) (hc : Inv I c) :
    Safe I.length (consumeConnectionIfAny cfg c) (fun c' => Inv I c' ∧ c.pos ≤ c'.pos) := by
  unfold consumeConnectionIfAny
  cases hb : c.cur with
  | none => exact ⟨hc, Nat.le_refl _⟩
  | some b =>
    simp only
    by_cases h : cfg.outerDelimiter b = true
    · rw [if_pos h]
      exact (tryConnection_safe ho hc hb h).mono (fun c' hc' => ⟨hc'.1, Nat.le_of_lt hc'.2.1⟩)
    · rw [if_neg h]; exact ⟨hc, Nat.le_refl _⟩

/-- the result of the template: what is returned satisfies `P`, and the parser has moved beyond `p` -/
def OutOk (I : Bytes) (p : Nat) (P : DurationRepr → Prop) (o : Output) : Prop :=
  P o.1 ∧ ∀ c', o.2 = some c' → Moved I p c'

theorem makeOutput_safe (mode : Mode) {r : DurationRepr} {p : Nat} {P : DurationRepr → Prop} (hr : P r)
    (hc : Inv I c) (hp : p < c.pos) : OutOk I p P (makeOutput mode r c) := by
  cases mode with
  | single => exact ⟨hr, by intro c' h; cases h⟩
  | multiple =>
    refine ⟨hr, ?_⟩
    intro c' h
    simp only [makeOutput, unlessEnd] at h
    cases hb : c.cur with
    | none => rw [hb] at h; cases h
    | some b => rw [hb] at h; cases h; exact ⟨hc, hp, by rw [hb]; rfl⟩

theorem finalize_safe (ho : CfgOk cfg) (mode : Mode) {r : DurationRepr} {p : Nat} {P : DurationRepr → Prop} (hr : P r)
    (hc : Inv I c) (hp : p < c.pos) : Safe I.length (finalize mode cfg r c) (OutOk I p P) := by
  cases mode with
  | single =>
    unfold finalize
    refine (Cursor.checkEnd_safe hc).bind ?_
    intro _ _
    exact ⟨hr, by intro c' h; cases h⟩
  | multiple =>
    unfold finalize finalizeMultiple
    cases hb : c.cur with
    | none => exact ⟨hr, by intro c' h; cases h⟩
    | some b =>
      simp only
      by_cases h : cfg.outerDelimiter b = true
      · rw [if_pos h]
        refine (tryConnection_safe ho hc hb h).bind ?_
        intro c' hc'
        refine ⟨hr, ?_⟩
        intro c'' h'
        cases h'
        exact ⟨hc'.1, Nat.lt_trans hp hc'.2.1, hc'.2.2⟩
      · rw [if_neg h]
        refine ⟨hr, ?_⟩
        intro c'' h'
        cases h'
        exact ⟨hc, hp, by rw [hb]; rfl⟩

/-! ## Infinity -/

theorem ascii_of_toLower {b x : UInt8} (h : toLower b = toLower x) (hx : x.toNat < 128) : b.toNat < 128 :=
  toLower_ascii_eq h hx

theorem inityLoop_safe (hc : Inv I c) (l : Bytes) (hl : ∀ x ∈ l, x.toNat < 128) :
    Safe I.length (inityLoop c l) (fun c' => Inv I c' ∧ c.pos ≤ c'.pos) := by
  induction l generalizing c with
  | nil => exact ⟨hc, Nat.le_refl _⟩
  | cons x l ih =>
    unfold inityLoop
    cases hb : c.cur with
    | none => exact hc.pos
    | some b =>
      simp only
      by_cases h : toLower b = toLower x
      · rw [if_pos h]
        refine (ih (hc.advance hb (ascii_of_toLower h (hl x (by simp)))) (fun y hy => hl y (by simp [hy]))).mono ?_
        intro c' hc'
        exact ⟨hc'.1, Nat.le_trans (Nat.le_succ _) hc'.2⟩
      · rw [if_neg h]; exact hc.pos

theorem inityLoopMultiple_safe (hc : Inv I c) (start : Nat) (A : Bytes) (hs : 3 ≤ start)
    (hA : sliceR I start c.pos = .ok A) (hAa : ∀ x ∈ A, x.toNat < 128) (hle : start ≤ c.pos) (l : Bytes)
    (hl : ∀ x ∈ l, x.toNat < 128) :
    Safe I.length (inityLoopMultiple start c l) (fun c' => Inv I c' ∧ c.pos ≤ c'.pos) := by
  induction l generalizing c A with
  | nil => exact ⟨hc, Nat.le_refl _⟩
  | cons x l ih =>
    unfold inityLoopMultiple
    cases hb : c.cur with
    | none =>
      simp only [subUsize, if_pos hs, liftP_ok, ok_bind, Cursor.getCurrentStrUnwrap, hc.input, hA]
      rw [if_pos (utf8Valid_ascii hAa), ok_bind]
      have := hc.pos
      show start - 3 ≤ I.length
      omega
    | some b =>
      simp only
      by_cases h : toLower b = toLower x
      · rw [if_pos h]
        have hasc := ascii_of_toLower h (hl x (by simp))
        have hi := hc.advance hb hasc
        have hslice : sliceR I start c.advance.pos = .ok (A ++ [b]) := by
          have hA' : slice I start c.pos = .ok A := by
            unfold sliceR liftP at hA
            split at hA
            · rename_i a ha; cases hA; exact ha
            · cases hA
          obtain ⟨_, _, h3, _⟩ := slice_inv hA'
          have hlt := Cursor.pos_lt_of_cur hb
          rw [hc.input] at hlt
          have hpos : c.advance.pos = c.pos + 1 := rfl
          rw [hpos, sliceR, slice_ok (by omega) (by omega), liftP_ok, h3]
          have hcur : I[c.pos]? = some b := by
            have := hb; unfold Cursor.cur at this; rwa [hc.input] at this
          rw [List.take_add_one, hcur, List.drop_append_of_le_length (by simp; omega)]
          rfl
        refine (ih hi (A ++ [b]) hslice ?_ ?_ (fun y hy => hl y (by simp [hy]))).mono ?_
        · intro y hy
          rcases List.mem_append.mp hy with hy | hy
          · exact hAa y hy
          · simp at hy; subst hy; exact hasc
        · show start ≤ c.pos + 1
          omega
        · intro c' hc'
          exact ⟨hc'.1, Nat.le_trans (Nat.le_succ _) hc'.2⟩
      · rw [if_neg h]; exact hc.pos

theorem inity_ascii : ∀ x ∈ b! "inity", x.toNat < 128 := by decide

theorem parseInfinityRemainder_safe (ho : CfgOk cfg) (mode : Mode) {r : DurationRepr} {p : Nat}
    {P : DurationRepr → Prop} (hr : P { r with isInfinite := true }) (hc : Inv I c) (hp : p < c.pos)
    (h3 : 3 ≤ c.pos) : Safe I.length (parseInfinityRemainder mode cfg r c) (OutOk I p P) := by
  cases mode with
  | single =>
    unfold parseInfinityRemainder infinitySingle
    cases hb : c.cur with
    | none => exact ⟨hr, by intro c' h; cases h⟩
    | some b =>
      simp only
      refine (inityLoop_safe hc _ inity_ascii).bind ?_
      intro c' hc'
      refine (Cursor.checkEnd_safe hc'.1).bind ?_
      intro _ _
      exact ⟨hr, by intro c' h; cases h⟩
  | multiple =>
    unfold parseInfinityRemainder infinityMultiple
    cases hb : c.cur with
    | none => exact ⟨hr, by intro c' h; cases h⟩
    | some b =>
      simp only
      by_cases h : cfg.outerDelimiter b = true
      · rw [if_pos h]
        refine (tryConnection_safe ho hc hb h).bind ?_
        intro c' hc'
        refine ⟨hr, ?_⟩
        intro c'' h'
        cases h'
        exact ⟨hc'.1, Nat.lt_trans hp hc'.2.1, hc'.2.2⟩
      · rw [if_neg h]
        refine (inityLoopMultiple_safe hc c.pos [] h3 ?_ (by simp) (Nat.le_refl _) _ inity_ascii).bind ?_
        · rw [sliceR, slice_ok (Nat.le_refl _) hc.pos]
          simp [liftP]
        · intro c' hc'
          unfold afterInfinity
          cases hb' : c'.cur with
          | none => exact ⟨hr, by intro c' h; cases h⟩
          | some b' =>
            simp only
            by_cases h' : cfg.outerDelimiter b' = true
            · rw [if_pos h']
              refine (tryConnection_safe ho hc'.1 hb' h').bind ?_
              intro c'' hc''
              refine ⟨hr, ?_⟩
              intro c3 h3'
              cases h3'
              exact ⟨hc''.1, by have := hc''.2.1; omega, hc''.2.2⟩
            · rw [if_neg h']; exact hc'.1.pos

end
end Fundu
