import Verif.Proofs.CostSingle
import Verif.Proofs.ParseGrammar
import Verif.Model.Systemd
/-! # A configuration with which the number of steps is quadratic -/
namespace Fundu.Cost
open Fundu

variable {α β : Type}

/-- `x` has the value `a` and takes at least `k` steps -/
def Takes (x : T α) (k : Nat) (a : α) : Prop := k ≤ x.cost ∧ x.res = .ok a

namespace Takes
variable {x : T α} {k m : Nat} {a : α}

theorem bind {f : α → T β} {b : β} (h : Takes x k a) (hf : Takes (f a) m b) : Takes (x >>= f) (k + m) b := by
  show k + m ≤ (T.bind x f).cost ∧ (T.bind x f).res = .ok b
  unfold T.bind
  rw [h.2]
  exact ⟨Nat.add_le_add h.1 hf.1, hf.2⟩

theorem ok : Takes (T.ok a) 0 a := ⟨Nat.zero_le _, rfl⟩
theorem pure : Takes (Pure.pure a : T α) 0 a := ok
theorem lift {y : R α} (h : y = .ok a) : Takes (Cost.lift y) 0 a := ⟨Nat.zero_le _, h⟩
theorem charge {n : Nat} (h : Takes x k a) : Takes (Cost.charge n x) k a := ⟨Nat.le_trans h.1 (Nat.le_add_left _ _), h.2⟩
theorem mono (h : Takes x k a) (hm : m ≤ k) : Takes x m a := ⟨Nat.le_trans hm h.1, h.2⟩
theorem pos {p : Prop} [Decidable p] {y : T α} (hp : p) (h : Takes x k a) : Takes (if p then x else y) k a := by rwa [if_pos hp]
theorem neg {p : Prop} [Decidable p] {y : T α} (hp : ¬ p) (h : Takes x k a) : Takes (if p then y else x) k a := by rwa [if_neg hp]
end Takes

/-- a parser whose inner delimiters are `s` and `,` and whose outer delimiter is `,` -/
def strangeDelimiters : Config :=
  { innerDelimiter := (fun b => b = 115 || b = 44), outerDelimiter := (fun b => b = 44), allowAgo := true, allowMultiple := true, numberIsOptional := true }

def strangeEnv : Env := { cfg := strangeDelimiters, units := Systemd.TIME_UNITS, keywords := some Gnu.TIME_KEYWORDS, numerals := none }

/-- `n` times `s,` and an `x` -/
def strangeText : Nat → Bytes
  | 0 => [120]
  | n + 1 => 115 :: 44 :: strangeText n

theorem strangeText_length (n : Nat) : (strangeText n).length = 2 * n + 1 := by
  induction n with
  | zero => rfl
  | succ n ih => show (strangeText n).length + 1 + 1 = _; rw [ih]; omega

theorem strange_skip (n : Nat) : (strangeText n).takeWhile (fun b => !(!strangeDelimiters.innerDelimiter b)) = (strangeText n).dropLast ∧
    (strangeText n).drop (strangeText n).dropLast.length = [120] := by
  induction n with
  | zero => exact ⟨rfl, rfl⟩
  | succ n ih =>
    have hl := strangeText_length n
    have e : (strangeText (n + 1)).dropLast = 115 :: 44 :: (strangeText n).dropLast := by
      show List.dropLast (115 :: 44 :: strangeText n) = _
      cases h : strangeText n with
      | nil => rw [h] at hl; cases hl
      | cons a l => rfl
    rw [e]
    refine ⟨?_, ih.2⟩
    show List.takeWhile _ (115 :: 44 :: strangeText n) = _
    rw [List.takeWhile_cons_of_pos (by rfl), List.takeWhile_cons_of_pos (by rfl), ih.1]

theorem strange_head (n : Nat) : ∃ b t, strangeText n = b :: t ∧ strangeDelimiters.outerDelimiter b = false := by
  cases n with
  | zero => exact ⟨_, _, rfl, rfl⟩
  | succ n => exact ⟨_, _, rfl, rfl⟩

theorem takes_delims {d : Delimiter} {c : Cursor} {b x : UInt8} {t u : Bytes} (hr : c.rest = b :: t) (hb : d b = true) (hp : c.pos ≠ 0)
    (hu : t.drop (t.takeWhile (fun y => !(!d y))).length = x :: u) :
    Takes (tryConsumeDelimiter d c) (t.takeWhile (fun y => !(!d y))).length (c.advanceBy (1 + (t.takeWhile (fun y => !(!d y))).length)) := by
  have hc : c.cur = some b := by rw [Cursor.cur_eq, hr]; rfl
  have hra : c.advance.rest = t := by rw [Cursor.rest_advance, hr]; rfl
  unfold tryConsumeDelimiter
  have h1 : Takes (lift (c.assertDelimiter d)) 0 () := Takes.lift (by
    unfold Cursor.assertDelimiter
    rw [hc]
    dsimp only
    rw [if_pos hb])
  have h2 : Takes (skipTo (fun b => !d b) c.input.length c.advance) (t.takeWhile (fun y => !(!d y))).length
      (c.advanceBy (1 + (t.takeWhile (fun y => !(!d y))).length)) := by
    refine ⟨?_, ?_⟩
    · rw [skipTo_cost _ _ _ (by rw [Cursor.rest_length]; show c.input.length - _ ≤ _; omega)]
      unfold Cursor.word
      rw [hra]
      exact Nat.le_succ _
    · rw [skipTo_res, show c.input = c.advance.input from rfl, Cursor.skipTo_input, hra]
      show _ = Except.ok (c.advanceBy _)
      unfold Cursor.advance Cursor.advanceBy
      rw [Nat.add_assoc]
  have h3 : (c.advanceBy (1 + (t.takeWhile (fun y => !(!d y))).length)).cur = some x := by
    rw [Cursor.cur_eq, Cursor.rest_advanceBy, hr, Nat.add_comm 1, List.drop_succ_cons, hu]
    rfl
  have h4 := Takes.bind h1 (f := fun _ => if c.pos = 0 then fail (.syntax 0 .delimiterAtStart) else do
    let c' ← skipTo (fun b => !d b) c.input.length c.advance
    match c'.cur with
    | some _ => return c'
    | none => fail (.syntax c.pos .delimiterAtEnd)) (Takes.neg hp (Takes.bind h2 (m := 0) (b := c.advanceBy (1 + (t.takeWhile (fun y => !(!d y))).length)) (by
      rw [h3]; exact Takes.pure)))
  exact h4.mono (by omega)

theorem takes_miss {d : Delimiter} {c : Cursor} {b x : UInt8} {t : Bytes} (hw : c.pos ≤ c.input.length) (hr : c.rest = b :: x :: t)
    (hb : d b = false) (hx : d x = true) (hm : c.buffered d = none) :
    Takes (bufferedAdvanceTo d c) 0 ([b], ⟨c.input, c.pos + 1, some (c.pos, [b], some x)⟩) := by
  have e : c.word d = [b] := by
    unfold Cursor.word
    rw [hr, List.takeWhile_cons_of_pos (by rw [hb]; rfl), List.takeWhile_cons_of_neg (by rw [hx]; exact Bool.false_ne_true)]
  refine ⟨Nat.zero_le _, ?_⟩
  rw [bufferedAdvanceTo_res, Cursor.bufferedAdvanceTo_none d c hw hm, e]
  have : (c.advanceBy [b].length).cur = some x := by
    rw [Cursor.cur_eq, Cursor.rest_advanceBy, hr]
    rfl
  rw [this]
  rfl

theorem strange_inf {c : Cursor} {t : Bytes} (hr : c.rest = 115 :: 44 :: t) : c.nextIs (b! "inf") = false := by
  unfold Cursor.nextIs Cursor.peek
  by_cases h : c.pos + (b! "inf").length ≤ c.input.length
  · rw [if_pos h]
    have e : c.input.drop c.pos = 115 :: 44 :: t := hr
    rw [e]
    rfl
  · rw [if_neg h]

theorem strange_ago {c : Cursor} (hr : c.rest = [120]) : c.nextIs (b! "ago") = false := by
  unfold Cursor.nextIs Cursor.peek
  by_cases h : c.pos + (b! "ago").length ≤ c.input.length
  · rw [if_pos h]
    have e : c.input.drop c.pos = [120] := hr
    rw [e]
    rfl
  · rw [if_neg h]

/-- what is read for one `s,` -/
def strangeRepr (c : Cursor) : DurationRepr := { unit := some .second, input := c.input }

/-- the time unit `s`: the search for `ago` looks at all the rest of the text -/
theorem strange_unit {n : Nat} {c : Cursor} (hr : c.rest = 115 :: 44 :: strangeText n)
    (hb : c.buffer = some (c.pos, [115], some 44)) :
    Takes (parseTimeUnitMultiple strangeEnv c) (2 * n) (some (.second, ⟨1, 0⟩), c.advanceBy 2) := by
  obtain ⟨x, u, hx, hxd⟩ := strange_head n
  have hc : c.cur = some 115 := by rw [Cursor.cur_eq, hr]; rfl
  have r1 : (c.advanceBy 1).rest = 44 :: strangeText n := by rw [Cursor.rest_advanceBy, hr]; rfl
  have hc1 : (c.advanceBy 1).cur = some 44 := by rw [Cursor.cur_eq, r1]; rfl
  have r2 : (c.advanceBy 2).rest = strangeText n := by rw [Cursor.rest_advanceBy, hr]; rfl
  have hl := strangeText_length n
  have hk := strange_skip n
  unfold parseTimeUnitMultiple
  have h1 : Takes (assertSome c) 0 () := by unfold assertSome; rw [hc]; exact Takes.ok
  have h2 : Takes (bufferedAdvanceTo (unitEnd strangeEnv.cfg) c) 0 ([115], c.advanceBy 1) := by
    unfold bufferedAdvanceTo
    have : c.buffered (unitEnd strangeEnv.cfg) = some [115] := by
      unfold Cursor.buffered
      rw [hb]
      dsimp only
      rw [if_pos (by rw [decide_eq_true rfl]; rfl)]
    rw [this]
    exact Takes.charge Takes.ok
  have h3 : Takes (tryConsumeDelimiter strangeDelimiters.innerDelimiter (c.advanceBy 1)) (2 * n)
      ((c.advanceBy 1).advanceBy (1 + (strangeText n).dropLast.length)) := by
    have := takes_delims (d := strangeDelimiters.innerDelimiter) (c := c.advanceBy 1) (x := 120) (u := []) r1 rfl (Nat.succ_ne_zero _)
      (by rw [hk.1]; exact hk.2)
    rw [hk.1] at this
    refine this.mono ?_
    rw [List.length_dropLast]
    omega
  have h4 : Takes (agoMultiple strangeDelimiters (.second, ⟨1, 0⟩) (c.advanceBy 1)) (2 * n) ((.second, ⟨1, 0⟩), c.advanceBy 1) := by
    unfold agoMultiple
    rw [hc1]
    refine Takes.pos rfl ?_
    refine (Takes.bind h3 (m := 0) ?_).mono (by omega)
    refine Takes.charge ?_
    rw [strange_ago (by rw [Cursor.rest_advanceBy, r1, Nat.add_comm 1, List.drop_succ_cons]; exact hk.2)]
    exact Takes.pure
  have h5 : Takes (consumeConnectionIfAny strangeDelimiters (c.advanceBy 1)) 0 (c.advanceBy 2) := by
    unfold consumeConnectionIfAny
    rw [hc1]
    refine Takes.pos rfl ?_
    unfold tryConnection tryConsumeConnection
    have e : (strangeText n).takeWhile (fun y => !(!strangeDelimiters.outerDelimiter y)) = [] := by
      rw [hx, List.takeWhile_cons_of_neg (by rw [hxd]; exact Bool.false_ne_true)]
    have hd := takes_delims (d := strangeDelimiters.outerDelimiter) (c := c.advanceBy 1) (x := x) (u := u) r1 rfl (Nat.succ_ne_zero _)
      (by rw [e]; exact hx)
    rw [e] at hd
    have h0 : Takes (lift (Cursor.assertDelimiter strangeDelimiters.outerDelimiter (c.advanceBy 1))) 0 () := Takes.lift (by
      unfold Cursor.assertDelimiter
      rw [hc1]
      rfl)
    exact (Takes.bind h0 (Takes.bind hd (m := 0) (b := c.advanceBy 2) Takes.ok)).mono (Nat.zero_le _)
  have h6 : Takes (unitFoundMultiple strangeDelimiters c (c.advanceBy 1) (some (.second, ⟨1, 0⟩))) (2 * n) (some (.second, ⟨1, 0⟩), c.advanceBy 2) := by
    unfold unitFoundMultiple
    refine (Takes.bind h4 (m := 0) ?_).mono (by omega)
    show Takes (consumeConnectionIfAny strangeDelimiters (c.advanceBy 1) >>= fun c' => pure (some ((TimeUnit.second, (⟨1, 0⟩ : Multiplier)) : Unit'), c')) 0 _
    refine Takes.bind h5 (m := 0) ?_
    exact Takes.pure
  have hg : strangeEnv.units.get [115] = some (.second, ⟨1, 0⟩) := by decide +kernel
  refine (Takes.bind h1 (Takes.bind h2 (m := 2 * n) ?_)).mono (by omega)
  refine Takes.neg (by exact Bool.false_ne_true) ?_
  refine (Takes.bind (a := [115]) (k := 0) (Takes.lift rfl) (m := 2 * n) (Takes.charge ?_)).mono (by omega)
  show Takes (unitFoundMultiple strangeDelimiters c (c.advanceBy 1) (strangeEnv.units.get [115])) _ _
  rw [hg]
  exact h6

/-- one `s,` -/
theorem strange_part {n : Nat} {c : Cursor} (hr : c.rest = 115 :: 44 :: strangeText n) (hm : ∀ d, c.buffered d = none) :
    ∃ c', Takes (templateParse .multiple strangeEnv c) (2 * n) (strangeRepr c, some c') ∧ c'.rest = strangeText n ∧ ∀ d, c'.buffered d = none := by
  obtain ⟨x, u, hx, hxd⟩ := strange_head n
  have hw : c.pos ≤ c.input.length := by
    have : c.rest.length = c.input.length - c.pos := Cursor.rest_length c
    rw [hr, List.length_cons] at this
    omega
  have hc : c.cur = some 115 := by rw [Cursor.cur_eq, hr]; rfl
  obtain ⟨c1, e1⟩ : ∃ c1 : Cursor, c1 = ⟨c.input, c.pos, some (c.pos, [115], some 44)⟩ := ⟨_, rfl⟩
  have r1 : c1.rest = 115 :: 44 :: strangeText n := by rw [e1]; exact hr
  have b1 : c1.buffer = some (c1.pos, [115], some 44) := by rw [e1]
  have r2 : (c1.advanceBy 2).rest = strangeText n := by rw [Cursor.rest_advanceBy, r1]; rfl
  have hu := strange_unit r1 b1
  refine ⟨c1.advanceBy 2, ?_, r2, ?_⟩
  · unfold templateParse
    rw [hc]
    refine Takes.charge ?_
    have h1 : Takes (parseNumberSign strangeEnv.cfg c) 0 (none, c) := by
      unfold parseNumberSign
      refine Takes.bind (a := (none, c)) (k := 0) (m := 0) ?_ Takes.ok
      unfold parseSignIsNegative
      rw [hc]
      exact Takes.ok
    refine (Takes.bind h1 (m := 2 * n) ?_).mono (by omega)
    show Takes (parseBody .multiple strangeEnv { input := c.input } c) _ _
    unfold parseBody
    rw [hc]
    refine Takes.neg (by decide) (Takes.neg (by decide) (Takes.charge ?_))
    rw [strange_inf hr]
    refine Takes.neg (by decide) ?_
    unfold parseWord
    have h2 : Takes (parseKeyword .multiple strangeEnv c) 0 (none, c1) := by
      show Takes (parseKeywordMultiple strangeEnv Gnu.TIME_KEYWORDS c) _ _
      unfold parseKeywordMultiple
      have hmiss := takes_miss (d := wordEnd strangeEnv.cfg) hw hr rfl rfl (hm _)
      refine (Takes.bind hmiss (m := 0) ?_)
      refine Takes.neg (by exact Bool.false_ne_true) ?_
      refine (Takes.bind (a := [115]) (k := 0) (Takes.lift rfl) (m := 0) (Takes.charge ?_))
      have hg : Gnu.TIME_KEYWORDS.get [115] = none := by decide +kernel
      rw [hg, e1]
      exact Takes.ok
    refine (Takes.bind h2 (m := 2 * n) ?_).mono (by omega)
    show Takes (parseUnitWord .multiple strangeEnv { input := c.input } c1) _ _
    unfold parseUnitWord
    refine Takes.pos rfl ?_
    have h3 : Takes (parseTimeUnit .multiple strangeEnv c1) (2 * n) (some (.second, ⟨1, 0⟩), c1.advanceBy 2) := hu
    refine (Takes.bind h3 (m := 0) ?_).mono (by omega)
    show Takes (finalizeMultiple strangeEnv.cfg (strangeRepr c) (c1.advanceBy 2)) _ _
    unfold finalizeMultiple
    rw [Cursor.cur_eq, r2, hx]
    refine Takes.neg ?_ Takes.ok
    rw [show strangeEnv.cfg.outerDelimiter x = false from hxd]
    exact Bool.false_ne_true
  · intro d
    rw [e1]
    unfold Cursor.buffered Cursor.advanceBy
    dsimp only
    rw [if_neg]
    rw [Bool.and_eq_true, decide_eq_true_iff]
    rintro ⟨h, -⟩
    omega

theorem strange_value (c : Cursor) : ∃ d : Duration, d.WF ∧ Takes (parseRepr strangeEnv.cfg (strangeRepr c)) 0 d :=
  ⟨⟨false, ⟨1, 0⟩⟩, by decide, Nat.zero_le _, rfl⟩

theorem strange_loop (n fuel : Nat) {c : Cursor} {d : Duration} (hd : d.WF) (hn : n ≤ fuel) (hr : c.rest = strangeText n)
    (hm : ∀ d, c.buffered d = none) : n * n ≤ (parseMultipleLoop strangeEnv fuel d c).cost + n := by
  induction n generalizing fuel c d with
  | zero => exact Nat.zero_le _
  | succ n ih =>
    cases fuel with
    | zero => omega
    | succ fuel =>
      obtain ⟨c', h1, h2, h3⟩ := strange_part hr hm
      obtain ⟨p, hp, h4⟩ := strange_value c
      obtain ⟨s, h5, hs, -⟩ := accumulate_nanos hd hp
      have := ih fuel hs (by omega) h2 h3
      have h6 : Takes (accumulate d p) 0 s := ⟨Nat.zero_le _, by rw [accumulate_res]; exact h5⟩
      have key : 2 * n + (parseMultipleLoop strangeEnv fuel s c').cost ≤ (parseMultipleLoop strangeEnv (fuel + 1) d c).cost := by
        generalize hq : parseMultipleLoop strangeEnv fuel s c' = q
        unfold parseMultipleLoop
        show _ ≤ (T.bind _ _).cost
        unfold T.bind
        rw [h1.2]
        dsimp only
        refine Nat.add_le_add h1.1 ?_
        show _ ≤ (T.bind _ _).cost
        unfold T.bind
        rw [h4.2]
        dsimp only
        refine Nat.le_trans ?_ (Nat.le_add_left _ _)
        show _ ≤ (T.bind _ _).cost
        unfold T.bind
        rw [h6.2]
        dsimp only
        rw [hq]
        exact Nat.le_add_left _ _
      rw [Nat.add_mul, Nat.mul_add, Nat.one_mul, Nat.mul_one]
      omega

/-- the number of steps is quadratic -/
theorem strange_cost (n : Nat) : n * n ≤ (parseWith strangeEnv (strangeText n)).cost + n := by
  show _ ≤ (parseMultipleLoop strangeEnv _ Duration.ZERO (Cursor.new (strangeText n))).cost + n
  refine strange_loop n _ (by decide) ?_ rfl (fun _ => rfl)
  rw [strangeText_length]
  omega

end Fundu.Cost
