import Verif.Proofs.Local
import Verif.Proofs.ListGrammar
import Verif.Proofs.Cursor
import Verif.Spec.Local
/-! # The parser asks its delimiters and tables only about the text: the template -/
namespace Fundu.Local
open Fundu

/-- The arguments of the parser agree on the text `s`: the delimiters on its bytes, the tables on its parts. -/
structure Same (L : Prop) (s : Bytes) (env env' : Env) : Prop where
  inner : ∀ b ∈ s, env.cfg.innerDelimiter b = env'.cfg.innerDelimiter b
  outer : ∀ b ∈ s, env.cfg.outerDelimiter b = env'.cfg.outerDelimiter b
  opts : Spec.SameOptions s env.cfg env'.cfg
  units : ∀ w, w <:+: s → env.units.get w = env'.units.get w
  isEmpty : env.units.isEmpty = env'.units.isEmpty
  keywords : ∀ w, w <:+: s → (env.keywords.bind fun k => k.get w) = env'.keywords.bind fun k => k.get w
  keywordsSome : env.keywords.isSome = env'.keywords.isSome ∨ (env.keywords = none ∧ L ∧ env'.scan = Cursor.advanceTo)
  numerals : ∀ w, w <:+: s → (env.numerals.bind fun k => k w) = env'.numerals.bind fun k => k w
  numeralsSome : env.numerals.isSome = env'.numerals.isSome ∨ (env.numerals = none ∧ L ∧ env'.scan = Cursor.advanceTo)
  scan : ∀ (d d' : Delimiter) (c : Cursor), (∀ b ∈ s, d b = d' b) → Good s c → Agrees L (Scanned s) (env.scan d c) (env'.scan d' c)

namespace Same
variable {L : Prop} {s : Bytes} {env env' : Env} (H : Same L s env env')
include H
theorem allowNegative : env'.cfg.allowNegative = env.cfg.allowNegative := H.opts.negative
theorem allowMultiple : env'.cfg.allowMultiple = env.cfg.allowMultiple := H.opts.multiple
theorem numberIsOptional : env'.cfg.numberIsOptional = env.cfg.numberIsOptional := H.opts.optional
theorem defaultUnit : env'.cfg.defaultUnit = env.cfg.defaultUnit := H.opts.defaultUnit
/-- with a delimiter in the text `ago` is allowed in both, otherwise there are no delimiters at all -/
theorem agoOrNone : env'.cfg.allowAgo = env.cfg.allowAgo ∨
    ((∀ b ∈ s, env.cfg.innerDelimiter b = false) ∧ ∀ b ∈ s, env'.cfg.innerDelimiter b = false) := by
  by_cases h : ∃ b ∈ s, env.cfg.innerDelimiter b = true
  · exact Or.inl (H.opts.ago h)
  · have : ∀ b ∈ s, env.cfg.innerDelimiter b = false := fun b hb => by
      rcases hd : env.cfg.innerDelimiter b with _ | _
      · rfl
      · exact absurd ⟨b, hb, hd⟩ h
    exact Or.inr ⟨this, fun b hb => by rw [← H.inner b hb]; exact this b hb⟩
end Same

variable {L : Prop} {s : Bytes} {env env' : Env} {c : Cursor}

theorem pair_occurs {s : Bytes} {i : Nat} {a b : UInt8} (ha : s[i]? = some a) (hb : s[i + 1]? = some b) : Spec.OccursIn [a, b] s := by
  obtain ⟨h1, e1⟩ := List.getElem?_eq_some_iff.1 ha
  obtain ⟨h2, e2⟩ := List.getElem?_eq_some_iff.1 hb
  refine ⟨s.take i, s.drop (i + 2), ?_⟩
  have : s.drop i = a :: b :: s.drop (i + 2) := by
    rw [List.drop_eq_getElem_cons h1, List.drop_eq_getElem_cons h2, e1, e2]
  rw [List.append_assoc]
  show s = s.take i ++ (a :: b :: s.drop (i + 2))
  rw [← this, List.take_append_drop]

/-- a digit or a point is in front of the reader -/
def After (s : Bytes) (c : Cursor) : Prop := ∃ a, Spec.NumberByte a ∧ 1 ≤ c.pos ∧ s[c.pos - 1]? = some a

theorem After.adjacent {b : UInt8} {q : UInt8 → Prop} (h : After s c) (hg : Good s c) (hc : c.cur = some b) (hq : q b) :
    Spec.Adjacent Spec.NumberByte q s := by
  obtain ⟨a, ha, h1, h2⟩ := h
  unfold Cursor.cur at hc
  rw [hg.input] at hc
  refine ⟨a, b, pair_occurs h2 ?_, ha, hq⟩
  rw [Nat.sub_add_cancel h1]
  exact hc

theorem After.advance {b : UInt8} (hg : Good s c) (hc : c.cur = some b) (hb : Spec.NumberByte b) : After s c.advance := by
  refine ⟨b, hb, Nat.le_add_left _ _, ?_⟩
  show s[c.pos + 1 - 1]? = some b
  rw [Nat.add_sub_cancel, ← hg.input]
  exact hc

/-- the reader behind a run of digits -/
theorem After.digits {b : UInt8} (hg : Good s c) (hc : c.cur = some b) (hb : isDigit b = true) : After s (c.advanceBy c.digits.length) := by
  have hrest : c.rest = b :: c.rest.tail := by
    have := hc
    rw [Cursor.cur_eq] at this
    cases hr : c.rest with
    | nil => rw [hr] at this; cases this
    | cons x l => rw [hr] at this; cases this; rfl
  have hne : c.digits ≠ [] := by
    unfold Cursor.digits
    rw [hrest, List.takeWhile_cons, if_pos hb]
    exact List.cons_ne_nil _ _
  have hpos := List.length_pos_iff.2 hne
  have hpre : c.digits <+: c.rest := List.takeWhile_prefix _
  have hlast : c.digits[c.digits.length - 1]? = some (c.digits.getLast hne) := by
    rw [← List.getLast?_eq_getElem?, List.getLast?_eq_some_getLast hne]
  refine ⟨c.digits.getLast hne, Or.inl ?_, ?_, ?_⟩
  · rw [digit_iff]
    exact Fundu.takeWhile_mem (List.getLast_mem hne)
  · show 1 ≤ c.pos + c.digits.length
    omega
  · show s[c.pos + c.digits.length - 1]? = _
    have e : c.rest[c.digits.length - 1]? = some (c.digits.getLast hne) := by
      obtain ⟨t, ht⟩ := hpre
      rw [← ht, List.getElem?_append_left (by omega)]
      exact hlast
    rw [Cursor.rest, List.getElem?_drop, hg.input] at e
    rw [← e]
    congr 1
    omega

theorem nextIs_iff {w : Bytes} (h : c.pos ≤ c.input.length) : c.nextIs w = true ↔ Spec.SameText (c.rest.take w.length) w := by
  have hlow : Spec.lower = toLower := funext lower_eq
  unfold Cursor.nextIs Cursor.peek Spec.SameText
  by_cases hl : c.pos + w.length ≤ c.input.length
  · rw [if_pos hl, hlow]
    dsimp only
    unfold eqIgnoreCase
    exact decide_eq_true_iff
  · rw [if_neg hl]
    refine ⟨(fun e => by cases e), fun e => ?_⟩
    have := congrArg List.length e
    rw [List.length_map, List.length_map, List.length_take, Cursor.rest, List.length_drop] at this
    omega

theorem nextIs_occurs {w : Bytes} (h : Good s c) (e : c.nextIs w = true) : Spec.OccursAnyCase w s := by
  unfold Cursor.nextIs Cursor.peek at e
  by_cases hl : c.pos + w.length ≤ c.input.length
  · rw [if_pos hl] at e
    dsimp only at e
    have : Spec.lower = toLower := funext lower_eq
    refine ⟨(c.input.drop c.pos).take w.length, ⟨c.input.take c.pos, (c.input.drop c.pos).drop w.length, ?_⟩, ?_⟩
    · rw [List.append_assoc, List.take_append_drop, List.take_append_drop, h.input]
    · unfold Spec.SameText
      rw [this]
      unfold eqIgnoreCase at e
      exact of_decide_eq_true e
  · rw [if_neg hl] at e
    cases e

theorem nextIs_beyond {w : Bytes} (h : ¬ c.pos ≤ c.input.length) : c.nextIs w = false := by
  unfold Cursor.nextIs Cursor.peek
  rw [if_neg (by omega)]

/-- what follows a conjunction, if one was found -/
def afterFound (d : Delimiter) (start : Nat) (c : Cursor) : Option Bytes → R Cursor
  | some w => afterConjunction d start w (c.advanceBy w.length)
  | none => .ok c

theorem consume_found {d : Delimiter} (start : Nat) (words : List Bytes) (h : c.pos ≤ c.input.length) :
    consumeConjunction d start c words = afterFound d start c (Spec.foundConjunction words c.rest) := by
  induction words with
  | nil => rfl
  | cons w ws ih =>
    unfold consumeConjunction Spec.foundConjunction
    by_cases e : Spec.SameText (c.rest.take w.length) w
    · rw [if_pos e, if_pos ((nextIs_iff h).2 e)]; rfl
    · rw [if_neg e, if_neg (fun g => e ((nextIs_iff h).1 g)), ih]

theorem consume_beyond {d : Delimiter} (start : Nat) (words : List Bytes) (h : ¬ c.pos ≤ c.input.length) :
    consumeConjunction d start c words = .ok c := by
  induction words with
  | nil => rfl
  | cons w ws ih =>
    unfold consumeConjunction
    rw [nextIs_beyond h, ih]; rfl

/-- lists which find the same conjunction are the same for the parser -/
theorem consume_same {d : Delimiter} (start : Nat) {words words' : List Bytes} (h : Good s c)
    (hw : ∀ r, r <:+ s → Spec.foundConjunction words' r = Spec.foundConjunction words r) :
    consumeConjunction d start c words' = consumeConjunction d start c words := by
  by_cases hp : c.pos ≤ c.input.length
  · rw [consume_found _ _ hp, consume_found _ _ hp, hw c.rest (by rw [← h.input]; exact List.drop_suffix _ _)]
  · rw [consume_beyond _ _ hp, consume_beyond _ _ hp]

/-- conjunctions which don't occur in the text are not found in it -/
theorem found_occurring {r : Bytes} (words : List Bytes) (h : r <:+ s) :
    Spec.foundConjunction words r = Spec.foundConjunction (Spec.occurring s words) r := by
  induction words with
  | nil => rfl
  | cons w ws ih =>
    classical
    have key : Spec.SameText (r.take w.length) w → Spec.OccursAnyCase w s := by
      intro e
      obtain ⟨x, hx⟩ := h
      exact ⟨r.take w.length, ⟨x, r.drop w.length, by rw [List.append_assoc, List.take_append_drop, hx]⟩, e⟩
    unfold Spec.occurring
    rw [List.filter_cons]
    by_cases ho : Spec.OccursAnyCase w s
    · rw [if_pos (by simpa using ho)]
      show _ = (if Spec.SameText (r.take w.length) w then _ else Spec.foundConjunction (Spec.occurring s ws) r)
      rw [← ih]
      rfl
    · rw [if_neg (by simpa using ho)]
      show (if Spec.SameText (r.take w.length) w then _ else Spec.foundConjunction ws r) = Spec.foundConjunction (Spec.occurring s ws) r
      rw [if_neg (fun e => ho (key e)), ih]

theorem found_of_occurring {words words' : List Bytes} (h : Spec.occurring s words' = Spec.occurring s words) :
    ∀ r, r <:+ s → Spec.foundConjunction words' r = Spec.foundConjunction words r := fun r hr => by
  rw [found_occurring words' hr, found_occurring words hr, h]

/-- the cursor of a result, if any, is good -/
def GoodOut (s : Bytes) (o : Output) : Prop := ∀ c, o.2 = some c → Good s c
/-- the result of looking for a unit -/
def GoodSnd {α : Type} (s : Bytes) (p : α × Cursor) : Prop := Good s p.2

theorem afterConjunction_agrees {d d' : Delimiter} (hd : ∀ b ∈ s, d b = d' b) (start : Nat) (word : Bytes) (h : Good s c) :
    Agrees L (Good s) (afterConjunction d start word c) (afterConjunction d' start word c) := by
  unfold afterConjunction
  cases hc : c.cur with
  | none => exact Agrees.fail
  | some b =>
    refine Agrees.ite (by rw [hd b (h.cur hc)]) (fun _ => tryConsumeDelimiter_agrees hd h) (fun _ => ?_)
    exact Agrees.ite Iff.rfl (fun _ => Agrees.ok h) (fun _ => Agrees.fail)

theorem consumeConjunction_agrees {d d' : Delimiter} (hd : ∀ b ∈ s, d b = d' b) (start : Nat) (words : List Bytes) (h : Good s c) :
    Agrees L (Good s) (consumeConjunction d start c words) (consumeConjunction d' start c words) := by
  induction words with
  | nil => exact Agrees.ok h
  | cons w ws ih =>
    unfold consumeConjunction
    exact Agrees.ite Iff.rfl (fun _ => afterConjunction_agrees hd _ _ (h.advanceBy _)) (fun _ => ih)

theorem tryConnection_agrees (H : Same L s env env') (h : Good s c) : Agrees L (Good s) (tryConnection env.cfg c) (tryConnection env'.cfg c) := by
  unfold tryConnection tryConsumeConnection
  refine Agrees.bind (assertDelimiter_agrees H.outer h) fun _ _ => ?_
  refine Agrees.bind (tryConsumeDelimiter_agrees H.outer h) fun c' h' => ?_
  rw [consume_same _ h' H.opts.conjunctions]
  exact consumeConjunction_agrees H.outer _ _ h'

theorem goodOut_none {r : DurationRepr} : GoodOut s (r, none) := fun c h => by cases h
theorem goodOut_some {r : DurationRepr} (h : Good s c) : GoodOut s (r, some c) := fun c' e => by cases e; exact h

theorem unlessEnd_good (h : Good s c) {c' : Cursor} (e : unlessEnd c = some c') : Good s c' := by
  unfold unlessEnd at e
  cases hc : c.cur with
  | none => rw [hc] at e; cases e
  | some b => rw [hc] at e; cases e; exact h

theorem makeOutput_good (mode : Mode) (r : DurationRepr) (h : Good s c) : GoodOut s (makeOutput mode r c) := by
  cases mode with
  | single => exact goodOut_none
  | multiple => exact fun c' e => unlessEnd_good h e

theorem connected_agrees (H : Same L s env env') (r : DurationRepr) (h : Good s c) :
    Agrees L (GoodOut s) (do let c ← tryConnection env.cfg c; return (r, some c)) (do let c ← tryConnection env'.cfg c; return (r, some c)) :=
  Agrees.bind (tryConnection_agrees H h) fun _ h' => Agrees.pure (goodOut_some h')

theorem finalize_agrees (H : Same L s env env') (mode : Mode) (r : DurationRepr) (h : Good s c) :
    Agrees L (GoodOut s) (finalize mode env.cfg r c) (finalize mode env'.cfg r c) := by
  cases mode with
  | single => exact Agrees.bind Agrees.any fun _ _ => Agrees.pure goodOut_none
  | multiple =>
    show Agrees L _ (finalizeMultiple _ _ _) (finalizeMultiple _ _ _)
    unfold finalizeMultiple
    cases hc : c.cur with
    | none => exact Agrees.ok goodOut_none
    | some b => exact Agrees.ite (by rw [H.outer b (h.cur hc)]) (fun _ => connected_agrees H r h) (fun _ => Agrees.ok (goodOut_some h))

/-! ## Infinity -/

theorem inityLoop_good (bs : Bytes) (h : Good s c) : Agrees L (Good s) (inityLoop c bs) (inityLoop c bs) := by
  induction bs generalizing c with
  | nil => exact Agrees.ok h
  | cons b bs ih =>
    unfold inityLoop
    cases hc : c.cur with
    | none => exact Agrees.fail
    | some b' => exact Agrees.ite Iff.rfl (fun _ => ih h.advance) (fun _ => Agrees.fail)

theorem inityLoopMultiple_good (start : Nat) (bs : Bytes) (h : Good s c) :
    Agrees L (Good s) (inityLoopMultiple start c bs) (inityLoopMultiple start c bs) := by
  induction bs generalizing c with
  | nil => exact Agrees.ok h
  | cons b bs ih =>
    unfold inityLoopMultiple
    cases hc : c.cur with
    | none => exact Agrees.bind Agrees.any fun _ _ => Agrees.bind Agrees.any fun _ _ => Agrees.fail
    | some b' => exact Agrees.ite Iff.rfl (fun _ => ih h.advance) (fun _ => Agrees.fail)

theorem infinity_agrees (H : Same L s env env') (mode : Mode) (r : DurationRepr) (h : Good s c) :
    Agrees L (GoodOut s) (parseInfinityRemainder mode env.cfg r c) (parseInfinityRemainder mode env'.cfg r c) := by
  cases mode with
  | single =>
    show Agrees L _ (infinitySingle _ _) (infinitySingle _ _)
    unfold infinitySingle
    cases hc : c.cur with
    | none => exact Agrees.ok goodOut_none
    | some b => exact Agrees.bind Agrees.any fun _ _ => Agrees.bind Agrees.any fun _ _ => Agrees.pure goodOut_none
  | multiple =>
    show Agrees L _ (infinityMultiple _ _ _) (infinityMultiple _ _ _)
    unfold infinityMultiple
    cases hc : c.cur with
    | none => exact Agrees.ok goodOut_none
    | some b =>
      refine Agrees.ite (by rw [H.outer b (h.cur hc)]) (fun _ => connected_agrees H _ h) (fun _ => ?_)
      refine Agrees.bind (inityLoopMultiple_good _ _ h) fun c' h' => ?_
      unfold afterInfinity
      cases hc' : c'.cur with
      | none => exact Agrees.ok goodOut_none
      | some b' => exact Agrees.ite (by rw [H.outer b' (h'.cur hc')]) (fun _ => connected_agrees H _ h') (fun _ => Agrees.fail)

/-! ## Words -/

theorem wordEnd_agrees (H : Same L s env env') : ∀ b ∈ s, wordEnd env.cfg b = wordEnd env'.cfg b := fun b hb => by
  unfold wordEnd; rw [H.outer b hb]
theorem unitEnd_agrees (H : Same L s env env') : ∀ b ∈ s, unitEnd env.cfg b = unitEnd env'.cfg b := fun b hb => by
  rcases H.agoOrNone with e | ⟨n1, n2⟩
  · unfold unitEnd
    rw [e]
    by_cases e : env.cfg.allowAgo = true
    · rw [if_pos e, if_pos e]; unfold wordEndAgo; rw [H.outer b hb, H.inner b hb]
    · rw [if_neg e, if_neg e]; exact wordEnd_agrees H b hb
  · have key : ∀ cfg : Config, cfg.innerDelimiter b = false → unitEnd cfg b = wordEnd cfg b := fun cfg hn => by
      unfold unitEnd
      by_cases e : cfg.allowAgo = true
      · rw [if_pos e]; unfold wordEndAgo; rw [hn]; rfl
      · rw [if_neg e]
    rw [key _ (n1 b hb), key _ (n2 b hb)]
    exact wordEnd_agrees H b hb

/-- without delimiters in the text `ago` has no use: the time unit is the rest of the text -/
theorem skipTo_all {d : Delimiter} (n : Nat) (hd : ∀ b ∈ c.input, d b = false) (hp : c.pos ≤ c.input.length) (hn : c.input.length - c.pos ≤ n) :
    Cursor.skipTo d n c = .ok { c with pos := c.input.length } := by
  induction n generalizing c with
  | zero =>
    unfold Cursor.skipTo
    have : c.pos = c.input.length := by omega
    have hc : c.cur = none := by
      unfold Cursor.cur
      rw [List.getElem?_eq_none_iff]
      omega
    rw [hc]
    show Except.ok c = _
    rw [← this]
  | succ n ih =>
    unfold Cursor.skipTo
    cases hc : c.cur with
    | none =>
      have : c.pos = c.input.length := by
        unfold Cursor.cur at hc
        rw [List.getElem?_eq_none_iff] at hc
        omega
      show Except.ok c = _
      rw [← this]
    | some b =>
      have hb : b ∈ c.input := by unfold Cursor.cur at hc; exact List.mem_of_getElem? hc
      have hlt := Cursor.pos_lt_of_cur hc
      dsimp only
      rw [if_neg (by rw [hd b hb]; decide)]
      exact ih (c := c.advance) hd hlt (by show c.input.length - (c.pos + 1) ≤ n; omega)

theorem ago_unused (hd : ∀ b ∈ s, env.cfg.innerDelimiter b = false) (h : Good s c) {b : UInt8} (hc : c.cur = some b) :
    parseTimeUnitAgo env c = lookupRemainder env.units c := by
  have hlt := Cursor.pos_lt_of_cur hc
  unfold parseTimeUnitAgo lookupRemainder Cursor.getRemainderStrUnchecked Cursor.getRemainder Cursor.advanceTo
  rw [skipTo_all _ (by rw [h.input]; exact hd) (by omega) (by omega), ok_bind]
  dsimp only
  cases hr : sliceR c.input c.pos c.input.length with
  | error e => rfl
  | ok w =>
    rw [ok_bind, ok_bind]
    show (utf8Unchecked w >>= _) = (utf8Unchecked w >>= _)
    have hw : w ≠ [] := by
      unfold sliceR slice at hr
      rw [if_pos ⟨by omega, Nat.le_refl _⟩] at hr
      cases hr
      intro h0
      have := congrArg List.length h0
      rw [List.length_drop, List.length_take, List.length_nil] at this
      omega
    unfold utf8Unchecked
    by_cases hu : utf8Valid w = true
    · rw [if_pos hu, ok_bind, ok_bind, if_neg (by rw [List.isEmpty_iff]; exact hw)]
      cases env.units.get w with
      | none => rfl
      | some u =>
        show agoSingle _ _ _ _ = _
        have : ({ c with pos := c.input.length } : Cursor).cur = none := by
          unfold Cursor.cur
          rw [List.getElem?_eq_none_iff]
        unfold agoSingle
        rw [this]
        rfl
    · rw [if_neg hu]; rfl

theorem consumeConnectionIfAny_agrees (H : Same L s env env') (h : Good s c) :
    Agrees L (Good s) (consumeConnectionIfAny env.cfg c) (consumeConnectionIfAny env'.cfg c) := by
  unfold consumeConnectionIfAny
  cases hc : c.cur with
  | none => exact Agrees.ok h
  | some b => exact Agrees.ite (by rw [H.outer b (h.cur hc)]) (fun _ => tryConnection_agrees H h) (fun _ => Agrees.ok h)

theorem keywordFound_agrees (H : Same L s env env') (start : Cursor) (h : Good s c) (o : Option Unit') :
    Agrees L (GoodSnd s) (keywordFound env.cfg start c o) (keywordFound env'.cfg start c o) := by
  cases o with
  | none => exact Agrees.ok (h.reset _)
  | some u => exact Agrees.bind (consumeConnectionIfAny_agrees H h) fun _ h' => Agrees.pure h'

theorem utf8_agrees {w : Bytes} (hw : w <:+: s) : Agrees L (fun v => v <:+: s) (utf8Unchecked w) (utf8Unchecked w) := by
  refine Agrees.same fun v hv => ?_
  unfold utf8Unchecked at hv
  split at hv
  · cases hv; exact hw
  · cases hv

theorem lookupRemainder_agrees {units units' : TimeUnitsLike} (hu : ∀ w, w <:+: s → units.get w = units'.get w) (h : Good s c) :
    Agrees L (GoodSnd s) (lookupRemainder units c) (lookupRemainder units' c) := by
  unfold lookupRemainder Cursor.getRemainderStrUnchecked Cursor.getRemainder
  refine Agrees.bind (P := fun v => v <:+: s) ?_ fun v hv => ?_
  · exact Agrees.bind (slice_agrees h _ _) fun w hw => utf8_agrees hw
  · rw [hu v hv]
    cases units'.get v with
    | none => exact Agrees.pure h
    | some u => exact Agrees.pure h.finish

theorem lookupRemainder_miss {units : TimeUnitsLike} (hL : L) (hu : ∀ w, w <:+: s → units.get w = none) (h : Good s c) :
    Agrees L (GoodSnd s) (.ok (none, c)) (lookupRemainder units c) := by
  refine ⟨?_, fun a ha => by cases ha; exact h⟩
  have key : lookupRemainder units c = .ok (none, c) ∨ ∃ p, p ≠ .unwrap ∧ lookupRemainder units c = panic p := by
    unfold lookupRemainder Cursor.getRemainderStrUnchecked Cursor.getRemainder
    cases hr : sliceR c.input c.pos c.input.length with
    | error e =>
      refine Or.inr ⟨.index, by decide, ?_⟩
      unfold sliceR slice at hr
      split at hr
      · cases hr
      · cases hr; rfl
    | ok w =>
      have hw : w <:+: s := (slice_agrees (L := True) h c.pos c.input.length).2 w hr
      rw [ok_bind]
      unfold utf8Unchecked
      by_cases hv : utf8Valid w = true
      · rw [if_pos hv, ok_bind, hu w hw]
        exact Or.inl rfl
      · rw [if_neg hv]
        exact Or.inr ⟨.utf8, by decide, rfl⟩
  rcases key with e | ⟨p, hp, e⟩
  · exact Or.inl e.symm
  · exact Or.inr ⟨hL, p, hp, e⟩

theorem parseKeyword_agrees (H : Same L s env env') (mode : Mode) (h : Good s c) :
    Agrees L (GoodSnd s) (parseKeyword mode env c) (parseKeyword mode env' c) := by
  unfold parseKeyword
  have hk := H.keywords
  have hs := H.keywordsSome
  cases e : env.keywords with
  | none =>
    cases e' : env'.keywords with
    | none => exact Agrees.ok h
    | some k' =>
      rw [e, e'] at hs
      rcases hs with hs | ⟨-, hL, hscan⟩
      · cases hs
      have hk : ∀ w, w <:+: s → k'.get w = none := fun w hw => by
        have := hk w hw
        rw [e, e'] at this
        exact this.symm
      cases mode with
      | single => exact lookupRemainder_miss hL hk h
      | multiple =>
        show Agrees L _ _ (parseKeywordMultiple env' k' c)
        unfold parseKeywordMultiple
        rw [hscan]
        exact miss_agrees h hL _ (fun v c' => keywordFound env'.cfg c c' (k'.get v)) fun w c' hw => by rw [hk w hw]; rfl
  | some k =>
    cases e' : env'.keywords with
    | none =>
      rw [e, e'] at hs
      rcases hs with hs | ⟨hs, -⟩
      · cases hs
      · cases hs
    | some k' =>
      have hk : ∀ w, w <:+: s → k.get w = k'.get w := fun w hw => by
        have := hk w hw
        rw [e, e'] at this
        exact this
      cases mode with
      | single => exact lookupRemainder_agrees hk h
      | multiple =>
        show Agrees L _ (parseKeywordMultiple env k c) (parseKeywordMultiple env' k' c)
        unfold parseKeywordMultiple
        refine Agrees.bind (H.scan _ _ c (wordEnd_agrees H) h) ?_
        rintro ⟨w, c'⟩ ⟨hw, h'⟩
        refine Agrees.ite Iff.rfl (fun _ => Agrees.pure h') (fun _ => ?_)
        refine Agrees.bind (utf8_agrees hw) fun v hv => ?_
        rw [hk v hv]
        exact keywordFound_agrees H _ h' _

theorem unitFoundSingle_agrees (H : Same L s env env') (start : Cursor) (h : Good s c) (o : Option Unit') :
    Agrees L (GoodSnd s) (unitFoundSingle env.cfg start c o) (unitFoundSingle env'.cfg start c o) := by
  cases o with
  | none => exact Agrees.ok (h.reset _)
  | some u =>
    show Agrees L _ (agoSingle _ _ _ _) (agoSingle _ _ _ _)
    unfold agoSingle
    cases hc : c.cur with
    | none => exact Agrees.ok h
    | some b =>
      refine Agrees.bind (tryConsumeDelimiter_agrees H.inner h) fun c' h' => ?_
      exact Agrees.ite Iff.rfl (fun _ => Agrees.pure (h'.advanceBy _)) (fun _ => Agrees.pure (h'.reset _))

theorem afterAgo_agrees (H : Same L s env env') (start : Cursor) (u : Unit') (h : Good s c) :
    afterAgo env.cfg start u c = afterAgo env'.cfg start u c ∧ GoodSnd s (afterAgo env.cfg start u c) := by
  unfold afterAgo
  cases hc : c.cur with
  | none => exact ⟨rfl, h⟩
  | some b =>
    dsimp only
    rw [H.outer b (h.cur hc)]
    refine ⟨rfl, ?_⟩
    split
    · exact h
    · exact h.reset _

theorem agoMultiple_agrees (H : Same L s env env') (u : Unit') (h : Good s c) :
    Agrees L (GoodSnd s) (agoMultiple env.cfg u c) (agoMultiple env'.cfg u c) := by
  unfold agoMultiple
  cases hc : c.cur with
  | none => exact Agrees.ok h
  | some b =>
    refine Agrees.ite ?_ (fun _ => ?_) (fun _ => Agrees.ok h)
    · rcases H.agoOrNone with e | ⟨n1, n2⟩
      · rw [H.inner b (h.cur hc), e]
      · rw [n1 b (h.cur hc), n2 b (h.cur hc), Bool.and_false, Bool.and_false]
    refine Agrees.bind (tryConsumeDelimiter_agrees H.inner h) fun c' h' => ?_
    refine Agrees.ite Iff.rfl (fun _ => ?_) (fun _ => Agrees.pure (h'.reset _))
    obtain ⟨e, g⟩ := afterAgo_agrees H c u (h'.advanceBy 3)
    rw [← e]
    exact Agrees.pure g

theorem unitFoundMultiple_agrees (H : Same L s env env') (start : Cursor) (h : Good s c) (o : Option Unit') :
    Agrees L (GoodSnd s) (unitFoundMultiple env.cfg start c o) (unitFoundMultiple env'.cfg start c o) := by
  cases o with
  | none => exact Agrees.ok (h.reset _)
  | some u =>
    refine Agrees.bind (agoMultiple_agrees H u h) ?_
    rintro ⟨u', c'⟩ h'
    exact Agrees.bind (consumeConnectionIfAny_agrees H h') fun _ h'' => Agrees.pure h''

theorem parseTimeUnit_agrees (H : Same L s env env') (mode : Mode) (h : Good s c) :
    Agrees L (GoodSnd s) (parseTimeUnit mode env c) (parseTimeUnit mode env' c) := by
  cases mode with
  | single =>
    show Agrees L _ (parseTimeUnitSingle env c) (parseTimeUnitSingle env' c)
    unfold parseTimeUnitSingle assertSome
    cases hc : c.cur with
    | none => exact Agrees.panic
    | some b =>
    dsimp only
    rw [ok_bind, ok_bind]
    rcases H.agoOrNone with e | ⟨n1, n2⟩
    case inr =>
      rw [ago_unused n1 h hc, ago_unused n2 h hc, ite_self, ite_self]
      exact lookupRemainder_agrees H.units h
    refine Agrees.ite (by rw [e]) (fun _ => ?_) (fun _ => lookupRemainder_agrees H.units h)
    unfold parseTimeUnitAgo
    refine Agrees.bind (advanceTo_agrees H.inner h) ?_
    rintro ⟨w, c'⟩ ⟨hw, h'⟩
    refine Agrees.bind (utf8_agrees hw) fun v hv => ?_
    refine Agrees.ite Iff.rfl (fun _ => Agrees.pure h') (fun _ => ?_)
    rw [H.units v hv]
    exact unitFoundSingle_agrees H _ h' _
  | multiple =>
    refine Agrees.bind Agrees.any fun _ _ => ?_
    refine Agrees.bind (H.scan _ _ c (unitEnd_agrees H) h) ?_
    rintro ⟨w, c'⟩ ⟨hw, h'⟩
    refine Agrees.ite Iff.rfl (fun _ => Agrees.pure h') (fun _ => ?_)
    refine Agrees.bind (utf8_agrees hw) fun v hv => ?_
    rw [H.units v hv]
    exact unitFoundMultiple_agrees H _ h' _

theorem numeralFound_agrees (H : Same L s env env') (start : Cursor) (w : Bytes) (h : Good s c) (o : Option Multiplier) :
    Agrees L (GoodSnd s) (numeralFound env.cfg start c w o) (numeralFound env'.cfg start c w o) := by
  cases o with
  | none => exact Agrees.ok (h.reset _)
  | some m =>
    unfold numeralFound
    cases hc : c.cur with
    | none => exact Agrees.ok (h.reset _)
    | some b =>
      refine Agrees.ite (by rw [H.inner b (h.cur hc)]) (fun _ => ?_) (fun _ => Agrees.ok (h.reset _))
      exact Agrees.bind (tryConsumeDelimiter_agrees H.inner h) fun _ h' => Agrees.pure h'

theorem parseNumeral_agrees (H : Same L s env env') (h : Good s c) : Agrees L (GoodSnd s) (parseNumeral env c) (parseNumeral env' c) := by
  unfold parseNumeral
  have hk := H.numerals
  have hs := H.numeralsSome
  cases e : env.numerals with
  | none =>
    cases e' : env'.numerals with
    | none => exact Agrees.ok h
    | some k' =>
      rw [e, e'] at hs
      rcases hs with hs | ⟨-, hL, hscan⟩
      · cases hs
      have hk : ∀ w, w <:+: s → k' w = none := fun w hw => by
        have := hk w hw
        rw [e, e'] at this
        exact this.symm
      dsimp only
      rw [hscan]
      exact miss_agrees h hL _ (fun v c' => numeralFound env'.cfg c c' v (k' v)) fun w c' hw => by rw [hk w hw]; rfl
  | some k =>
    cases e' : env'.numerals with
    | none =>
      rw [e, e'] at hs
      rcases hs with hs | ⟨hs, -⟩
      · cases hs
      · cases hs
    | some k' =>
      refine Agrees.bind (H.scan _ _ c H.inner h) ?_
      rintro ⟨w, c'⟩ ⟨hw, h'⟩
      refine Agrees.ite Iff.rfl (fun _ => Agrees.pure h') (fun _ => ?_)
      refine Agrees.bind (utf8_agrees hw) fun v hv => ?_
      have := hk v hv
      rw [e, e'] at this
      have e2 : k v = k' v := this
      rw [e2]
      exact numeralFound_agrees H _ _ h' _

/-! ## Numbers -/

theorem parseSign_good (h : Good s c) : Agrees L (GoodSnd s) (parseSignIsNegative c) (parseSignIsNegative c) := by
  unfold parseSignIsNegative
  cases hc : c.cur with
  | none => exact Agrees.fail
  | some b =>
    refine Agrees.ite Iff.rfl (fun _ => Agrees.ok h.advance) (fun _ => ?_)
    exact Agrees.ite Iff.rfl (fun _ => Agrees.ok h.advance) (fun _ => Agrees.ok h)

theorem parseSign_sign {neg : Bool} {c' : Cursor} (e : parseSignIsNegative c = .ok (some neg, c')) :
    c' = c.advance ∧ ∃ a, c.cur = some a ∧ (a = 43 ∨ a = 45) := by
  unfold parseSignIsNegative at e
  cases hc : c.cur with
  | none => rw [hc] at e; cases e
  | some a =>
    rw [hc] at e
    dsimp only at e
    by_cases h1 : a = 43
    · rw [if_pos h1] at e; cases e; exact ⟨rfl, a, rfl, Or.inl h1⟩
    · rw [if_neg h1] at e
      by_cases h2 : a = 45
      · rw [if_pos h2] at e; cases e; exact ⟨rfl, a, rfl, Or.inr h2⟩
      · rw [if_neg h2] at e; cases e

theorem parseNumberSign_agrees (H : Same L s env env') (h : Good s c) :
    Agrees L (GoodSnd s) (parseNumberSign env.cfg c) (parseNumberSign env'.cfg c) := by
  refine Agrees.bind (P := fun p => GoodSnd s p ∧ parseSignIsNegative c = .ok p) ⟨Or.inl rfl, fun p hp => ⟨(parseSign_good (L := L) h).2 p hp, hp⟩⟩ ?_
  rintro ⟨o, c'⟩ ⟨h', hp⟩
  cases o with
  | none => exact Agrees.ok h'
  | some neg =>
    show Agrees L _ (afterSign _ c' (some neg)) (afterSign _ c' (some neg))
    unfold afterSign
    dsimp only
    cases hc : c'.cur with
    | none => exact Agrees.fail
    | some b =>
      refine Agrees.ite ?_ (fun _ => ?_) (fun _ => Agrees.ok h')
      · rw [← H.inner b (Good.cur h' hc)]
        rcases hi : env.cfg.innerDelimiter b with _ | _
        · rw [Bool.and_false, Bool.and_false]
        · obtain ⟨rfl, a, ha, hs⟩ := parseSign_sign hp
          rw [H.opts.signDelimiter ⟨a, b, pair_occurs (i := c.pos) ?_ ?_, hs, hi⟩]
          · unfold Cursor.cur at ha; rwa [h.input] at ha
          · unfold Cursor.cur at hc
            have h2 : c.advance.input = s := Good.input h'
            rw [h2] at hc
            exact hc
      exact Agrees.bind (tryConsumeDelimiter_agrees H.inner h') fun _ h'' => Agrees.pure h''

theorem parseNumberFraction_good (w : Option Range) (f f' : Bool) (hf : 46 ∈ s → f' = f) (h : Good s c) (ha : After s c ∨ c.cur = some 46) :
    Agrees L (fun p => Good s p.2.2 ∧ (p.1 = true → After s p.2.2)) (parseNumberFraction w f c) (parseNumberFraction w f' c) := by
  unfold parseNumberFraction
  cases hc : c.cur with
  | none => exact Agrees.ok ⟨h, fun e => by cases e⟩
  | some b =>
    by_cases hb : b = 46
    · subst hb
      have ha' : After s c.advance := After.advance h hc (Or.inr rfl)
      rw [hf (h.cur hc)]
      dsimp only
      rw [if_pos rfl]
      refine Agrees.ite Iff.rfl (fun _ => Agrees.fail) (fun _ => ?_)
      unfold fractionDigits
      cases hc' : c.advance.cur with
      | none => exact Agrees.ite Iff.rfl (fun _ => Agrees.bind Agrees.any fun _ _ => Agrees.fail) (fun _ => Agrees.ok ⟨h.advance, fun _ => ha'⟩)
      | some b' =>
        refine Agrees.ite Iff.rfl (fun hd => ?_) (fun _ => ?_)
        · have hp := Nat.le_of_lt (Cursor.pos_lt_of_cur hc')
          rw [Cursor.parseDigits_eq _ hp b' hc' hd, ok_bind]
          exact Agrees.pure ⟨h.advance.advanceBy _, fun _ => After.digits h.advance hc' hd⟩
        · exact Agrees.ite Iff.rfl (fun _ => Agrees.bind Agrees.any fun _ _ => Agrees.fail) (fun _ => Agrees.ok ⟨h.advance, fun _ => ha'⟩)
    · dsimp only
      rw [if_neg hb, if_neg hb]
      refine Agrees.ok ⟨h, fun _ => ha.resolve_right (fun e => hb ?_)⟩
      rw [hc] at e
      exact Option.some.inj e

theorem exponentLoop_good (neg : Bool) (fuel : Nat) (e : Int) (h : Good s c) :
    Agrees L (fun p => Good s p.2 ∧ (p.2 = c ∨ After s p.2)) (exponentLoop neg fuel e c) (exponentLoop neg fuel e c) := by
  induction fuel generalizing e c with
  | zero =>
    unfold exponentLoop
    cases hc : c.cur with
    | none => exact Agrees.ok ⟨h, Or.inl rfl⟩
    | some b => exact Agrees.ite Iff.rfl (fun _ => Agrees.panic) (fun _ => Agrees.ok ⟨h, Or.inl rfl⟩)
  | succ fuel ih =>
    unfold exponentLoop
    cases hc : c.cur with
    | none => exact Agrees.ok ⟨h, Or.inl rfl⟩
    | some b =>
      refine Agrees.ite Iff.rfl (fun hd => ?_) (fun _ => Agrees.ok ⟨h, Or.inl rfl⟩)
      show Agrees L _ (match exponentStep neg e b with | some e => _ | none => _) (match exponentStep neg e b with | some e => _ | none => _)
      cases exponentStep neg e b with
      | none => exact Agrees.fail
      | some e' =>
        refine (ih _ h.advance).mono fun p hp => ⟨hp.1, Or.inr ?_⟩
        rcases hp.2 with hp2 | hp2
        · rw [hp2]; exact After.advance h hc (Or.inl ((digit_iff b).2 hd))
        · exact hp2

theorem parseNumberExponent_good (f f' : Bool) (hf : Spec.Adjacent Spec.NumberByte (fun b => b = 101 ∨ b = 69) s → f' = f) (h : Good s c)
    (ha : After s c) :
    Agrees L (fun p => Good s p.2.2 ∧ After s p.2.2) (parseNumberExponent f c) (parseNumberExponent f' c) := by
  unfold parseNumberExponent
  cases hc : c.cur with
  | none => exact Agrees.ok ⟨h, ha⟩
  | some b =>
    dsimp only
    refine Agrees.ite Iff.rfl (fun hb => ?_) (fun _ => Agrees.ok ⟨h, ha⟩)
    have hb' : b = 101 ∨ b = 69 := by simpa using hb
    rw [hf (ha.adjacent h hc hb')]
    refine Agrees.ite Iff.rfl (fun _ => Agrees.fail) (fun _ => ?_)
    refine Agrees.bind (P := fun p => Good s p.2 ∧ After s p.2) ?_ ?_
    · refine Agrees.bind (parseSign_good h.advance) ?_
      rintro ⟨o, c'⟩ h'
      refine Agrees.bind (exponentLoop_good _ _ _ h') ?_
      rintro ⟨e, c''⟩ ⟨h'', ha''⟩
      show Agrees L _ (liftP (subUsize c''.pos c'.pos) >>= _) (liftP (subUsize c''.pos c'.pos) >>= _)
      by_cases hp : c'.pos ≤ c''.pos
      · have hs : subUsize c''.pos c'.pos = .ok (c''.pos - c'.pos) := by unfold subUsize; rw [if_pos hp]
        rw [hs]
        show Agrees L _ (if 0 < c''.pos - c'.pos then _ else _) (if 0 < c''.pos - c'.pos then _ else _)
        refine Agrees.ite Iff.rfl (fun hn => Agrees.pure ⟨h'', ?_⟩) (fun _ => ?_)
        · rcases ha'' with e1 | e1
          · exfalso
            have e1 : c'' = c' := e1
            rw [e1] at hn
            omega
          · exact e1
        · exact Agrees.ite Iff.rfl (fun _ => Agrees.fail) (fun _ => Agrees.fail)
      · have hs : subUsize c''.pos c'.pos = .error .overflow := by unfold subUsize; rw [if_neg hp]
        rw [hs]
        exact Agrees.panic
    · rintro ⟨e, c'⟩ h'
      exact Agrees.pure h'

theorem parseNumberDelimiter_agrees (H : Same L s env env') (h : Good s c) (ha : After s c) :
    Agrees L (GoodSnd s) (parseNumberDelimiter (if env.cfg.allowTimeUnitDelimiter then some env.cfg.innerDelimiter else none) c)
      (parseNumberDelimiter (if env'.cfg.allowTimeUnitDelimiter then some env'.cfg.innerDelimiter else none) c) := by
  cases hc : c.cur with
  | none => unfold parseNumberDelimiter; rw [hc]; exact Agrees.ok h
  | some b =>
    rcases hi : env.cfg.innerDelimiter b with _ | _
    · have key : ∀ (t : Bool) (d : Delimiter), d b = false → parseNumberDelimiter (if t then some d else none) c = .ok (true, c) := by
        intro t d hd
        unfold parseNumberDelimiter
        rw [hc]
        cases t with
        | false => rfl
        | true =>
          show (if d b = true then _ else _) = _
          rw [if_neg (by rw [hd]; decide)]
      rw [key _ _ hi, key _ _ (by rw [← H.inner b (h.cur hc)]; exact hi)]
      exact Agrees.ok h
    · rw [H.opts.unitDelimiter (ha.adjacent h hc hi)]
      unfold parseNumberDelimiter
      rw [hc]
      by_cases e : env.cfg.allowTimeUnitDelimiter = true
      · rw [if_pos e, if_pos e]
        refine Agrees.ite (by rw [H.inner b (h.cur hc)]) (fun _ => ?_) (fun _ => Agrees.ok h)
        exact Agrees.bind (tryConsumeDelimiter_agrees H.inner h) fun _ h' => Agrees.pure h'
      · rw [if_neg e, if_neg e]
        exact Agrees.ok h

theorem parseNumberTimeUnit_agrees (H : Same L s env env') (mode : Mode) (h : Good s c) :
    Agrees L (fun p => Good s p.2.2) (parseNumberTimeUnit mode env c) (parseNumberTimeUnit mode env' c) := by
  unfold parseNumberTimeUnit
  cases hc : c.cur with
  | none => exact Agrees.ok h
  | some b =>
    cases mode with
    | single =>
      show Agrees L _ (numberTimeUnitSingle env c) (numberTimeUnitSingle env' c)
      unfold numberTimeUnitSingle
      refine Agrees.ite (by rw [H.isEmpty]) (fun _ => ?_) (fun _ => Agrees.bind Agrees.any fun _ _ => Agrees.fail)
      refine Agrees.bind (parseTimeUnit_agrees H .single h) ?_
      rintro ⟨_ | u, c'⟩ h'
      · exact Agrees.bind Agrees.any fun _ _ => Agrees.fail
      · exact Agrees.ok h'
    | multiple =>
      show Agrees L _ (numberTimeUnitMultiple env c) (numberTimeUnitMultiple env' c)
      unfold numberTimeUnitMultiple
      refine Agrees.ite (by rw [H.isEmpty]) (fun _ => ?_) (fun _ => Agrees.ok h)
      refine Agrees.bind (parseTimeUnit_agrees H .multiple h) ?_
      rintro ⟨u, c'⟩ h'
      exact Agrees.pure h'

/-! ## Template -/

theorem parseUnitPart_agrees (H : Same L s env env') (mode : Mode) (r : DurationRepr) (h : Good s c) :
    Agrees L (GoodOut s) (parseUnitPart mode env r c) (parseUnitPart mode env' r c) := by
  refine Agrees.bind (parseNumberTimeUnit_agrees H mode h) ?_
  rintro ⟨go, u, c'⟩ h'
  exact Agrees.ite Iff.rfl (fun _ => Agrees.pure (makeOutput_good _ _ h')) (fun _ => finalize_agrees H _ _ h')

theorem parseDelimiterPart_agrees (H : Same L s env env') (mode : Mode) (r : DurationRepr) (h : Good s c) (ha : After s c) :
    Agrees L (GoodOut s) (parseDelimiterPart mode env r c) (parseDelimiterPart mode env' r c) := by
  refine Agrees.bind (parseNumberDelimiter_agrees H h ha) ?_
  rintro ⟨go, c'⟩ h'
  exact Agrees.ite Iff.rfl (fun _ => Agrees.pure (makeOutput_good _ _ h')) (fun _ => parseUnitPart_agrees H _ _ h')

theorem parseExponentPart_agrees (H : Same L s env env') (mode : Mode) (r : DurationRepr) (h : Good s c) (ha : After s c) :
    Agrees L (GoodOut s) (parseExponentPart mode env r c) (parseExponentPart mode env' r c) := by
  unfold parseExponentPart
  refine Agrees.bind (parseNumberExponent_good _ _ H.opts.exponent h ha) ?_
  rintro ⟨go, e, c'⟩ ⟨h', ha'⟩
  exact Agrees.ite Iff.rfl (fun _ => Agrees.pure (makeOutput_good _ _ h')) (fun _ => parseDelimiterPart_agrees H _ _ h' ha')

theorem parseAfterWhole_agrees (H : Same L s env env') (mode : Mode) (r : DurationRepr) (h : Good s c) (ha : After s c ∨ c.cur = some 46) :
    Agrees L (GoodOut s) (parseAfterWhole mode env r c) (parseAfterWhole mode env' r c) := by
  unfold parseAfterWhole
  refine Agrees.bind (parseNumberFraction_good _ _ _ H.opts.fraction h ha) ?_
  rintro ⟨go, e, c'⟩ ⟨h', ha'⟩
  refine Agrees.ite Iff.rfl (fun _ => Agrees.pure (makeOutput_good _ _ h')) (fun hg => parseExponentPart_agrees H _ _ h' (ha' ?_))
  cases go
  · exact absurd rfl hg
  · rfl

theorem parseNumeralWord_agrees (H : Same L s env env') (mode : Mode) (r : DurationRepr) (h : Good s c) :
    Agrees L (GoodOut s) (parseNumeralWord mode env r c) (parseNumeralWord mode env' r c) := by
  refine Agrees.bind (parseNumeral_agrees H h) ?_
  rintro ⟨_ | ⟨id, m⟩, c'⟩ h'
  · exact Agrees.bind Agrees.any fun _ _ => Agrees.fail
  · refine Agrees.bind (parseTimeUnit_agrees H mode h') ?_
    rintro ⟨_ | u, c''⟩ h''
    · exact Agrees.ite (by rw [H.isEmpty]) (fun _ => Agrees.fail) (fun _ => Agrees.fail)
    · exact finalize_agrees H _ _ h''

theorem parseWord_agrees (H : Same L s env env') (mode : Mode) (r : DurationRepr) (h : Good s c) :
    Agrees L (GoodOut s) (parseWord mode env r c) (parseWord mode env' r c) := by
  refine Agrees.bind (parseKeyword_agrees H mode h) ?_
  rintro ⟨_ | u, c'⟩ h'
  · refine Agrees.ite (by rw [H.numberIsOptional]) (fun _ => ?_) (fun _ => parseNumeralWord_agrees H _ _ h')
    refine Agrees.bind (parseTimeUnit_agrees H mode h') ?_
    rintro ⟨_ | u, c''⟩ h''
    · exact parseNumeralWord_agrees H _ _ (Good.reset h'' _)
    · exact finalize_agrees H _ _ h''
  · exact finalize_agrees H _ _ h'

theorem templateParse_agrees (H : Same L s env env') (mode : Mode) (h : Good s c) :
    Agrees L (GoodOut s) (templateParse mode env c) (templateParse mode env' c) := by
  unfold templateParse
  cases hc : c.cur with
  | none => exact Agrees.fail
  | some b =>
    refine Agrees.bind (parseNumberSign_agrees H h) ?_
    rintro ⟨neg, c'⟩ h'
    dsimp only
    rw [H.defaultUnit]
    unfold parseBody
    cases hc' : c'.cur with
    | none => exact Agrees.fail
    | some b' =>
      refine Agrees.ite Iff.rfl (fun _ => ?_) (fun _ => ?_)
      · rename_i hd
        have h' : Good s c' := h'
        unfold parseWhole
        rw [Cursor.parseDigitsStripZeros_eq c' (Nat.le_of_lt (Cursor.pos_lt_of_cur hc')) b' hc' hd, ok_bind]
        exact parseAfterWhole_agrees H _ _ (h'.advanceBy _) (Or.inl (After.digits h' hc' hd))
      · refine Agrees.ite Iff.rfl (fun e => parseAfterWhole_agrees H _ _ h' (Or.inr (by rw [hc', e]))) (fun _ => ?_)
        refine Agrees.ite ?_ (fun _ => infinity_agrees H _ _ (Good.advanceBy h' _)) (fun _ => parseWord_agrees H _ _ h')
        rcases hn : c'.nextIs (b! "inf") with _ | _
        · rw [Bool.and_false, Bool.and_false]
        · rw [H.opts.infinity (nextIs_occurs h' hn)]

theorem parseRepr_same (H : Same L s env env') (r : DurationRepr) : parseRepr env'.cfg r = parseRepr env.cfg r := by
  unfold parseRepr rejectNegative
  rw [H.allowNegative]

theorem loop_same (H : Same L s env env') (fuel : Nat) (d : Duration) (h : Good s c) :
    Agrees L (fun _ => True) (parseMultipleLoop env fuel d c) (parseMultipleLoop env' fuel d c) := by
  induction fuel generalizing d c with
  | zero => exact Agrees.panic
  | succ fuel ih =>
    unfold parseMultipleLoop
    refine Agrees.bind (templateParse_agrees H .multiple h) ?_
    rintro ⟨r, o⟩ h'
    dsimp only
    rw [parseRepr_same H]
    refine Agrees.bind Agrees.any fun p _ => ?_
    refine Agrees.bind Agrees.any fun d' _ => ?_
    cases o with
    | none => exact Agrees.pure trivial
    | some c' => exact ih d' (h' c' rfl)

/-- two runs of the parser with arguments which agree on the text are the same -/
theorem parseWith_same (H : Same L s env env') :
    parseWith env s = parseWith env' s ∨ (L ∧ ∃ p, p ≠ .unwrap ∧ parseWith env' s = panic p) := by
  unfold parseWith
  rw [H.allowMultiple]
  by_cases e : env.cfg.allowMultiple = true
  · rw [if_pos e, if_pos e]
    exact (loop_same H _ _ (good_new s)).1
  · rw [if_neg e, if_neg e]
    unfold parseSingle
    refine (Agrees.bind (Q := fun _ => True) (templateParse_agrees H .single (good_new s)) ?_).1
    rintro ⟨r, o⟩ -
    dsimp only
    rw [parseRepr_same H]
    exact Agrees.any

end Fundu.Local
