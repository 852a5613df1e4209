import Verif.Model.Cost
import Verif.Proofs.Prim
/-! # Counting steps does not change results -/
namespace Fundu.Cost
open Fundu

section
variable {α β : Type}
theorem res_ok (a : α) : (T.ok a).res = .ok a := rfl
theorem res_pure (a : α) : (pure a : T α).res = .ok a := rfl
theorem res_bind (x : T α) (f : α → T β) : (x >>= f).res = (x.res >>= fun a => (f a).res) := by
  show (T.bind x f).res = _
  unfold T.bind
  cases x.res <;> rfl
theorem res_charge (n : Nat) (x : T α) : (charge n x).res = x.res := rfl
theorem res_lift (x : R α) : (lift x).res = x := rfl
theorem res_fail (e : ParseError) : (fail e : T α).res = Fundu.fail e := rfl
theorem res_panic (p : Panic) : (panic p : T α).res = Fundu.panic p := rfl
theorem res_ite (p : Prop) [Decidable p] (x y : T α) : (if p then x else y).res = if p then x.res else y.res := by
  by_cases h : p
  · rw [if_pos h, if_pos h]
  · rw [if_neg h, if_neg h]
theorem pure_ok (a : α) : (pure a : R α) = .ok a := rfl
end

/-- all results of the parts -/
macro "erase" "[" ls:Lean.Parser.Tactic.simpLemma,* "]" : tactic =>
  `(tactic| simp only [res_ok, res_pure, res_bind, res_charge, res_lift, res_fail, res_panic, res_ite, pure_ok, $ls,*])

theorem skipTo_res (d : Delimiter) (n : Nat) (c : Cursor) : (skipTo d n c).res = c.skipTo d n := by
  induction n generalizing c with
  | zero => unfold skipTo Cursor.skipTo; rw [res_charge]; cases c.cur with
    | none => rfl
    | some b => dsimp only; erase []
  | succ n ih => unfold skipTo Cursor.skipTo; rw [res_charge]; cases c.cur with
    | none => rfl
    | some b => dsimp only; erase [ih]

theorem advanceTo_res (d : Delimiter) (c : Cursor) : (advanceTo d c).res = c.advanceTo d := by
  unfold advanceTo Cursor.advanceTo; erase [skipTo_res]

theorem bufferedAdvanceTo_res (d : Delimiter) (c : Cursor) : (bufferedAdvanceTo d c).res = c.bufferedAdvanceTo d := by
  unfold bufferedAdvanceTo Cursor.bufferedAdvanceTo; rw [res_charge]; cases c.buffered d with
  | some b => rfl
  | none => dsimp only; erase [skipTo_res]

theorem stripBlocks_res (fuel start : Nat) (strip : Bool) (c : Cursor) :
    (stripBlocks fuel start strip c).res = Cursor.stripBlocks fuel start strip c := by
  induction fuel generalizing start strip c with
  | zero =>
    unfold stripBlocks Cursor.stripBlocks parse8
    erase []
    cases c.parse8 with
    | error e => rfl
    | ok o => cases o <;> rfl
  | succ fuel ih =>
    unfold stripBlocks Cursor.stripBlocks parse8
    erase []
    cases c.parse8 with
    | error e => rfl
    | ok o => cases o with
      | none => rfl
      | some x => simp only [ok_bind]; erase [ih]

theorem stripEach_res (fuel start : Nat) (strip : Bool) (c : Cursor) :
    (stripEach fuel start strip c).res = Cursor.stripEach fuel start strip c := by
  induction fuel generalizing start strip c with
  | zero => unfold stripEach Cursor.stripEach; rw [res_charge]; cases c.cur with
    | none => rfl
    | some b => dsimp only; erase []
  | succ fuel ih => unfold stripEach Cursor.stripEach; rw [res_charge]; cases c.cur with
    | none => rfl
    | some b => dsimp only; erase [ih]

theorem parseDigitsStripZeros_res (c : Cursor) : (parseDigitsStripZeros c).res = c.parseDigitsStripZeros := by
  unfold parseDigitsStripZeros Cursor.parseDigitsStripZeros; erase [stripBlocks_res, stripEach_res]

theorem skipBlocks_res (fuel : Nat) (c : Cursor) : (skipBlocks fuel c).res = Cursor.skipBlocks fuel c := by
  induction fuel generalizing c with
  | zero =>
    unfold skipBlocks Cursor.skipBlocks parse8
    erase []
    cases c.parse8 with
    | error e => rfl
    | ok o => cases o <;> rfl
  | succ fuel ih =>
    unfold skipBlocks Cursor.skipBlocks parse8
    erase []
    cases c.parse8 with
    | error e => rfl
    | ok o => cases o with
      | none => rfl
      | some x => exact ih x.2

theorem skipDigits_res (fuel : Nat) (c : Cursor) : (skipDigits fuel c).res = Cursor.skipDigits fuel c := by
  induction fuel generalizing c with
  | zero => unfold skipDigits Cursor.skipDigits; rw [res_charge]; cases c.parseDigit <;> rfl
  | succ fuel ih => unfold skipDigits Cursor.skipDigits; rw [res_charge]; cases c.parseDigit with
    | none => rfl
    | some c' => exact ih c'

theorem parseDigits_res (c : Cursor) : (parseDigits c).res = c.parseDigits := by
  unfold parseDigits Cursor.parseDigits; erase [skipBlocks_res, skipDigits_res]

theorem getRemainderStr_res (c : Cursor) : (getRemainderStr c).res = c.getRemainderStr := rfl

theorem checkEnd_res (c : Cursor) : (checkEnd c).res = c.checkEnd := by
  unfold checkEnd Cursor.checkEnd; cases c.cur with
  | none => rfl
  | some b => dsimp only; erase [getRemainderStr_res]

theorem tryConsumeDelimiter_res (d : Delimiter) (c : Cursor) : (tryConsumeDelimiter d c).res = c.tryConsumeDelimiter d := by
  unfold tryConsumeDelimiter Cursor.tryConsumeDelimiter
  erase [skipTo_res]
  cases c.assertDelimiter d with
  | error e => rfl
  | ok u =>
    simp only [ok_bind]
    congr 1
    cases Cursor.skipTo (fun b => !d b) c.input.length c.advance with
    | error e => rfl
    | ok c' => simp only [ok_bind]; cases c'.cur <;> rfl

theorem afterConjunction_res (d : Delimiter) (start : Nat) (word : Bytes) (c : Cursor) :
    (afterConjunction d start word c).res = Fundu.afterConjunction d start word c := by
  unfold afterConjunction Fundu.afterConjunction; cases c.cur with
  | none => rfl
  | some b => dsimp only; erase [tryConsumeDelimiter_res]

theorem consumeConjunction_res (d : Delimiter) (start : Nat) (c : Cursor) (words : List Bytes) :
    (consumeConjunction d start c words).res = Fundu.consumeConjunction d start c words := by
  induction words with
  | nil => rfl
  | cons w ws ih => unfold consumeConjunction Fundu.consumeConjunction; erase [afterConjunction_res, ih]

theorem tryConnection_res (cfg : Config) (c : Cursor) : (tryConnection cfg c).res = Fundu.tryConnection cfg c := by
  unfold tryConnection Fundu.tryConnection tryConsumeConnection Fundu.tryConsumeConnection
  erase [tryConsumeDelimiter_res, consumeConjunction_res]

theorem finalizeMultiple_res (cfg : Config) (r : DurationRepr) (c : Cursor) :
    (finalizeMultiple cfg r c).res = Fundu.finalizeMultiple cfg r c := by
  unfold finalizeMultiple Fundu.finalizeMultiple; cases c.cur with
  | none => rfl
  | some b => dsimp only; erase [tryConnection_res]

theorem finalize_res (mode : Mode) (cfg : Config) (r : DurationRepr) (c : Cursor) :
    (finalize mode cfg r c).res = Fundu.finalize mode cfg r c := by
  unfold finalize Fundu.finalize; cases mode with
  | single => dsimp only; erase [checkEnd_res]
  | multiple => exact finalizeMultiple_res cfg r c

theorem inityLoop_res (c : Cursor) (l : Bytes) : (inityLoop c l).res = Fundu.inityLoop c l := by
  induction l generalizing c with
  | nil => rfl
  | cons b bs ih => unfold inityLoop Fundu.inityLoop; rw [res_charge]; cases c.cur with
    | none => rfl
    | some x => dsimp only; erase [ih]

theorem inityLoopMultiple_res (start : Nat) (c : Cursor) (l : Bytes) :
    (inityLoopMultiple start c l).res = Fundu.inityLoopMultiple start c l := by
  induction l generalizing c with
  | nil => rfl
  | cons b bs ih => unfold inityLoopMultiple Fundu.inityLoopMultiple; rw [res_charge]; cases c.cur with
    | none => dsimp only; erase []
    | some x => dsimp only; erase [ih]

theorem afterInfinity_res (cfg : Config) (r : DurationRepr) (c : Cursor) :
    (afterInfinity cfg r c).res = Fundu.afterInfinity cfg r c := by
  unfold afterInfinity Fundu.afterInfinity; cases c.cur with
  | none => rfl
  | some b => dsimp only; erase [tryConnection_res]

theorem parseInfinityRemainder_res (mode : Mode) (cfg : Config) (r : DurationRepr) (c : Cursor) :
    (parseInfinityRemainder mode cfg r c).res = Fundu.parseInfinityRemainder mode cfg r c := by
  unfold parseInfinityRemainder Fundu.parseInfinityRemainder; cases mode with
  | single =>
    dsimp only
    unfold infinitySingle Fundu.infinitySingle
    cases c.cur with
    | none => rfl
    | some b => dsimp only; erase [inityLoop_res, checkEnd_res]
  | multiple =>
    dsimp only
    unfold infinityMultiple Fundu.infinityMultiple
    cases c.cur with
    | none => rfl
    | some b => dsimp only; erase [inityLoopMultiple_res, tryConnection_res, afterInfinity_res]

theorem consumeConnectionIfAny_res (cfg : Config) (c : Cursor) :
    (consumeConnectionIfAny cfg c).res = Fundu.consumeConnectionIfAny cfg c := by
  unfold consumeConnectionIfAny Fundu.consumeConnectionIfAny; cases c.cur with
  | none => rfl
  | some b => dsimp only; erase [tryConnection_res]

theorem keywordFound_res (cfg : Config) (start c : Cursor) (o : Option Unit') :
    (keywordFound cfg start c o).res = Fundu.keywordFound cfg start c o := by
  unfold keywordFound Fundu.keywordFound; cases o with
  | none => rfl
  | some u => dsimp only; erase [consumeConnectionIfAny_res]

section
variable {env : Env} (he : env.scan = Cursor.bufferedAdvanceTo)
include he

theorem parseKeywordMultiple_res (keywords : TimeUnitsLike) (c : Cursor) :
    (parseKeywordMultiple env keywords c).res = Fundu.parseKeywordMultiple env keywords c := by
  unfold parseKeywordMultiple Fundu.parseKeywordMultiple; rw [he]; erase [bufferedAdvanceTo_res, keywordFound_res]

omit he in
theorem lookupRemainder_res (units : TimeUnitsLike) (c : Cursor) :
    (lookupRemainder units c).res = Fundu.lookupRemainder units c := by
  unfold lookupRemainder Fundu.lookupRemainder
  erase []
  cases c.getRemainderStrUnchecked with
  | error e => rfl
  | ok s => simp only [ok_bind]; cases units.get s <;> rfl

theorem parseKeyword_res (mode : Mode) (c : Cursor) : (parseKeyword mode env c).res = Fundu.parseKeyword mode env c := by
  unfold parseKeyword Fundu.parseKeyword; cases env.keywords with
  | none => rfl
  | some k => cases mode with
    | single => exact lookupRemainder_res k c
    | multiple => exact parseKeywordMultiple_res he k c

omit he in
theorem assertSome_res (c : Cursor) : (assertSome c).res = Fundu.assertSome c := by
  unfold assertSome Fundu.assertSome; cases c.cur <;> rfl

omit he in
theorem agoSingle_res (cfg : Config) (start : Cursor) (u : Unit') (c : Cursor) :
    (agoSingle cfg start u c).res = Fundu.agoSingle cfg start u c := by
  unfold agoSingle Fundu.agoSingle; cases c.cur with
  | none => rfl
  | some b => dsimp only; erase [tryConsumeDelimiter_res]

omit he in
theorem unitFoundSingle_res (cfg : Config) (start c : Cursor) (o : Option Unit') :
    (unitFoundSingle cfg start c o).res = Fundu.unitFoundSingle cfg start c o := by
  unfold unitFoundSingle Fundu.unitFoundSingle; cases o with
  | none => rfl
  | some u => exact agoSingle_res cfg start u c

omit he in
theorem parseTimeUnitSingle_res (c : Cursor) : (parseTimeUnitSingle env c).res = Fundu.parseTimeUnitSingle env c := by
  unfold parseTimeUnitSingle Fundu.parseTimeUnitSingle parseTimeUnitAgo Fundu.parseTimeUnitAgo
  erase [assertSome_res, advanceTo_res, unitFoundSingle_res, lookupRemainder_res]

omit he in
theorem agoMultiple_res (cfg : Config) (u : Unit') (c : Cursor) :
    (agoMultiple cfg u c).res = Fundu.agoMultiple cfg u c := by
  unfold agoMultiple Fundu.agoMultiple; cases c.cur with
  | none => rfl
  | some b => dsimp only; erase [tryConsumeDelimiter_res]

omit he in
theorem unitFoundMultiple_res (cfg : Config) (start c : Cursor) (o : Option Unit') :
    (unitFoundMultiple cfg start c o).res = Fundu.unitFoundMultiple cfg start c o := by
  unfold unitFoundMultiple Fundu.unitFoundMultiple; cases o with
  | none => rfl
  | some u => dsimp only; erase [agoMultiple_res, consumeConnectionIfAny_res]

theorem parseTimeUnitMultiple_res (c : Cursor) : (parseTimeUnitMultiple env c).res = Fundu.parseTimeUnitMultiple env c := by
  unfold parseTimeUnitMultiple Fundu.parseTimeUnitMultiple; rw [he]
  erase [assertSome_res, bufferedAdvanceTo_res, unitFoundMultiple_res]

theorem parseTimeUnit_res (mode : Mode) (c : Cursor) : (parseTimeUnit mode env c).res = Fundu.parseTimeUnit mode env c := by
  cases mode with
  | single => exact parseTimeUnitSingle_res c
  | multiple => exact parseTimeUnitMultiple_res he c

omit he in
theorem numeralFound_res (cfg : Config) (start c : Cursor) (s : Bytes) (o : Option Multiplier) :
    (numeralFound cfg start c s o).res = Fundu.numeralFound cfg start c s o := by
  unfold numeralFound Fundu.numeralFound; cases o with
  | none => rfl
  | some m => dsimp only; cases c.cur with
    | none => rfl
    | some b => dsimp only; erase [tryConsumeDelimiter_res]

theorem parseNumeral_res (c : Cursor) : (parseNumeral env c).res = Fundu.parseNumeral env c := by
  unfold parseNumeral Fundu.parseNumeral; cases env.numerals with
  | none => rfl
  | some n => dsimp only; rw [he]; erase [bufferedAdvanceTo_res, numeralFound_res]

omit he in
theorem parseSignIsNegative_res (c : Cursor) : (parseSignIsNegative c).res = Fundu.parseSignIsNegative c := by
  unfold parseSignIsNegative Fundu.parseSignIsNegative; cases c.cur with
  | none => rfl
  | some b => dsimp only; erase []

omit he in
theorem afterSign_res (cfg : Config) (c : Cursor) (o : Option Bool) : (afterSign cfg c o).res = Fundu.afterSign cfg c o := by
  unfold afterSign Fundu.afterSign; cases o with
  | none => rfl
  | some n => dsimp only; cases c.cur with
    | none => rfl
    | some b => dsimp only; erase [tryConsumeDelimiter_res]

omit he in
theorem parseNumberSign_res (cfg : Config) (c : Cursor) : (parseNumberSign cfg c).res = Fundu.parseNumberSign cfg c := by
  unfold parseNumberSign Fundu.parseNumberSign; erase [parseSignIsNegative_res, afterSign_res]

omit he in
theorem fractionDigits_res (w : Option Range) (c : Cursor) : (fractionDigits w c).res = Fundu.fractionDigits w c := by
  unfold fractionDigits Fundu.fractionDigits; cases c.cur with
  | none => dsimp only; erase []
  | some b => dsimp only; erase [parseDigits_res]

omit he in
theorem parseNumberFraction_res (w : Option Range) (d : Bool) (c : Cursor) :
    (parseNumberFraction w d c).res = Fundu.parseNumberFraction w d c := by
  unfold parseNumberFraction Fundu.parseNumberFraction; cases c.cur with
  | none => rfl
  | some b => dsimp only; erase [fractionDigits_res]

omit he in
theorem exponentLoop_res (neg : Bool) (fuel : Nat) (e : Int) (c : Cursor) :
    (exponentLoop neg fuel e c).res = Fundu.exponentLoop neg fuel e c := by
  induction fuel generalizing e c with
  | zero => unfold exponentLoop Fundu.exponentLoop; rw [res_charge]; cases c.cur with
    | none => rfl
    | some b => dsimp only; erase []
  | succ fuel ih => unfold exponentLoop Fundu.exponentLoop; rw [res_charge]; cases c.cur with
    | none => rfl
    | some b => dsimp only; erase []; cases exponentStep neg e b with
      | none => rfl
      | some x => dsimp only; rw [ih]

omit he in
theorem parseExponent_res (c : Cursor) : (parseExponent c).res = Fundu.parseExponent c := by
  unfold parseExponent Fundu.parseExponent; erase [parseSignIsNegative_res, exponentLoop_res]

omit he in
theorem parseNumberExponent_res (d : Bool) (c : Cursor) : (parseNumberExponent d c).res = Fundu.parseNumberExponent d c := by
  unfold parseNumberExponent Fundu.parseNumberExponent; cases c.cur with
  | none => rfl
  | some b => dsimp only; erase [parseExponent_res]

omit he in
theorem parseNumberDelimiter_res (d : Option Delimiter) (c : Cursor) :
    (parseNumberDelimiter d c).res = Fundu.parseNumberDelimiter d c := by
  unfold parseNumberDelimiter Fundu.parseNumberDelimiter; cases c.cur with
  | none => rfl
  | some b => cases d with
    | none => rfl
    | some d => dsimp only; erase [tryConsumeDelimiter_res]

omit he in
theorem unitOrError_res (c : Cursor) (o : Option Unit') : (unitOrError c o).res = Fundu.unitOrError c o := by
  unfold unitOrError Fundu.unitOrError; cases o with
  | some u => rfl
  | none => dsimp only; erase [getRemainderStr_res]

theorem parseNumberTimeUnit_res (mode : Mode) (c : Cursor) :
    (parseNumberTimeUnit mode env c).res = Fundu.parseNumberTimeUnit mode env c := by
  unfold parseNumberTimeUnit Fundu.parseNumberTimeUnit; cases c.cur with
  | none => rfl
  | some b => cases mode with
    | single =>
      dsimp only
      unfold numberTimeUnitSingle Fundu.numberTimeUnitSingle
      erase [parseTimeUnit_res he, unitOrError_res]
    | multiple =>
      dsimp only
      unfold numberTimeUnitMultiple Fundu.numberTimeUnitMultiple
      erase [parseTimeUnit_res he]

theorem parseUnitPart_res (mode : Mode) (r : DurationRepr) (c : Cursor) :
    (parseUnitPart mode env r c).res = Fundu.parseUnitPart mode env r c := by
  unfold parseUnitPart Fundu.parseUnitPart; erase [parseNumberTimeUnit_res he, finalize_res]

theorem parseDelimiterPart_res (mode : Mode) (r : DurationRepr) (c : Cursor) :
    (parseDelimiterPart mode env r c).res = Fundu.parseDelimiterPart mode env r c := by
  unfold parseDelimiterPart Fundu.parseDelimiterPart; erase [parseNumberDelimiter_res, parseUnitPart_res he]

theorem parseExponentPart_res (mode : Mode) (r : DurationRepr) (c : Cursor) :
    (parseExponentPart mode env r c).res = Fundu.parseExponentPart mode env r c := by
  unfold parseExponentPart Fundu.parseExponentPart; erase [parseNumberExponent_res, parseDelimiterPart_res he]

theorem parseAfterWhole_res (mode : Mode) (r : DurationRepr) (c : Cursor) :
    (parseAfterWhole mode env r c).res = Fundu.parseAfterWhole mode env r c := by
  unfold parseAfterWhole Fundu.parseAfterWhole; erase [parseNumberFraction_res, parseExponentPart_res he]

omit he in
theorem numeralUnit_res (mode : Mode) (r : DurationRepr) (c : Cursor) (id : Bytes) (m : Multiplier) (o : Option Unit') :
    (numeralUnit mode env r c id m o).res = Fundu.numeralUnit mode env r c id m o := by
  unfold numeralUnit Fundu.numeralUnit; cases o with
  | some u => exact finalize_res ..
  | none => dsimp only; erase []

theorem afterNumeral_res (mode : Mode) (r : DurationRepr) (c : Cursor) (o : Option (Bytes × Multiplier)) :
    (afterNumeral mode env r c o).res = Fundu.afterNumeral mode env r c o := by
  unfold afterNumeral Fundu.afterNumeral; cases o with
  | some u => dsimp only; erase [parseTimeUnit_res he, numeralUnit_res]
  | none => dsimp only; erase [getRemainderStr_res]

theorem parseNumeralWord_res (mode : Mode) (r : DurationRepr) (c : Cursor) :
    (parseNumeralWord mode env r c).res = Fundu.parseNumeralWord mode env r c := by
  unfold parseNumeralWord Fundu.parseNumeralWord; erase [parseNumeral_res he, afterNumeral_res he]

theorem afterUnitWord_res (mode : Mode) (r : DurationRepr) (start c : Cursor) (o : Option Unit') :
    (afterUnitWord mode env r start c o).res = Fundu.afterUnitWord mode env r start c o := by
  unfold afterUnitWord Fundu.afterUnitWord; cases o with
  | some u => exact finalize_res ..
  | none => exact parseNumeralWord_res he ..

theorem parseUnitWord_res (mode : Mode) (r : DurationRepr) (c : Cursor) :
    (parseUnitWord mode env r c).res = Fundu.parseUnitWord mode env r c := by
  unfold parseUnitWord Fundu.parseUnitWord; erase [parseTimeUnit_res he, afterUnitWord_res he, parseNumeralWord_res he]

theorem afterKeyword_res (mode : Mode) (r : DurationRepr) (c : Cursor) (o : Option Unit') :
    (afterKeyword mode env r c o).res = Fundu.afterKeyword mode env r c o := by
  unfold afterKeyword Fundu.afterKeyword; cases o with
  | some u => exact finalize_res ..
  | none => exact parseUnitWord_res he ..

theorem parseWord_res (mode : Mode) (r : DurationRepr) (c : Cursor) :
    (parseWord mode env r c).res = Fundu.parseWord mode env r c := by
  unfold parseWord Fundu.parseWord; erase [parseKeyword_res he, afterKeyword_res he]

theorem parseWhole_res (mode : Mode) (r : DurationRepr) (c : Cursor) :
    (parseWhole mode env r c).res = Fundu.parseWhole mode env r c := by
  unfold parseWhole Fundu.parseWhole; erase [parseDigitsStripZeros_res, parseAfterWhole_res he]

theorem parseBody_res (mode : Mode) (r : DurationRepr) (c : Cursor) :
    (parseBody mode env r c).res = Fundu.parseBody mode env r c := by
  unfold parseBody Fundu.parseBody; cases c.cur with
  | none => rfl
  | some b =>
    dsimp only
    erase [parseWhole_res he, parseAfterWhole_res he, parseInfinityRemainder_res, parseWord_res he]

theorem templateParse_res (mode : Mode) (c : Cursor) : (templateParse mode env c).res = Fundu.templateParse mode env c := by
  unfold templateParse Fundu.templateParse; rw [res_charge]; cases c.cur with
  | none => rfl
  | some b => dsimp only; erase [parseNumberSign_res, parseBody_res he]

/-! ### Digits -/

section
omit he
variable {α β : Type}

theorem liftP_bind (x : Except Panic α) (f : α → Except Panic β) : liftP (x >>= f) = (liftP x >>= fun a => liftP (f a)) := by
  cases x <;> rfl
theorem liftP_ok (a : α) : liftP (.ok a : Except Panic α) = .ok a := rfl
theorem liftP_pure (a : α) : liftP (pure a : Except Panic α) = .ok a := rfl
theorem liftP_ite (p : Prop) [Decidable p] (x y : Except Panic α) : liftP (if p then x else y) = if p then liftP x else liftP y := by
  by_cases h : p
  · rw [if_pos h, if_pos h]
  · rw [if_neg h, if_neg h]
theorem bind_congr {x : R α} {f g : α → R β} (h : ∀ a, f a = g a) : (x >>= f) = (x >>= g) := by
  congr 1
  funext a
  exact h a

theorem wholeChunks_res (s : Nat) (l : List Bytes) : (Whole.parseChunks s l).res = liftP (Fundu.Whole.parseChunks s l) := by
  induction l generalizing s with
  | nil => rfl
  | cons c cs ih =>
    unfold Whole.parseChunks Fundu.Whole.parseChunks
    rw [res_charge]
    cases checkedU64 (100000000 * s) with
    | none => rfl
    | some s =>
      dsimp only
      rw [res_bind, res_lift, liftP_bind]
      refine bind_congr fun e => ?_
      cases checkedU64 (s + e) with
      | none => rfl
      | some s => exact ih s

theorem wholeEach_res (s : Nat) (l : Bytes) : (Whole.parseEach s l).res = liftP (Fundu.Whole.parseEach s l) := by
  induction l generalizing s with
  | nil => rfl
  | cons c cs ih =>
    unfold Whole.parseEach Fundu.Whole.parseEach
    rw [res_charge]
    cases checkedU64 (s * 10) with
    | none => rfl
    | some s =>
      dsimp only
      rw [res_bind, res_lift, liftP_bind]
      refine bind_congr fun e => ?_
      cases checkedU64 (s + e) with
      | none => rfl
      | some s => exact ih s

theorem wholeSlice_res (s : Nat) (l : Bytes) : (Whole.parseSlice s l).res = liftP (Fundu.Whole.parseSlice s l) := by
  unfold Whole.parseSlice Fundu.Whole.parseSlice
  rw [res_ite, liftP_ite, wholeEach_res]
  congr 1
  rw [res_bind, wholeChunks_res]
  dsimp only
  rw [liftP_bind]
  refine bind_congr fun o => ?_
  cases o with
  | none => rfl
  | some s => exact wholeEach_res _ _

theorem wholeAppend_res (s : Nat) (o : Option Bytes) : (Whole.parseAppend s o).res = liftP (Fundu.Whole.parseAppend s o) := by
  cases o with
  | none => rfl
  | some a => exact wholeSlice_res s a

theorem whole_res (digits : Bytes) (append : Option Bytes) (zeros : Option Nat) :
    (Whole.parse digits append zeros).res = liftP (Fundu.Whole.parse digits append zeros) := by
  unfold Whole.parse Fundu.Whole.parse
  by_cases h : (digits.isEmpty && noneOrEmpty append) = true
  · rw [if_pos h, if_pos h]; rfl
  · rw [if_neg h, if_neg h]
    show _ = liftP (Fundu.Whole.parseSlice 0 digits >>= _)
    rw [res_bind, wholeSlice_res, liftP_bind]
    refine bind_congr fun o => ?_
    cases o with
    | none => rfl
    | some s =>
      dsimp only
      rw [res_bind, wholeAppend_res, liftP_bind]
      refine bind_congr fun o => ?_
      cases o with
      | none => rfl
      | some seconds =>
        dsimp only
        rw [res_ite, liftP_ite]
        congr 1
        unfold Whole.appendZeros
        cases zeros with
        | none => rfl
        | some z =>
          dsimp only
          by_cases hz : 0 < z
          · rw [if_pos hz, if_pos hz]
            cases POW10[z]? <;> rfl
          · rw [if_neg hz, if_neg hz]; rfl

theorem fractChunks_res (s : Nat) (l : List Bytes) : (Fract.parseChunks s l).res = liftP (Fundu.Fract.parseChunks s l) := by
  induction l generalizing s with
  | nil => rfl
  | cons c cs ih =>
    unfold Fract.parseChunks Fundu.Fract.parseChunks
    simp only [res_charge, res_bind, res_lift, liftP_bind, ih]

theorem fractEach_res (s : Nat) (l : Bytes) : (Fract.parseEach s l).res = liftP (Fundu.Fract.parseEach s l) := by
  induction l generalizing s with
  | nil => rfl
  | cons c cs ih =>
    unfold Fract.parseEach Fundu.Fract.parseEach
    simp only [res_charge, res_bind, res_lift, liftP_bind, ih]

theorem fractSlice_res (s n : Nat) (l : Bytes) : (Fract.parseSlice s n l).res = liftP (Fundu.Fract.parseSlice s n l) := by
  unfold Fract.parseSlice Fundu.Fract.parseSlice Fract.parseUsed
  dsimp only
  by_cases h : 8 ≤ min l.length n
  · rw [if_pos h]
    simp only [res_bind, res_lift, liftP_bind, bind_assoc]
    cases hs : slice l 0 (min l.length n) with
    | error e => rfl
    | ok u =>
      have hl : u.length = min l.length n := by
        unfold slice at hs
        split at hs
        · cases hs
          rw [List.drop_zero, List.length_take]
          omega
        · cases hs
      rw [liftP_ok, ok_bind, ok_bind, if_pos (by rw [hl]; exact h)]
      simp only [res_bind, fractChunks_res, fractEach_res, res_pure, bind_assoc, liftP_pure, res_lift]
  · rw [if_neg h]
    simp only [res_bind, res_lift, liftP_bind, bind_assoc]
    cases hs : slice l 0 (min l.length n) with
    | error e => rfl
    | ok u =>
      have hl : u.length = min l.length n := by
        unfold slice at hs
        split at hs
        · cases hs
          rw [List.drop_zero, List.length_take]
          omega
        · cases hs
      rw [liftP_ok, ok_bind, ok_bind, if_neg (by rw [hl]; exact h)]
      simp only [fractEach_res, res_pure, liftP_pure, res_lift]

theorem fract_res (digits : Bytes) (prepend : Option Bytes) (zeros : Option Nat) :
    (Fract.parse digits prepend zeros).res = liftP (Fundu.Fract.parse digits prepend zeros) := by
  unfold Fract.parse Fundu.Fract.parse
  by_cases h : (digits.isEmpty && noneOrEmpty prepend) = true
  · rw [if_pos h, if_pos h]; rfl
  · rw [if_neg h, if_neg h]
    by_cases hz : 18 < Fundu.Fract.zerosOr0 zeros
    · rw [if_pos hz, if_pos hz]; rfl
    · rw [if_neg hz, if_neg hz]
      dsimp only
      cases Fundu.Fract.nonEmpty prepend with
      | some p =>
        dsimp only
        rw [res_bind, fractSlice_res, liftP_bind]
        refine bind_congr fun o => ?_
        obtain ⟨a, n⟩ := o
        unfold Fract.afterPrepend
        dsimp only
        simp only [res_ite, liftP_ite, res_bind, fractSlice_res, liftP_bind, res_lift, res_pure, liftP_pure, res_ok]
      | none =>
        unfold Fract.parseAlone
        dsimp only
        simp only [res_ite, liftP_ite, res_bind, fractSlice_res, liftP_bind, res_lift, res_pure, liftP_pure]

theorem wholeSeconds_res (digits : Bytes) (o : Option Range) : (wholeSeconds digits o).res = liftP (DurationRepr.wholeSeconds digits o) := by
  cases o with
  | none => rfl
  | some w => unfold wholeSeconds DurationRepr.wholeSeconds; simp only [res_bind, res_lift, liftP_bind, whole_res]

theorem fractAttos_res (digits : Bytes) (o : Option Range) : (fractAttos digits o).res = liftP (DurationRepr.fractAttos digits o) := by
  cases o with
  | none => rfl
  | some w => unfold fractAttos DurationRepr.fractAttos; simp only [res_bind, res_lift, liftP_bind, fract_res]

theorem secondsAndAttos_res (digits : Bytes) (whole fract : Option Range) (e : Int) :
    (secondsAndAttos digits whole fract e).res = liftP (DurationRepr.secondsAndAttos digits whole fract e) := by
  unfold secondsAndAttos DurationRepr.secondsAndAttos
  dsimp only
  rw [res_ite, liftP_ite, res_ite, liftP_ite]
  congr 1
  · rw [res_bind, res_lift, liftP_bind]
    refine bind_congr fun o => ?_
    cases o with
    | some w =>
      dsimp only
      unfold shiftRight
      simp only [res_bind, res_lift, liftP_bind, whole_res]
      refine bind_congr fun a => bind_congr fun b => bind_congr fun o => ?_
      cases o with
      | none => rfl
      | some s => simp only [res_bind, res_lift, liftP_bind, fract_res, res_pure, liftP_pure]
    | none =>
      dsimp only
      cases fract with
      | none =>
        dsimp only
        unfold shiftWhole
        simp only [res_bind, res_lift, liftP_bind, fract_res, res_pure, liftP_pure]
      | some f =>
        dsimp only
        rw [res_ite, liftP_ite]
        congr 1
        · unfold shiftWhole
          simp only [res_bind, res_lift, liftP_bind, fract_res, res_pure, liftP_pure]
        · unfold shiftBoth
          simp only [res_bind, res_lift, liftP_bind, fract_res, res_pure, liftP_pure]
  · congr 1
    · unfold shiftNone
      rw [res_bind, wholeSeconds_res, liftP_bind]
      refine bind_congr fun o => ?_
      cases o with
      | none => rfl
      | some s => simp only [res_bind, liftP_bind, fractAttos_res, res_pure, liftP_pure]
    · rw [res_bind, res_lift, liftP_bind]
      refine bind_congr fun o => ?_
      cases o with
      | some f =>
        dsimp only
        unfold shiftLeft
        simp only [res_bind, res_lift, liftP_bind, whole_res]
        refine bind_congr fun a => bind_congr fun b => bind_congr fun o => ?_
        cases o with
        | none => rfl
        | some s => simp only [res_bind, res_lift, liftP_bind, fract_res, res_pure, liftP_pure]
      | none =>
        dsimp only
        unfold shiftAll
        simp only [res_bind, res_lift, liftP_bind, whole_res]
        refine bind_congr fun a => bind_congr fun b => bind_congr fun c => bind_congr fun d => bind_congr fun o => ?_
        cases o <;> rfl

theorem convert_res (r : DurationRepr) : (convert r).res = liftP r.parse := by
  unfold convert
  rw [res_ite]
  by_cases h : (r.isInfinite || (r.whole.isNone && r.fract.isNone)) = true
  · rw [if_pos h]; rfl
  · rw [if_neg h]
    rw [Bool.or_eq_true, not_or] at h
    unfold DurationRepr.parse
    rw [if_neg h.1, if_neg h.2]
    dsimp only
    rw [res_bind, res_lift, liftP_bind]
    refine bind_congr fun m => ?_
    rw [res_ite, liftP_ite]
    congr 1
    rw [res_bind, secondsAndAttos_res, liftP_bind]
    refine bind_congr fun o => ?_
    cases o <;> rfl

theorem scaled_res (r : DurationRepr) (whole : Range) (x : T Nat) (f : Nat → Except Panic Nat) (m : Multiplier) (h : ∀ s, x.res = liftP (f s)) :
    (scaled r whole x m).res = Gnu.scaled r whole f m := by
  unfold scaled Gnu.scaled
  dsimp only
  rw [res_bind, res_lift, liftP_bind, bind_assoc]
  refine bind_congr fun s => ?_
  rw [res_bind, whole_res]
  refine bind_congr fun o => ?_
  cases o with
  | none => rfl
  | some s =>
    dsimp only
    rw [res_bind, h s, liftP_bind]
    rfl

theorem parseReprGnu_res (r : DurationRepr) : (parseReprGnu r).res = Gnu.parseRepr r := by
  unfold parseReprGnu
  cases hw : r.whole with
  | none => rfl
  | some w =>
    cases hf : r.fract with
    | none =>
      unfold Gnu.parseRepr
      rw [hw, hf]
      dsimp only
      rw [res_bind, res_lift]
      exact bind_congr fun m => scaled_res _ _ _ _ _ (fun _ => rfl)
    | some f =>
      dsimp only
      by_cases hs : r.unit.getD r.defaultUnit = .second
      · rw [if_pos hs]
        by_cases he : f.isEmpty = true
        · rw [if_pos he]; rfl
        · rw [if_neg he]
          unfold Gnu.parseRepr
          rw [hw, hf]
          dsimp only
          rw [if_pos hs, if_neg he, res_bind, res_lift]
          exact bind_congr fun m => scaled_res _ _ _ _ _ (fun _ => fractAttos_res _ _)
      · rw [if_neg hs]; rfl

theorem fuzzyNumber_res (r : DurationRepr) : (fuzzyNumber r).res = Gnu.fuzzyNumber r := by
  unfold fuzzyNumber
  cases hw : r.whole with
  | none => rfl
  | some w =>
    unfold Gnu.fuzzyNumber
    rw [hw]
    dsimp only
    simp only [res_bind, res_lift, whole_res, liftP_bind, bind_assoc]

theorem fuzzyUnit_res (r : DurationRepr) : (fuzzyUnit r).res = Gnu.fuzzyUnit r := by
  unfold fuzzyUnit Gnu.fuzzyUnit
  rw [res_ite, fuzzyNumber_res]
  rfl

theorem parseReprFuzzy_res (r : DurationRepr) : (parseReprFuzzy r).res = Gnu.parseReprFuzzy r := by
  unfold parseReprFuzzy Gnu.parseReprFuzzy
  simp only [res_ite, res_bind, fuzzyUnit_res, parseReprGnu_res, res_pure]
  rfl
end

omit he in
theorem parseRepr_res (cfg : Config) (r : DurationRepr) : (parseRepr cfg r).res = Fundu.parseRepr cfg r := by
  unfold parseRepr Fundu.parseRepr; erase [convert_res]

omit he in
theorem accumulate_res (a b : Duration) : (accumulate a b).res = Fundu.accumulate a b := by
  unfold accumulate Fundu.accumulate; erase []

theorem parseMultipleLoop_res (fuel : Nat) (d : Duration) (c : Cursor) :
    (parseMultipleLoop env fuel d c).res = Fundu.parseMultipleLoop env fuel d c := by
  induction fuel generalizing d c with
  | zero => rfl
  | succ fuel ih =>
    unfold parseMultipleLoop Fundu.parseMultipleLoop
    erase [templateParse_res he, parseRepr_res, accumulate_res]
    congr 1
    funext o
    congr 1
    funext p
    congr 1
    funext q
    cases o.2 with
    | none => rfl
    | some c' => exact ih _ _

theorem parseWith_res (s : Bytes) : (parseWith env s).res = Fundu.parseWith env s := by
  unfold parseWith Fundu.parseWith parseMultiple Fundu.parseMultiple parseSingle Fundu.parseSingle
  erase [parseMultipleLoop_res he, templateParse_res he, parseRepr_res]

theorem fuzzyLoop_res (fuel : Nat) (t : Gnu.Totals) (c : Cursor) :
    (fuzzyLoop env fuel t c).res = Gnu.fuzzyLoop env fuel t c := by
  induction fuel generalizing t c with
  | zero => rfl
  | succ fuel ih =>
    unfold fuzzyLoop Gnu.fuzzyLoop
    erase [templateParse_res he, parseReprFuzzy_res]
    congr 1
    funext o
    congr 1
    funext p
    congr 1
    funext q
    cases o.2 with
    | none => rfl
    | some c' => exact ih _ _

end
end Fundu.Cost
