import Verif.Proofs.ListWord
/-! # A whole duration: the parser on cursors agrees with the parser on texts -/
namespace Fundu
open Spec Cursor

variable {I : Bytes} {p : Nat} {c : Cursor} {s : Bytes} {cfg : Config} {env : Env}

theorem Agrees.mapRight {α β δ} {Q : α → β → Prop} {P : α → δ → Prop} {x : R α} {y : Option β}
    {g : β → δ} (h : Agrees Q x y) (hf : ∀ a b, Q a b → P a (g b)) : Agrees P x (y.map g) := by
  match x, y, h with
  | .ok a, .some b, h => exact hf a b h
  | .error e, .none, _ => exact trivial

/-- the representation while parsing a duration with the given sign -/
structure Fresh (I : Bytes) (cfg : Config) (neg : Bool) (r : DurationRepr) : Prop where
  input : r.input = I
  finite : r.isInfinite = false
  unit : r.unit = none
  multiplier : r.multiplier = ⟨1, 0⟩
  numeral : r.numeral = none
  sign : r.isNegative.getD false = neg
  default : r.defaultUnit = cfg.defaultUnit

theorem number_value {neg : Bool} {r : DurationRepr} {W F : Bytes} (h : Fresh I cfg neg r) (hw : IsWhole I r.whole W)
    (hf : IsFract I r.fract F) (hp : r.whole.isSome = true ∨ r.fract.isSome = true) (u : Option Unit') :
    (withUnit r u).parse = L.value cfg neg (.number W F r.exponent u) := by
  obtain ⟨W', h1, h2, h3⟩ := hw.2
  have e1 : (withUnit r u).isInfinite = false := by cases u <;> exact h.finite
  have e2 : (withUnit r u).input = I := by cases u <;> exact h.input
  have e3 : (withUnit r u).whole = r.whole := by cases u <;> rfl
  have e4 : (withUnit r u).fract = r.fract := by cases u <;> rfl
  have e5 : (withUnit r u).isNegative.getD false = neg := by cases u <;> exact h.sign
  have e6 : (withUnit r u).exponent = r.exponent := by cases u <;> rfl
  have e7 : ((withUnit r u).unit.getD (withUnit r u).defaultUnit) = (u.getD (cfg.defaultUnit, ⟨1, 0⟩)).1 := by
    cases u
    · simp only [withUnit, h.unit, Option.getD_none, h.default]
    · rfl
  have e8 : (withUnit r u).multiplier = (u.getD (cfg.defaultUnit, ⟨1, 0⟩)).2 := by
    cases u
    · simp only [withUnit, h.multiplier, Option.getD_none]
    · rfl
  have hpres : ((withUnit r u).whole.isNone && (withUnit r u).fract.isNone) = false := by
    rw [e3, e4]
    rcases hp with hp | hp
    · cases hh : r.whole <;> simp_all
    · cases hh : r.fract <;> simp_all
  simp only [L.value]
  cases hm : (u.getD (cfg.defaultUnit, ⟨1, 0⟩)).1.multiplier.checkedMul (u.getD (cfg.defaultUnit, ⟨1, 0⟩)).2 with
  | some m =>
    have hm' := hm
    rw [← e7, ← e8] at hm'
    rw [DurationRepr.parse_number (withUnit r u) W' F m e1 hpres (by rw [e2, e3]; exact h1)
      (by rw [e2, e4]; exact hf.1) h2 hf.2 hm', e5, e6]
    simp only [decimal_append, h3]
  | none =>
    have hm' := hm
    rw [← e7, ← e8] at hm'
    unfold DurationRepr.parse
    rw [e1, hpres]
    simp only [Bool.false_eq_true, if_false, Multiplier.mul, hm', unwrap]
    rfl

theorem fixedNumber_sign (r r' : DurationRepr) (h : r.isNegative.getD false = r'.isNegative.getD false) (a b : Int) :
    r.parseDurationWithFixedNumber a b = r'.parseDurationWithFixedNumber a b := by
  unfold DurationRepr.parseDurationWithFixedNumber
  rw [h]

theorem word_value {neg : Bool} {r : DurationRepr} (h : Fresh I cfg neg r) (hw : r.whole = none) (hf : r.fract = none)
    (u : Unit') : (withUnit r (some u)).parse = L.value cfg neg (.word u) := by
  simp only [L.value]
  cases hm : u.1.multiplier.checkedMul u.2 with
  | some m =>
    rw [parses_word h.finite hw hf h.numeral hm]
    exact fixedNumber_sign _ _ h.sign _ _
  | none =>
    unfold DurationRepr.parse withUnit
    simp only [h.finite, hw, hf, h.numeral, Bool.false_eq_true, if_false, Option.isNone_none, Bool.and_self, if_true]
    unfold Multiplier.mul
    rw [hm]
    rfl

theorem numeral_value {neg : Bool} {r : DurationRepr} (h : Fresh I cfg neg r) (hw : r.whole = none) (hf : r.fract = none)
    (q : Multiplier) (u : Unit') :
    (withUnit { r with numeral := some q } (some u)).parse = L.value cfg neg (.numeral q u) := by
  simp only [L.value]
  cases ha : q.checkedMul u.1.multiplier with
  | some a =>
    rw [Option.bind_some]
    cases hm : a.checkedMul u.2 with
    | some m =>
      rw [parses_numeral h.finite hw hf ha hm]
      exact fixedNumber_sign _ _ h.sign _ _
    | none =>
      unfold DurationRepr.parse withUnit
      simp only [h.finite, hw, hf, Bool.false_eq_true, if_false, Option.isNone_none, Bool.and_self, if_true]
      unfold Multiplier.mul unwrap
      simp only [ha, ok_bind, hm]
      rfl
  | none =>
    rw [Option.bind_none]
    unfold DurationRepr.parse withUnit
    simp only [h.finite, hw, hf, Bool.false_eq_true, if_false, Option.isNone_none, Bool.and_self, if_true]
    unfold Multiplier.mul unwrap
    simp only [ha, ok_bind]
    rfl

theorem infinite_value {neg : Bool} {r : DurationRepr} (h : Fresh I cfg neg r) :
    ({ r with isInfinite := true } : DurationRepr).parse = L.value cfg neg .infinity := by
  unfold DurationRepr.parse
  simp only [if_true, h.sign]
  rfl

/-- the representation of an item. `pt` tells whether a number has a decimal point. -/
def IsRepr (I : Bytes) (cfg : Config) (neg pt : Bool) : Item → DurationRepr → Prop
  | .number W F e u, r => ∃ r0, Fresh I cfg neg r0 ∧ IsWhole I r0.whole W ∧ IsFract I r0.fract F ∧
      (r0.whole.isSome = true ∨ r0.fract.isSome = true) ∧ r0.fract.isSome = pt ∧ r0.exponent = e ∧ r = withUnit r0 u
  | .infinity, r => ∃ r0, Fresh I cfg neg r0 ∧ r = { r0 with isInfinite := true }
  | .word u, r => ∃ r0, Fresh I cfg neg r0 ∧ r0.whole = none ∧ r0.fract = none ∧ r = withUnit r0 (some u)
  | .numeral q u, r => ∃ r0, Fresh I cfg neg r0 ∧ r0.whole = none ∧ r0.fract = none ∧
      r = withUnit { r0 with numeral := some q } (some u)

theorem IsRepr.parse {neg pt : Bool} {item : Item} {r : DurationRepr} (h : IsRepr I cfg neg pt item r) :
    r.parse = L.value cfg neg item := by
  cases item with
  | number W F e u =>
    obtain ⟨r0, h1, h2, h3, h4, -, rfl, rfl⟩ := h
    exact number_value h1 h2 h3 h4 u
  | infinity => obtain ⟨r0, h1, rfl⟩ := h; exact infinite_value h1
  | word u => obtain ⟨r0, h1, h2, h3, rfl⟩ := h; exact word_value h1 h2 h3 u
  | numeral q u => obtain ⟨r0, h1, h2, h3, rfl⟩ := h; exact numeral_value h1 h2 h3 q u

/-- the output for an item and the text after it -/
def OutItem (I : Bytes) (mode : Mode) (cfg : Config) (neg pt : Bool) (o : Output) (o' : Item × Bytes) : Prop :=
  Out I 1 mode (IsRepr I cfg neg pt o'.1) o o'.2

theorem makeOutput_item (mode : Mode) {neg pt : Bool} {r : DurationRepr} {item : Item} (hr : IsRepr I cfg neg pt item r)
    (h : At I 1 c []) : Agrees (OutItem I mode cfg neg pt) (pure (makeOutput mode r c)) (some (item, [])) :=
  makeOutput_end (P := IsRepr I cfg neg pt item) mode hr h

theorem final_nil (mode : Mode) : L.final mode cfg [] = some [] := by cases mode <;> rfl

theorem unitPart_at (ho : CfgOk env.cfg) (hsc : env.scan = fun d c => c.advanceTo d) (mode : Mode) {neg pt : Bool}
    {r : DurationRepr} {W F : Bytes} {e : Int} (h : At I 1 c s)
    (hv : ∀ u, IsRepr I env.cfg neg pt (.number W F e u) (withUnit r u)) :
    Agrees (OutItem I mode env.cfg neg pt) (parseUnitPart mode env r c)
      ((L.numUnit mode env s).bind fun u =>
        (L.final mode env.cfg u.2).map fun t => (.number W F e u.1, t)) := by
  unfold parseUnitPart parseNumberTimeUnit L.numUnit
  cases hs : s with
  | nil =>
    subst hs
    rw [h.nil, if_pos rfl]
    simp only [ok_bind, Bool.not_false, if_true, Option.bind_some, final_nil, Option.map_some]
    exact makeOutput_item mode (hv none) h
  | cons b l =>
    have hc : c.cur = some b := by rw [hs] at h; exact h.cons
    rw [hc, ← hs]
    have hne : s ≠ [] := by rw [hs]; simp
    rw [if_neg hne]
    simp only
    cases mode with
    | single =>
      unfold numberTimeUnitSingle
      by_cases he : env.units.isEmpty = true
      · rw [he]
        simp only [Bool.not_true, Bool.false_eq_true, if_false, h.inv.getRemainderStrUnchecked, ok_bind, if_true]
        exact trivial
      · have he' : env.units.isEmpty = false := by simpa using he
        rw [he']
        simp only [Bool.not_false, if_true, Bool.false_eq_true, if_false]
        have hu := unit_at ho hsc .single h hne
        rw [Option.bind_assoc]
        rw [bind_assoc]
        refine hu.bind ?_
        intro o o' hoo
        obtain ⟨x, c'⟩ := o
        obtain ⟨x', t⟩ := o'
        obtain ⟨rfl, h2, h3⟩ := hoo
        simp only at h2 h3 ⊢
        cases x with
        | none =>
          simp only [unitOrError, h2.inv.getRemainderStr, ok_bind, L.needUnit, if_true]
          exact trivial
        | some u =>
          simp only [unitOrError, ok_bind, L.needUnit, reduceCtorEq, if_false, Option.bind_some, Bool.not_true, Bool.false_eq_true]
          exact (finalize_sim' ho .single (P := IsRepr I env.cfg neg pt (.number W F e (some u))) (hv (some u)) h2 (Nat.le_refl _)).mapRight
            (fun a b h => h)
    | multiple =>
      unfold numberTimeUnitMultiple
      by_cases he : env.units.isEmpty = true
      · rw [he]
        simp only [Bool.not_true, Bool.false_eq_true, if_false, ok_bind, if_true, Option.bind_some]
        exact (finalize_sim' ho .multiple (P := IsRepr I env.cfg neg pt (.number W F e none)) (hv none) h (Nat.le_refl _)).mapRight
            (fun a b h => h)
      · have he' : env.units.isEmpty = false := by simpa using he
        rw [he']
        simp only [Bool.not_false, if_true, Bool.false_eq_true, if_false]
        have hu := unit_at ho hsc .multiple h hne
        rw [Option.bind_assoc]
        rw [bind_assoc]
        refine hu.bind ?_
        intro o o' hoo
        obtain ⟨x, c'⟩ := o
        obtain ⟨x', t⟩ := o'
        obtain ⟨rfl, h2, h3⟩ := hoo
        simp only [ok_bind, L.needUnit, Option.bind_some, Bool.not_true, Bool.false_eq_true, if_false] at h2 h3 ⊢
        exact (finalize_sim' ho .multiple (P := IsRepr I env.cfg neg pt (.number W F e x)) (hv x) h2 (Nat.le_refl _)).mapRight
            (fun a b h => h)

theorem delimPart_at (ho : CfgOk env.cfg) (hsc : env.scan = fun d c => c.advanceTo d) (mode : Mode) {neg pt : Bool}
    {r : DurationRepr} {W F : Bytes} {e : Int} (h : At I 1 c s)
    (hv : ∀ u, IsRepr I env.cfg neg pt (.number W F e u) (withUnit r u)) :
    Agrees (OutItem I mode env.cfg neg pt) (parseDelimiterPart mode env r c)
      ((L.numDelim env.cfg s).bind fun t => (L.numUnit mode env t).bind fun u =>
        (L.final mode env.cfg u.2).map fun t => (.number W F e u.1, t)) := by
  unfold parseDelimiterPart
  refine (numDelim_sim ho h).bind ?_
  intro o t hoo
  obtain ⟨go, c'⟩ := o
  obtain ⟨h1, h2⟩ := hoo
  simp only at h1 h2 ⊢
  cases go with
  | true => 
    simp only [Bool.not_true, Bool.false_eq_true, if_false]
    exact unitPart_at ho hsc mode h2 hv
  | false =>
    have := h1 rfl
    subst this
    simp only [Bool.not_false, if_true, L.numUnit, Option.bind_some, final_nil, Option.map_some]
    exact makeOutput_item mode (hv none) h2

theorem numDelim_nil : L.numDelim cfg [] = some [] := by simp [L.numDelim, L.headIs]

theorem expPart_at (ho : CfgOk env.cfg) (hsc : env.scan = fun d c => c.advanceTo d) (mode : Mode) {neg pt : Bool}
    {r : DurationRepr} {W F : Bytes} (h : At I 1 c s)
    (hv : ∀ e u, IsRepr I env.cfg neg pt (.number W F e u) (withUnit { r with exponent := e } u)) :
    Agrees (OutItem I mode env.cfg neg pt) (parseExponentPart mode env r c)
      ((L.exp env.cfg s).bind fun e => (L.numDelim env.cfg e.2).bind fun t => (L.numUnit mode env t).bind fun u =>
        (L.final mode env.cfg u.2).map fun t => (.number W F e.1 u.1, t)) := by
  unfold parseExponentPart
  refine (exp_sim h).bind ?_
  intro o o' hoo
  obtain ⟨go, e, c'⟩ := o
  obtain ⟨e', t⟩ := o'
  obtain ⟨h1, h2, h3⟩ := hoo
  simp only at h1 h2 h3 ⊢
  subst h2
  cases go with
  | true =>
    simp only [Bool.not_true, Bool.false_eq_true, if_false]
    exact delimPart_at ho hsc mode h3 (hv e)
  | false =>
    have := h1 rfl
    subst this
    simp only [Bool.not_false, if_true, numDelim_nil, L.numUnit, Option.bind_some, final_nil, Option.map_some]
    exact makeOutput_item mode (hv e none) h3

theorem afterWhole_at (ho : CfgOk env.cfg) (hsc : env.scan = fun d c => c.advanceTo d) (mode : Mode) {neg : Bool}
    {r : DurationRepr} {W : Bytes} (hr : Fresh I env.cfg neg r) (hx : r.exponent = 0)
    (hw : IsWhole I r.whole W) (h : At I 0 c s) (hW : W ≠ [] → 1 ≤ c.pos) (hne : W = [] → L.headIs (fun b => b = 46) s = true) :
    Agrees (OutItem I mode env.cfg neg (L.headIs (fun b => b = 46) s)) (parseAfterWhole mode env r c) (L.afterWhole mode env W s) := by
  unfold parseAfterWhole L.afterWhole
  refine (fract_sim hw h hW hne).bind ?_
  intro o o' hoo
  obtain ⟨go, f, c'⟩ := o
  obtain ⟨F, t⟩ := o'
  obtain ⟨h1, h2, h3, h4⟩ := hoo
  simp only at h1 h2 h3 h4 ⊢
  have hv : ∀ e u, IsRepr I env.cfg neg (L.headIs (fun b => b = 46) s) (.number W F e u)
      (withUnit { r with fract := f, exponent := e } u) := by
    intro e u
    exact ⟨{ r with fract := f, exponent := e },
      ⟨hr.input, hr.finite, hr.unit, hr.multiplier, hr.numeral, hr.sign, hr.default⟩, hw, h2, h4.1, h4.2, rfl, rfl⟩
  cases go with
  | true =>
    simp only [Bool.not_true, Bool.false_eq_true, if_false]
    exact expPart_at ho hsc mode h3 hv
  | false =>
    have := h1 rfl
    subst this
    simp only [Bool.not_false, if_true, L.exp, numDelim_nil, L.numUnit, Option.bind_some, final_nil, Option.map_some]
    have := hv r.exponent none
    rw [hx] at this
    refine makeOutput_item mode ?_ h3
    convert this using 1
    unfold withUnit
    rw [← hx]

theorem finalize_item (ho : CfgOk cfg) (mode : Mode) {neg pt : Bool} {r : DurationRepr} {item : Item}
    (hr : IsRepr I cfg neg pt item r) (h : At I 0 c s) (hp : 1 ≤ c.pos) :
    Agrees (OutItem I mode cfg neg pt) (finalize mode cfg r c) ((L.final mode cfg s).map fun t => (item, t)) :=
  (finalize_sim' ho mode (P := IsRepr I cfg neg pt item) hr (⟨h.inv, h.rest, hp⟩ : At I 1 c s)
    (Nat.le_refl _)).mapRight (fun _ _ h => h)

theorem numeralWord_at (ho : CfgOk env.cfg) (hsc : env.scan = fun d c => c.advanceTo d) (mode : Mode) {neg pt : Bool}
    {r : DurationRepr} (hr : Fresh I env.cfg neg r) (hw : r.whole = none) (hf : r.fract = none) (h : At I 0 c s) :
    Agrees (OutItem I mode env.cfg neg pt) (parseNumeralWord mode env r c) (L.numeralWord mode env s) := by
  unfold parseNumeralWord L.numeralWord
  refine (numeral_at ho hsc h).bind ?_
  intro o o' hoo
  obtain ⟨x, c'⟩ := o
  obtain ⟨x', t⟩ := o'
  obtain ⟨h1, h2, h3⟩ := hoo
  simp only at h1 h2 h3 ⊢
  cases x with
  | none =>
    simp only [Option.map_none] at h1
    subst h1
    simp only [afterNumeral, h2.inv.getRemainderStr, ok_bind]
    exact trivial
  | some x =>
    obtain ⟨id, q⟩ := x
    simp only [Option.map_some] at h1
    subst h1
    simp only [afterNumeral]
    refine (unit_at ho hsc mode h2 (h3 rfl).2).bind ?_
    intro o o' hoo
    obtain ⟨x, c'⟩ := o
    obtain ⟨x', t⟩ := o'
    obtain ⟨h4, h5, h6⟩ := hoo
    simp only at h4 h5 h6 ⊢
    subst h4
    cases x with
    | none =>
      simp only [numeralUnit, L.numeralUnit]
      split <;> exact trivial
    | some u =>
      simp only [numeralUnit, L.numeralUnit]
      exact finalize_item ho mode ⟨r, hr, hw, hf, rfl⟩ h5 (h6 rfl)

theorem unitWord_at (ho : CfgOk env.cfg) (hsc : env.scan = fun d c => c.advanceTo d) (mode : Mode) {neg pt : Bool}
    {r : DurationRepr} (hr : Fresh I env.cfg neg r) (hw : r.whole = none) (hf : r.fract = none) (h : At I 0 c s)
    (hs : s ≠ []) :
    Agrees (OutItem I mode env.cfg neg pt) (parseUnitWord mode env r c) (L.unitWord mode env s) := by
  unfold parseUnitWord L.unitWord
  by_cases hn : env.cfg.numberIsOptional = true
  · rw [if_pos hn, if_pos hn]
    refine (unit_at ho hsc mode h hs).bind ?_
    intro o o' hoo
    obtain ⟨x, c'⟩ := o
    obtain ⟨x', t⟩ := o'
    obtain ⟨h4, h5, h6⟩ := hoo
    simp only at h4 h5 h6 ⊢
    subst h4
    cases x with
    | none =>
      simp only [afterUnitWord]
      exact numeralWord_at ho hsc mode hr hw hf (h.reset h5)
    | some u =>
      simp only [afterUnitWord]
      exact finalize_item ho mode ⟨r, hr, hw, hf, rfl⟩ h5 (h6 rfl)
  · rw [if_neg hn, if_neg hn]
    exact numeralWord_at ho hsc mode hr hw hf h

theorem lookup_none {t : TimeUnitsLike} {x : Bytes} (h : L.lookup t s = some (none, x)) : x = s := by
  unfold L.lookup at h
  cases hx : t.get s with
  | none => rw [hx] at h; cases h; rfl
  | some u => rw [hx] at h; cases h

theorem keyword_none {mode : Mode} {k : Option TimeUnitsLike} {x : Bytes} (h : L.keyword mode cfg k s = some (none, x)) : x = s := by
  unfold L.keyword at h
  cases k with
  | none => cases h; rfl
  | some k =>
    simp only at h
    cases mode with
    | single => exact lookup_none h
    | multiple =>
      simp only at h
      unfold L.keywordMultiple at h
      split at h
      · cases h; rfl
      · cases hx : k.get (L.word (wordEnd cfg) s) with
        | none => rw [hx] at h; cases h; rfl
        | some u =>
          rw [hx] at h
          simp only [L.unitFound, L.keywordTail] at h
          rw [Option.map_eq_some_iff] at h
          obtain ⟨_, _, h⟩ := h
          cases h

theorem anyWord_at (ho : CfgOk env.cfg) (hsc : env.scan = fun d c => c.advanceTo d) (mode : Mode) {neg pt : Bool}
    {r : DurationRepr} (hr : Fresh I env.cfg neg r) (hw : r.whole = none) (hf : r.fract = none) (h : At I 0 c s)
    (hs : s ≠ []) :
    Agrees (OutItem I mode env.cfg neg pt) (parseWord mode env r c) (L.anyWord mode env s) := by
  unfold parseWord L.anyWord
  refine (keyword_at ho hsc mode h hs).bind' ?_
  intro o o' hk hoo
  obtain ⟨x, c'⟩ := o
  obtain ⟨x', t⟩ := o'
  obtain ⟨h4, h5, h6⟩ := hoo
  simp only at h4 h5 h6 ⊢
  subst h4
  cases x with
  | none =>
    simp only [afterKeyword]
    have := keyword_none hk
    subst this
    exact unitWord_at ho hsc mode hr hw hf h5 hs
  | some u =>
    simp only [afterKeyword]
    exact finalize_item ho mode ⟨r, hr, hw, hf, rfl⟩ h5 (h6 rfl)

/-! ## Infinity -/

theorem starts_cons (x : UInt8) (w : Bytes) (b : UInt8) (l : Bytes) :
    L.starts (x :: w) (b :: l) = (decide (toLower b = toLower x) && L.starts w l) := by
  unfold L.starts startsWith eqIgnoreCase
  simp only [List.length_cons, List.take_succ_cons, List.map_cons, List.cons.injEq, Bool.decide_and, Nat.add_le_add_iff_right]
  rw [← Bool.and_assoc, ← Bool.and_assoc, Bool.and_comm (decide (w.length ≤ l.length))]

theorem starts_nil (x : UInt8) (w : Bytes) : L.starts (x :: w) [] = false := by
  simp [L.starts, startsWith]

theorem inityLoop_at (h : At I p c s) (w : Bytes) (hw : ∀ x ∈ w, x.toNat < 128) :
    Agrees (At I p) (inityLoop c w) (if L.starts w s = true then some (s.drop w.length) else none) := by
  induction w generalizing c s with
  | nil =>
    unfold inityLoop
    rw [if_pos (by simp [L.starts, startsWith, eqIgnoreCase])]
    exact h
  | cons x w ih =>
    unfold inityLoop
    cases s with
    | nil => rw [h.nil, starts_nil]; exact trivial
    | cons b l =>
      rw [h.cons, starts_cons]
      simp only
      by_cases hb : toLower b = toLower x
      · rw [if_pos hb]
        simp only [hb, decide_true, Bool.true_and, List.length_cons, List.drop_succ_cons]
        exact ih ((h.advance (ascii_of_toLower hb (hw x (by simp)))).le (by omega)) (fun y hy => hw y (by simp [hy]))
      · rw [if_neg hb]
        simp only [hb, decide_false, Bool.false_and, Bool.false_eq_true, if_false]
        exact trivial

theorem inityLoopMultiple_at (start : Nat) (h : At I p c s) (w : Bytes) (hw : ∀ x ∈ w, x.toNat < 128) :
    Agrees (At I p) (inityLoopMultiple start c w) (if L.starts w s = true then some (s.drop w.length) else none) := by
  induction w generalizing c s with
  | nil =>
    unfold inityLoopMultiple
    rw [if_pos (by simp [L.starts, startsWith, eqIgnoreCase])]
    exact h
  | cons x w ih =>
    unfold inityLoopMultiple
    cases s with
    | nil =>
      rw [h.nil, starts_nil]
      simp only [Bool.false_eq_true, if_false]
      cases subUsize start 3 with
      | error e => exact trivial
      | ok a =>
        simp only [liftP_ok, ok_bind]
        cases c.getCurrentStrUnwrap start with
        | error e => exact trivial
        | ok a => exact trivial
    | cons b l =>
      rw [h.cons, starts_cons]
      simp only
      by_cases hb : toLower b = toLower x
      · rw [if_pos hb]
        simp only [hb, decide_true, Bool.true_and, List.length_cons, List.drop_succ_cons]
        exact ih ((h.advance (ascii_of_toLower hb (hw x (by simp)))).le (by omega)) (fun y hy => hw y (by simp [hy]))
      · rw [if_neg hb]
        simp only [hb, decide_false, Bool.false_and, Bool.false_eq_true, if_false]
        exact trivial

theorem eqIgnoreCase_starts (w s : Bytes) : eqIgnoreCase s w = true ↔ L.starts w s = true ∧ s.drop w.length = [] := by
  unfold L.starts startsWith
  rw [Bool.and_eq_true, decide_eq_true_eq]
  constructor
  · intro h
    have := eqIgnoreCase_length h
    rw [← this, List.take_length]
    exact ⟨⟨Nat.le_refl _, h⟩, List.drop_length⟩
  · rintro ⟨⟨h1, h2⟩, h3⟩
    have h4 : s.length ≤ w.length := List.drop_eq_nil_iff.mp h3
    rwa [List.take_of_length_le h4] at h2

theorem connOut_at (ho : CfgOk cfg) {neg pt : Bool} {r : DurationRepr} {item : Item} (hr : IsRepr I cfg neg pt item r)
    (h : At I 1 c s) (hh : L.headIs cfg.outerDelimiter s = true) :
    Agrees (OutItem I .multiple cfg neg pt) (tryConnection cfg c >>= fun c => pure (r, some c))
      ((L.conn cfg s).map fun t => (item, t)) := by
  refine (tryConnection_sim' ho h (Nat.le_refl _) hh).map' ?_
  intro c' t ht h'
  have hs : s ≠ [] := by intro hs; subst hs; cases hh
  exact ⟨hr, (fun h => by cases h), conn_ne hs ht, h'⟩

theorem infinity_at (ho : CfgOk cfg) (mode : Mode) {neg pt : Bool} {r : DurationRepr} (hr : Fresh I cfg neg r)
    (h : At I 1 c s) :
    Agrees (OutItem I mode cfg neg pt) (parseInfinityRemainder mode cfg r c)
      ((L.afterInf mode cfg s).map fun t => (.infinity, t)) := by
  have hv : IsRepr I cfg neg pt .infinity { r with isInfinite := true } := ⟨r, hr, rfl⟩
  cases mode with
  | single =>
    simp only [parseInfinityRemainder, L.afterInf]
    generalize { r with isInfinite := true } = r' at hv
    unfold infinitySingle
    cases hs : s with
    | nil =>
      subst hs
      rw [h.nil, if_pos (Or.inl rfl)]
      exact ⟨hv, fun _ => rfl, rfl⟩
    | cons b l =>
      have hc : c.cur = some b := by rw [hs] at h; exact h.cons
      have hne : s ≠ [] := by rw [hs]; simp
      rw [hc, ← hs]
      simp only
      have hl := inityLoop_at h (b! "inity") inity_ascii
      by_cases hst : L.starts (b! "inity") s = true
      · rw [if_pos hst] at hl
        obtain ⟨c', hx, h'⟩ := hl.some rfl
        rw [hx, ok_bind]
        by_cases hd : s.drop (b! "inity" : Bytes).length = []
        · rw [if_pos (Or.inr ((eqIgnoreCase_starts _ _).mpr ⟨hst, hd⟩))]
          rw [hd] at h'
          unfold checkEnd
          rw [h'.nil]
          exact ⟨hv, fun _ => rfl, rfl⟩
        · rw [if_neg (by rintro (hh | hh)
                         · exact hne hh
                         · exact hd ((eqIgnoreCase_starts _ _).mp hh).2)]
          unfold checkEnd
          obtain ⟨y, l', hy⟩ := List.exists_cons_of_ne_nil hd
          rw [hy] at h'
          rw [h'.cons]
          simp only [h'.inv.getRemainderStr, ok_bind]
          exact trivial
      · rw [if_neg hst] at hl
        rw [if_neg (by rintro (hh | hh)
                       · exact hne hh
                       · exact hst ((eqIgnoreCase_starts _ _).mp hh).1)]
        match hx : inityLoop c (b! "inity"), hl with
        | .error e, _ => exact trivial
  | multiple =>
    simp only [parseInfinityRemainder, L.afterInf]
    generalize { r with isInfinite := true } = r' at hv
    unfold infinityMultiple
    cases hs : s with
    | nil =>
      subst hs
      rw [h.nil, if_pos rfl]
      exact ⟨hv, fun _ => rfl, rfl⟩
    | cons b l =>
      have hc : c.cur = some b := by rw [hs] at h; exact h.cons
      have hne : s ≠ [] := by rw [hs]; simp
      rw [hc, ← hs]
      simp only
      have e : L.headIs cfg.outerDelimiter s = cfg.outerDelimiter b := by rw [hs]; rfl
      rw [if_neg hne, e]
      by_cases hb : cfg.outerDelimiter b = true
      · rw [if_pos hb, if_pos hb]
        exact connOut_at ho hv h (by rw [e]; exact hb)
      · rw [if_neg hb, if_neg hb]
        have hl := inityLoopMultiple_at c.pos h (b! "inity") inity_ascii
        by_cases hst : L.starts (b! "inity") s = true
        · rw [if_pos hst] at hl
          obtain ⟨c', hx, h'⟩ := hl.some rfl
          rw [hx, ok_bind, if_pos hst]
          have e5 : (b! "inity" : Bytes).length = 5 := rfl
          rw [e5] at h'
          generalize s.drop 5 = t at h'
          unfold afterInfinity
          cases ht : t with
          | nil =>
            rw [ht] at h'
            rw [h'.nil, if_pos (Or.inl rfl)]
            exact ⟨hv, (fun h => by cases h), rfl⟩
          | cons y l' =>
            have hy : c'.cur = some y := by rw [ht] at h'; exact h'.cons
            rw [hy, ← ht]
            simp only
            have e' : L.headIs cfg.outerDelimiter t = cfg.outerDelimiter y := by rw [ht]; rfl
            rw [e']
            by_cases hyd : cfg.outerDelimiter y = true
            · rw [if_pos hyd, if_pos (Or.inr hyd)]
              exact connOut_at ho hv h' (by rw [e']; exact hyd)
            · rw [if_neg hyd, if_neg (by rintro (hh | hh)
                                         · rw [ht] at hh; cases hh
                                         · exact hyd hh)]
              exact trivial
        · rw [if_neg hst] at hl
          rw [if_neg hst]
          match hx : inityLoopMultiple c.pos c (b! "inity"), hl with
          | .error e, _ => exact trivial

theorem isWhole_none : IsWhole I none [] := ⟨⟨fun _ => rfl, fun _ => rfl⟩, [], rfl, (fun b hb => by cases hb), rfl⟩

/-- the text is a number with a decimal point -/
def L.point (s : Bytes) : Bool := L.headIs (fun b => b = 46) (s.dropWhile isDigit)

/-- the text after the sign -/
def L.afterSign (cfg : Config) (s : Bytes) : Bytes :=
  match L.sign cfg s with
  | some o => o.2
  | none => []

theorem body_at (ho : CfgOk env.cfg) (hsc : env.scan = fun d c => c.advanceTo d) (mode : Mode) {neg : Bool}
    {r : DurationRepr} (hr : Fresh I env.cfg neg r) (hx : r.exponent = 0) (hw : r.whole = none) (hf : r.fract = none)
    (h : At I 0 c s) :
    Agrees (OutItem I mode env.cfg neg (L.point s)) (parseBody mode env r c) (L.body mode env s) := by
  unfold parseBody L.body
  cases hs : s with
  | nil => subst hs; rw [h.nil, if_pos rfl]; exact trivial
  | cons b l =>
    have hc : c.cur = some b := by rw [hs] at h; exact h.cons
    have hne : s ≠ [] := by rw [hs]; simp
    rw [hc, ← hs, if_neg hne]
    simp only
    have e (q : UInt8 → Bool) : L.headIs q s = q b := by rw [hs]; rfl
    rw [e, e]
    by_cases h1 : isDigit b = true
    · rw [if_pos h1, if_pos h1]
      obtain ⟨w, c', h2, h3, h4⟩ := whole_sim h (by rw [e]; exact h1)
      unfold parseWhole
      rw [h2, ok_bind]
      refine afterWhole_at ho hsc mode (r := { r with whole := some w })
        ⟨hr.input, hr.finite, hr.unit, hr.multiplier, hr.numeral, hr.sign, hr.default⟩ hx h3 h4.zero (fun _ => h4.pos) ?_
      intro hh
      rw [hs, List.takeWhile_cons, if_pos h1] at hh
      cases hh
    · rw [if_neg h1, if_neg h1]
      by_cases h2 : b = 46
      · rw [if_pos h2, if_pos (by simpa using h2)]
        have hpt : L.point s = L.headIs (fun b => b = 46) s := by
          unfold L.point
          rw [hs, List.dropWhile_cons, if_neg h1]
        rw [hpt]
        exact afterWhole_at ho hsc mode hr hx (by rw [hw]; exact isWhole_none) h (fun hh => absurd rfl hh)
          (fun _ => by rw [e]; simpa using h2)
      · rw [if_neg h2, if_neg (show ¬ decide (b = 46) = true by simpa using h2), h.nextIs]
        by_cases h3 : (!env.cfg.disableInfinity && L.starts (b! "inf") s) = true
        · rw [if_pos h3, if_pos h3]
          rw [Bool.and_eq_true] at h3
          have h4 := h.skip inf_valid h3.2
          exact infinity_at ho mode hr (h4.le (by decide))
        · rw [if_neg h3, if_neg h3]
          exact anyWord_at ho hsc mode hr hw hf h hne

theorem template_at (ho : CfgOk env.cfg) (hsc : env.scan = fun d c => c.advanceTo d) (mode : Mode) (h : At I 0 c s) :
    Agrees (fun o o' => OutItem I mode env.cfg o'.1.1 (L.point (L.afterSign env.cfg s)) o (o'.1.2, o'.2)) (templateParse mode env c)
      (L.template mode env s) := by
  unfold templateParse L.template
  cases hs : s with
  | nil => subst hs; rw [h.nil]; exact trivial
  | cons b l =>
    have hc : c.cur = some b := by rw [hs] at h; exact h.cons
    rw [hc, ← hs]
    simp only
    refine (sign_sim ho h).bind' ?_
    intro o o' hsg hoo
    obtain ⟨x, c'⟩ := o
    obtain ⟨x', t⟩ := o'
    obtain ⟨h4, h5⟩ := hoo
    simp only at h4 h5 ⊢
    subst h4
    have hpt : L.afterSign env.cfg s = t := by unfold L.afterSign; rw [hsg]
    rw [hpt]
    refine (body_at ho hsc mode (neg := x.getD false) ⟨h5.inv.input, rfl, rfl, rfl, rfl, rfl, rfl⟩ rfl rfl rfl h5).mapRight ?_
    intro a b h
    exact h

end Fundu
