import Verif.Proofs.Safe
import Verif.Props.Time
/-! # Safety of the parser: words, numbers and the whole parser -/
namespace Fundu
open Spec

theorem literalDuration_wf (neg : Bool) (N : Nat) (p c : Int) : (literalDuration neg N p c).WF := by
  unfold literalDuration
  split
  · decide
  · unfold ofNanos
    split
    · rename_i h
      exact ⟨h, Nat.mod_lt _ (by omega)⟩
    · unfold DurationRepr.saturated
      split <;> decide

/-- the multipliers of a table are values of their type, and the product with the unit's own multiplier does
not overflow -/
def TableOk (t : TimeUnitsLike) : Prop :=
  ∀ id u m, t.get id = some (u, m) → m.WF ∧ (u.multiplier.checkedMul m).isSome = true

/-- the products which are computed for a numeral do not overflow -/
def NumeralsOk (numerals : NumbersLike) (units : TimeUnitsLike) : Prop :=
  ∀ id q, numerals id = some q → ∀ id' u m, units.get id' = some (u, m) →
    ∃ a, q.checkedMul u.multiplier = some a ∧ (a.checkedMul m).isSome = true ∧
      (a.checkedMul m.saturatingNeg).isSome = true

/-- no product of multipliers overflows -/
structure TablesOk (env : Env) : Prop where
  units : TableOk env.units
  keywords : ∀ k, env.keywords = some k → TableOk k
  numerals : ∀ n, env.numerals = some n → NumeralsOk n env.units

/-- What the parser needs to know about its arguments -/
structure EnvOk (env : Env) : Prop where
  cfg : CfgOk env.cfg
  scan : ∀ I c d, AsciiOnly d → Inv I c → Safe I.length (env.scan d c) (fun o => Inv I o.2 ∧ utf8Valid o.1 = true ∧
      o.2.pos = c.pos + o.1.length)

theorem unit_coefficient (u : TimeUnit) : u.multiplier.coefficient = 1 ∨
    (60 ≤ u.multiplier.coefficient ∧ u.multiplier.coefficient ≤ 31557600 ∧ u.multiplier.coefficient % 4 = 0 ∧
      (u.multiplier.coefficient % 3 = 0)) := by
  cases u <;> decide

theorem checkedMul_isSome {a b : Multiplier} :
    (a.checkedMul b).isSome = true ↔ IsI64 (a.coefficient * b.coefficient) ∧ IsI16 (a.exponent + b.exponent) := by
  unfold Multiplier.checkedMul checkedI64 checkedI16
  by_cases h1 : IsI64 (a.coefficient * b.coefficient) <;>
    by_cases h2 : IsI16 (a.exponent + b.exponent) <;> simp [h1, h2]

theorem checkedMul_neg {u : TimeUnit} {m : Multiplier} (hm : m.WF)
    (h : (u.multiplier.checkedMul m).isSome = true) : (u.multiplier.checkedMul m.saturatingNeg).isSome = true := by
  rw [checkedMul_isSome] at *
  refine ⟨?_, h.2⟩
  obtain ⟨h1, _⟩ := h
  obtain ⟨hm, _⟩ := hm
  unfold Multiplier.saturatingNeg saturatingNegI64
  rw [isI64_iff] at *
  unfold I64_MIN I64_MAX
  split
  · rename_i he
    rcases unit_coefficient u with hu | hu
    · rw [hu]; simp only; omega
    · rw [he] at h1; omega
  · rename_i hne
    have e : u.multiplier.coefficient * -m.coefficient = -(u.multiplier.coefficient * m.coefficient) := by ring
    simp only [e]
    rcases unit_coefficient u with hu | hu
    · rw [hu] at *; omega
    · obtain ⟨-, -, -, h3⟩ := hu
      have h3' : (u.multiplier.coefficient * m.coefficient) % 3 = 0 := by
        rw [Int.mul_emod, h3]; simp
      generalize u.multiplier.coefficient * m.coefficient = x at *
      omega

/-- `(u, m)` is a unit of the table, possibly negated by `ago` -/
def IsUnit (t : TimeUnitsLike) (x : Unit') : Prop :=
  ∃ id m, t.get id = some (x.1, m) ∧ (x.2 = m ∨ x.2 = m.saturatingNeg)

theorem IsUnit.mul {t : TimeUnitsLike} (ht : TableOk t) {x : Unit'} (h : IsUnit t x) :
    ∃ m, x.1.multiplier.checkedMul x.2 = some m := by
  obtain ⟨id, m, h1, h2⟩ := h
  obtain ⟨h3, h4⟩ := ht id _ m h1
  rw [← Option.isSome_iff_exists]
  rcases h2 with h2 | h2
  · rw [h2]; exact h4
  · rw [h2]; exact checkedMul_neg h3 h4

theorem isNextDuration_ascii {b : UInt8} (h : isNextDuration b = true) : b.toNat < 128 := by
  simp only [isNextDuration, isDigit, Bool.or_eq_true, Bool.and_eq_true, decide_eq_true_eq] at h
  rcases h with (h | h) | h
  · omega
  · subst h; decide
  · subst h; decide

theorem wordEnd_ascii {cfg : Config} (h : CfgOk cfg) : AsciiOnly (wordEnd cfg) := by
  intro b hb
  simp only [wordEnd, Bool.or_eq_true] at hb
  rcases hb with hb | hb
  · exact h.outer b hb
  · exact isNextDuration_ascii hb

theorem unitEnd_ascii {cfg : Config} (h : CfgOk cfg) : AsciiOnly (unitEnd cfg) := by
  unfold unitEnd
  split
  · intro b hb
    simp only [wordEndAgo, Bool.or_eq_true] at hb
    rcases hb with (hb | hb) | hb
    · exact h.inner b hb
    · exact h.outer b hb
    · exact isNextDuration_ascii hb
  · exact wordEnd_ascii h

theorem utf8Unchecked_ok {b : Bytes} (h : utf8Valid b = true) : utf8Unchecked b = .ok b := by
  unfold utf8Unchecked; rw [if_pos h]

section
variable {I : Bytes} {env : Env} {c : Cursor}

/-! ## Words -/

/-- the result of looking for a unit: if there is one, it is in the table and the cursor has moved -/
def UnitPost (I : Bytes) (t : TimeUnitsLike) (p : Nat) (o : Option Unit' × Cursor) : Prop :=
  Inv I o.2 ∧ p ≤ o.2.pos ∧ (o.1 = none → o.2.pos = p) ∧ ∀ x, o.1 = some x → p < o.2.pos ∧ IsUnit t x

theorem lookupRemainder_safe (t : TimeUnitsLike) (hc : Inv I c) {b : UInt8} (hb : c.cur = some b) :
    Safe I.length (lookupRemainder t c) (UnitPost I t c.pos) := by
  unfold lookupRemainder
  rw [hc.getRemainderStrUnchecked, ok_bind]
  cases h : t.get c.rest with
  | none => exact ⟨hc, Nat.le_refl _, fun _ => rfl, by intro x hx; cases hx⟩
  | some u =>
    have hlt := Cursor.pos_lt_of_cur hb
    refine ⟨hc.finish, Nat.le_of_lt hlt, (fun h => by cases h), ?_⟩
    intro x hx
    cases hx
    exact ⟨hlt, c.rest, u.2, h, Or.inl rfl⟩

theorem isEmpty_false_length {l : Bytes} (h : ¬ l.isEmpty = true) : 0 < l.length := by
  cases l with
  | nil => simp at h
  | cons => simp

theorem parseKeyword_safe (he : EnvOk env) (mode : Mode) (hc : Inv I c) {b : UInt8} (hb : c.cur = some b) :
    Safe I.length (parseKeyword mode env c) (fun o => Inv I o.2 ∧ c.pos ≤ o.2.pos ∧
      (o.1 = none → o.2.pos = c.pos) ∧
      ∀ x, o.1 = some x → c.pos < o.2.pos ∧ ∃ k, env.keywords = some k ∧ IsUnit k x) := by
  unfold parseKeyword
  cases hk : env.keywords with
  | none => exact ⟨hc, Nat.le_refl _, fun _ => rfl, by intro x hx; cases hx⟩
  | some k =>
    cases mode with
    | single =>
      refine (lookupRemainder_safe k hc hb).mono ?_
      intro o ho
      exact ⟨ho.1, ho.2.1, ho.2.2.1, fun x hx => ⟨(ho.2.2.2 x hx).1, k, rfl, (ho.2.2.2 x hx).2⟩⟩
    | multiple =>
      simp only [parseKeywordMultiple]
      refine (he.scan I c _ (wordEnd_ascii he.cfg) hc).bind ?_
      rintro ⟨w, c'⟩ ⟨h1, h2, h3⟩
      simp only at h1 h2 h3 ⊢
      by_cases hw : w.isEmpty = true
      · rw [if_pos hw]
        have : w.length = 0 := by simpa using hw
        exact ⟨h1, by show c.pos ≤ c'.pos; omega, fun _ => by show c'.pos = c.pos; omega, by intro x hx; cases hx⟩
      · rw [if_neg hw, utf8Unchecked_ok h2, ok_bind]
        have hlen := isEmpty_false_length hw
        cases hg : k.get w with
        | none => exact ⟨hc.reset h1, Nat.le_refl _, fun _ => rfl, by intro x hx; cases hx⟩
        | some u =>
          unfold keywordFound
          refine (consumeConnectionIfAny_safe he.cfg h1).bind ?_
          intro c'' hc''
          have hp : c.pos < c''.pos := by have := hc''.2; omega
          refine ⟨hc''.1, Nat.le_of_lt hp, (fun h => by cases h), ?_⟩
          intro x hx
          cases hx
          exact ⟨hp, k, rfl, w, u.2, hg, Or.inl rfl⟩

theorem ago_valid : utf8Valid (b! "ago") = true := by decide

theorem parseTimeUnitSingle_safe (he : EnvOk env) (hc : Inv I c) {b : UInt8} (hb : c.cur = some b) :
    Safe I.length (parseTimeUnitSingle env c) (UnitPost I env.units c.pos) := by
  unfold parseTimeUnitSingle assertSome
  rw [hb]
  simp only [ok_bind]
  by_cases ha : env.cfg.allowAgo = true
  · rw [if_pos ha]
    unfold parseTimeUnitAgo
    refine (Cursor.advanceTo_safe he.cfg.inner hc).bind ?_
    rintro ⟨w, c'⟩ ⟨h1, h2, h3, h4⟩
    simp only at h1 h2 h3 h4 ⊢
    rw [utf8Unchecked_ok h2, ok_bind]
    by_cases hw : w.isEmpty = true
    · rw [if_pos hw]
      have : w.length = 0 := by simpa using hw
      exact ⟨h1, by show c.pos ≤ c'.pos; omega, fun _ => by show c'.pos = c.pos; omega, by intro x hx; cases hx⟩
    · rw [if_neg hw]
      have hlen := isEmpty_false_length hw
      cases hg : env.units.get w with
      | none => exact ⟨hc.reset h1, Nat.le_refl _, fun _ => rfl, by intro x hx; cases hx⟩
      | some u =>
        unfold unitFoundSingle agoSingle
        cases hb' : c'.cur with
        | none =>
          refine ⟨h1, by show c.pos ≤ c'.pos; omega, (fun h => by cases h), ?_⟩
          intro x hx
          cases hx
          exact ⟨by show c.pos < c'.pos; omega, w, u.2, hg, Or.inl rfl⟩
        | some b' =>
          simp only
          refine (Cursor.tryConsumeDelimiter_safe he.cfg.inner h1 hb' (h4 b' hb')).bind ?_
          intro c'' hc''
          by_cases hn : c''.nextIs (b! "ago") = true
          · rw [if_pos hn]
            have hi := Cursor.nextIs_inv ago_valid hc''.1 hn
            have hp : c.pos < (c''.advanceBy 3).pos := by
              have := hc''.2.1
              show c.pos < c''.pos + 3
              omega
            refine ⟨hi, Nat.le_of_lt hp, (fun h => by cases h), ?_⟩
            intro x hx
            cases hx
            exact ⟨hp, w, u.2, hg, Or.inr rfl⟩
          · rw [if_neg hn]
            exact ⟨hc.reset hc''.1, Nat.le_refl _, fun _ => rfl, by intro x hx; cases hx⟩
  · rw [if_neg ha]
    exact lookupRemainder_safe _ hc hb

theorem agoMultiple_safe (he : EnvOk env) (hc : Inv I c) (u : Unit') :
    Safe I.length (agoMultiple env.cfg u c) (fun o => Inv I o.2 ∧ c.pos ≤ o.2.pos ∧ o.1.1 = u.1 ∧
      (o.1.2 = u.2 ∨ o.1.2 = u.2.saturatingNeg)) := by
  unfold agoMultiple
  cases hb : c.cur with
  | none => exact ⟨hc, Nat.le_refl _, rfl, Or.inl rfl⟩
  | some b =>
    simp only
    by_cases h : (env.cfg.allowAgo && env.cfg.innerDelimiter b) = true
    · rw [if_pos h]
      simp only [Bool.and_eq_true] at h
      refine (Cursor.tryConsumeDelimiter_safe he.cfg.inner hc hb h.2).bind ?_
      intro c' hc'
      by_cases hn : c'.nextIs (b! "ago") = true
      · rw [if_pos hn]
        have hi := Cursor.nextIs_inv ago_valid hc'.1 hn
        have hle : c.pos ≤ (c'.advanceBy 3).pos := by
          have := hc'.2.1
          show c.pos ≤ c'.pos + 3
          omega
        unfold afterAgo
        cases hb2 : (c'.advanceBy 3).cur with
        | none => exact ⟨hi, hle, rfl, Or.inr rfl⟩
        | some b2 =>
          simp only
          by_cases h2 : (env.cfg.outerDelimiter b2 || isNextDuration b2) = true
          · rw [if_pos h2]; exact ⟨hi, hle, rfl, Or.inr rfl⟩
          · rw [if_neg h2]; exact ⟨hc.reset hi, Nat.le_refl _, rfl, Or.inl rfl⟩
      · rw [if_neg hn]; exact ⟨hc.reset hc'.1, Nat.le_refl _, rfl, Or.inl rfl⟩
    · rw [if_neg h]; exact ⟨hc, Nat.le_refl _, rfl, Or.inl rfl⟩

theorem parseTimeUnitMultiple_safe (he : EnvOk env) (hc : Inv I c) {b : UInt8} (hb : c.cur = some b) :
    Safe I.length (parseTimeUnitMultiple env c) (UnitPost I env.units c.pos) := by
  unfold parseTimeUnitMultiple assertSome
  rw [hb]
  simp only [ok_bind]
  refine (he.scan I c _ (unitEnd_ascii he.cfg) hc).bind ?_
  rintro ⟨w, c'⟩ ⟨h1, h2, h3⟩
  simp only at h1 h2 h3 ⊢
  by_cases hw : w.isEmpty = true
  · rw [if_pos hw]
    have : w.length = 0 := by simpa using hw
    exact ⟨h1, by show c.pos ≤ c'.pos; omega, fun _ => by show c'.pos = c.pos; omega, by intro x hx; cases hx⟩
  · rw [if_neg hw, utf8Unchecked_ok h2, ok_bind]
    have hlen := isEmpty_false_length hw
    cases hg : env.units.get w with
    | none => exact ⟨hc.reset h1, Nat.le_refl _, fun _ => rfl, by intro x hx; cases hx⟩
    | some u =>
      unfold unitFoundMultiple
      refine (agoMultiple_safe he h1 u).bind ?_
      rintro ⟨u', c2⟩ ⟨g1, g2, g3, g4⟩
      simp only at g1 g2 g3 g4 ⊢
      refine (consumeConnectionIfAny_safe he.cfg g1).bind ?_
      intro c3 hc3
      have hp : c.pos < c3.pos := by have := hc3.2; omega
      refine ⟨hc3.1, Nat.le_of_lt hp, (fun h => by cases h), ?_⟩
      intro x hx
      cases hx
      exact ⟨hp, w, u.2, by rw [g3]; exact hg, g4⟩

theorem parseTimeUnit_safe (he : EnvOk env) (mode : Mode) (hc : Inv I c) {b : UInt8} (hb : c.cur = some b) :
    Safe I.length (parseTimeUnit mode env c) (UnitPost I env.units c.pos) := by
  cases mode with
  | single => exact parseTimeUnitSingle_safe he hc hb
  | multiple => exact parseTimeUnitMultiple_safe he hc hb

theorem parseNumeral_safe (he : EnvOk env) (hc : Inv I c) :
    Safe I.length (parseNumeral env c) (fun o => Inv I o.2 ∧ c.pos ≤ o.2.pos ∧
      ∀ x, o.1 = some x → o.2.cur.isSome = true ∧ ∃ n id, env.numerals = some n ∧ n id = some x.2) := by
  unfold parseNumeral
  cases hn : env.numerals with
  | none => exact ⟨hc, Nat.le_refl _, by intro x hx; cases hx⟩
  | some n =>
    simp only
    refine (he.scan I c _ he.cfg.inner hc).bind ?_
    rintro ⟨w, c'⟩ ⟨h1, h2, h3⟩
    simp only at h1 h2 h3 ⊢
    by_cases hw : w.isEmpty = true
    · rw [if_pos hw]
      exact ⟨h1, by show c.pos ≤ c'.pos; omega, by intro x hx; cases hx⟩
    · rw [if_neg hw, utf8Unchecked_ok h2, ok_bind]
      cases hg : n w with
      | none => exact ⟨hc.reset h1, Nat.le_refl _, by intro x hx; cases hx⟩
      | some m =>
        unfold numeralFound
        simp only
        cases hb : c'.cur with
        | none => exact ⟨hc.reset h1, Nat.le_refl _, by intro x hx; cases hx⟩
        | some b =>
          simp only
          by_cases hd : env.cfg.innerDelimiter b = true
          · rw [if_pos hd]
            refine (Cursor.tryConsumeDelimiter_safe he.cfg.inner h1 hb hd).bind ?_
            intro c2 hc2
            refine ⟨hc2.1, ?_, ?_⟩
            · show c.pos ≤ c2.pos
              have := hc2.2.1
              omega
            · intro x hx
              cases hx
              exact ⟨hc2.2.2, n, w, rfl, hg⟩
          · rw [if_neg hd]; exact ⟨hc.reset h1, Nat.le_refl _, by intro x hx; cases hx⟩

/-! ## Representations -/

/-- the representation can be turned into a duration, unless a product of multipliers overflows -/
def Parses (env : Env) (r : DurationRepr) : Prop :=
  (∃ d, r.parse = .ok d ∧ d.WF) ∨ (¬ TablesOk env ∧ r.parse = .error .unwrap)

/-- the range is a part of the input consisting of digits -/
def RangeOk (I : Bytes) (o : Option Range) : Prop :=
  ∀ w, o = some w → w.start ≤ w.stop ∧ w.stop ≤ I.length ∧ AllDigits ((I.take w.stop).drop w.start)

/-- the representation after the sign: neither number nor unit yet -/
structure BaseRepr (I : Bytes) (r : DurationRepr) : Prop where
  input : r.input = I
  finite : r.isInfinite = false
  unit : r.unit = none
  multiplier : r.multiplier = ⟨1, 0⟩
  whole : RangeOk I r.whole
  fract : RangeOk I r.fract
  numeral : r.numeral = none

theorem rangeOk_none (I : Bytes) : RangeOk I none := by intro w h; cases h

theorem optSlice_ok {I : Bytes} {o : Option Range} (h : RangeOk I o) :
    ∃ W, DurationRepr.optSlice I o = .ok W ∧ AllDigits W := by
  cases o with
  | none => exact ⟨[], rfl, by intro b hb; cases hb⟩
  | some w =>
    obtain ⟨h1, h2, h3⟩ := h w rfl
    exact ⟨_, slice_ok h1 h2, h3⟩

theorem parses_number {r : DurationRepr} (hi : r.input = I) (hf : r.isInfinite = false)
    (hp : r.whole.isSome = true ∨ r.fract.isSome = true) (hw : RangeOk I r.whole) (hfr : RangeOk I r.fract)
    (hm : TablesOk env → ∃ m, (r.unit.getD r.defaultUnit).multiplier.checkedMul r.multiplier = some m) :
    Parses env r := by
  have hpres : (r.whole.isNone && r.fract.isNone) = false := by
    rcases hp with hp | hp
    · cases hh : r.whole <;> simp_all
    · cases hh : r.fract <;> simp_all
  cases h : (r.unit.getD r.defaultUnit).multiplier.checkedMul r.multiplier with
  | some m =>
    obtain ⟨W, h1, h2⟩ := optSlice_ok hw
    obtain ⟨F, h3, h4⟩ := optSlice_ok hfr
    exact Or.inl ⟨_, DurationRepr.parse_number r W F m hf hpres (by rw [hi]; exact h1)
      (by rw [hi]; exact h3) h2 h4 h, literalDuration_wf _ _ _ _⟩
  | none =>
    refine Or.inr ⟨fun ht => ?_, ?_⟩
    · obtain ⟨m, hm⟩ := hm ht
      rw [h] at hm; cases hm
    · unfold DurationRepr.parse
      rw [hf, hpres]
      simp only [Bool.false_eq_true, if_false, Multiplier.mul, h, unwrap]
      rfl

theorem default_mul (u : TimeUnit) : ∃ m, u.multiplier.checkedMul ⟨1, 0⟩ = some m := by
  cases u <;> exact ⟨_, rfl⟩

theorem BaseRepr.parses {r : DurationRepr} (h : BaseRepr I r) (hp : r.whole.isSome = true ∨ r.fract.isSome = true) :
    Parses env r :=
  parses_number h.input h.finite hp h.whole h.fract (fun _ => by rw [h.multiplier, h.unit]; exact default_mul _)

theorem BaseRepr.parses_unit {r : DurationRepr} (h : BaseRepr I r)
    (hp : r.whole.isSome = true ∨ r.fract.isSome = true) {x : Unit'}
    (hx : TablesOk env → ∃ m, x.1.multiplier.checkedMul x.2 = some m) : Parses env (withUnit r (some x)) :=
  parses_number (r := withUnit r (some x)) h.input h.finite hp h.whole h.fract hx

theorem fixedNumber_wf (r : DurationRepr) (c e : Int) (hc : IsI64 c) :
    ∃ d, r.parseDurationWithFixedNumber c e = .ok d ∧ d.WF := by
  by_cases h : e ≤ 19 ∨ r.isNegative.getD false = false ∨ c = 0
  · exact ⟨_, DurationRepr.fixedNumber_eq r c e hc h, literalDuration_wf _ _ _ _⟩
  · refine ⟨if c < 0 then Duration.MIN else Duration.MAX, ?_, ?_⟩
    · unfold DurationRepr.parseDurationWithFixedNumber
      have h1 : c ≠ 0 := fun hh => h (Or.inr (Or.inr hh))
      have h2 : ¬ e < 0 := fun hh => h (Or.inl (by omega))
      have h3 : ¬ e = 0 := fun hh => h (Or.inl (by omega))
      have h4 : 19 < e := by
        by_contra hh
        exact h (Or.inl (by omega))
      rw [if_neg h1]
      simp only
      rw [if_neg h2, if_neg h3, if_pos h4]
    · split <;> decide

theorem parses_word {r : DurationRepr} (hf : r.isInfinite = false) (hw : r.whole = none) (hfr : r.fract = none)
    (hn : r.numeral = none) {x : Unit'} {m : Multiplier} (hx : x.1.multiplier.checkedMul x.2 = some m) :
    (withUnit r (some x)).parse =
      (withUnit r (some x)).parseDurationWithFixedNumber m.coefficient m.exponent := by
  unfold DurationRepr.parse withUnit
  simp only [hf, hw, hfr, hn, Bool.false_eq_true, if_false, Option.isNone_none, Bool.and_self, if_true]
  unfold Multiplier.mul
  rw [hx]
  rfl

theorem parses_numeral {r : DurationRepr} (hf : r.isInfinite = false) (hw : r.whole = none) (hfr : r.fract = none)
    {x : Unit'} {q a m : Multiplier} (hq : q.checkedMul x.1.multiplier = some a)
    (hx : a.checkedMul x.2 = some m) :
    (withUnit { r with numeral := some q } (some x)).parse =
      (withUnit { r with numeral := some q } (some x)).parseDurationWithFixedNumber m.coefficient m.exponent := by
  unfold DurationRepr.parse withUnit
  simp only [hf, hw, hfr, Bool.false_eq_true, if_false, Option.isNone_none, Bool.and_self, if_true]
  unfold Multiplier.mul unwrap
  simp only [hq, ok_bind, hx]

theorem parses_infinite (r : DurationRepr) : Parses env { r with isInfinite := true } :=
  Or.inl ⟨_, rfl, by show StdDuration.MAX.WF; decide⟩

/-! ## Numbers -/

theorem parseSignIsNegative_safe (hc : Inv I c) :
    Safe I.length (parseSignIsNegative c) (fun o => Inv I o.2 ∧ c.pos ≤ o.2.pos ∧
      ((o.1 = none ∧ o.2 = c) ∨ (∃ s, o.1 = some s))) := by
  unfold parseSignIsNegative
  cases hb : c.cur with
  | none => exact hc.pos
  | some b =>
    simp only
    by_cases h : b = 43
    · rw [if_pos h]
      subst h
      exact ⟨hc.advance hb (by decide), Nat.le_succ _, Or.inr ⟨_, rfl⟩⟩
    · rw [if_neg h]
      by_cases h : b = 45
      · rw [if_pos h]
        subst h
        exact ⟨hc.advance hb (by decide), Nat.le_succ _, Or.inr ⟨_, rfl⟩⟩
      · rw [if_neg h]; exact ⟨hc, Nat.le_refl _, Or.inl ⟨rfl, rfl⟩⟩

theorem parseNumberSign_safe {cfg : Config} (ho : CfgOk cfg) (hc : Inv I c) {b : UInt8} (hb : c.cur = some b) :
    Safe I.length (parseNumberSign cfg c) (fun o => Inv I o.2 ∧ c.pos ≤ o.2.pos ∧ o.2.cur.isSome = true) := by
  unfold parseNumberSign
  refine (parseSignIsNegative_safe hc).bind ?_
  rintro ⟨s, c'⟩ ⟨h1, h2, h3⟩
  simp only at h1 h2 h3 ⊢
  cases s with
  | none =>
    simp only [reduceCtorEq, exists_false, or_false, true_and] at h3
    subst h3
    exact ⟨hc, Nat.le_refl _, by rw [hb]; rfl⟩
  | some neg =>
    unfold afterSign
    cases hb' : c'.cur with
    | none => exact h1.pos
    | some b' =>
      simp only
      by_cases h : (cfg.allowSignDelimiter && cfg.innerDelimiter b') = true
      · rw [if_pos h]
        simp only [Bool.and_eq_true] at h
        refine (Cursor.tryConsumeDelimiter_safe ho.inner h1 hb' h.2).bind ?_
        intro c2 hc2
        exact ⟨hc2.1, by show c.pos ≤ c2.pos; have := hc2.2.1; omega, hc2.2.2⟩
      · rw [if_neg h]; exact ⟨h1, h2, by rw [hb']; rfl⟩

theorem inv_digits (hc : Inv I c) : Inv I (c.advanceBy c.digits.length) :=
  hc.advanceBy_take (Cursor.digits_length c) (by
    rw [Cursor.digits_take]
    refine utf8Valid_ascii (fun x hx => ?_)
    have := Cursor.digits_all c x hx
    unfold IsDigit at this; omega)

theorem digits_pos {b : UInt8} (hb : c.cur = some b) (hd : isDigit b = true) : 0 < c.digits.length := by
  rw [Cursor.digits, Cursor.rest_cons hb, List.takeWhile_cons, if_pos hd]; simp

theorem rangeOk_digits (hc : Inv I c) (k : Nat) (hk : k ≤ c.digits.length) :
    RangeOk I (some ⟨c.pos + k, c.pos + c.digits.length⟩) := by
  intro w hw
  cases hw
  have h1 := Cursor.digits_length c
  rw [hc.restLength] at h1
  have := hc.pos
  refine ⟨by show c.pos + k ≤ c.pos + c.digits.length; omega, by show c.pos + c.digits.length ≤ I.length; omega, ?_⟩
  have e := Cursor.take_drop_rest c c.digits.length
  rw [hc.input, Cursor.digits_take] at e
  show AllDigits ((I.take (c.pos + c.digits.length)).drop (c.pos + k))
  rw [← List.drop_drop, e]
  exact (Cursor.digits_all c).drop k

/-- the result of parsing a part of a number -/
def PartPost (I : Bytes) (p : Nat) (go : Bool) (c : Cursor) : Prop :=
  Inv I c ∧ p ≤ c.pos ∧ (go = true → c.cur.isSome = true ∨ p < c.pos)

theorem fractionDigits_safe (whole : Option Range) (hc : Inv I c) (hp : 1 ≤ c.pos) :
    Safe I.length (fractionDigits whole c) (fun o => Inv I o.2.2 ∧ c.pos ≤ o.2.2.pos ∧ RangeOk I o.2.1 ∧
      o.2.1.isSome = true) := by
  have hpos := hc.pos
  have hempty : RangeOk I (some ⟨c.pos, c.pos⟩) := by
    intro w hw; cases hw
    refine ⟨Nat.le_refl _, hpos, ?_⟩
    intro b hb
    simp at hb
  unfold fractionDigits
  cases hb : c.cur with
  | none =>
    simp only
    by_cases h : whole.isNone = true
    · rw [if_pos h, subUsize, if_pos hp, liftP_ok, ok_bind]
      show c.pos - 1 ≤ I.length
      omega
    · rw [if_neg h]; exact ⟨hc, Nat.le_refl _, hempty, rfl⟩
  | some b =>
    simp only
    by_cases hd : isDigit b = true
    · rw [if_pos hd, Cursor.parseDigits_eq c hc.pos' b hb hd, ok_bind]
      refine ⟨inv_digits hc, Nat.le_add_right _ _, ?_, rfl⟩
      exact rangeOk_digits hc 0 (Nat.zero_le _)
    · rw [if_neg hd]
      by_cases h : whole.isNone = true
      · rw [if_pos h, subUsize, if_pos hp, liftP_ok, ok_bind]
        show c.pos - 1 ≤ I.length
        omega
      · rw [if_neg h]; exact ⟨hc, Nat.le_refl _, hempty, rfl⟩

theorem parseNumberFraction_safe (whole : Option Range) (dis : Bool) (hc : Inv I c) :
    Safe I.length (parseNumberFraction whole dis c) (fun o => Inv I o.2.2 ∧ c.pos ≤ o.2.2.pos ∧ RangeOk I o.2.1 ∧
      (c.cur = some 46 → o.2.1.isSome = true ∧ c.pos < o.2.2.pos)) := by
  unfold parseNumberFraction
  cases hb : c.cur with
  | none => exact ⟨hc, Nat.le_refl _, rangeOk_none I, by intro h; cases h⟩
  | some b =>
    simp only
    by_cases h : b = 46
    · rw [if_pos h]
      cases dis with
      | true => exact hc.pos
      | false =>
        simp only [Bool.false_eq_true, if_false]
        subst h
        have hi := hc.advance hb (by decide)
        refine (fractionDigits_safe whole hi (by show 1 ≤ c.pos + 1; omega)).mono ?_
        rintro ⟨go, f, c'⟩ ⟨h1, h2, h3, h4⟩
        have : c.pos + 1 ≤ c'.pos := h2
        exact ⟨h1, by show c.pos ≤ c'.pos; omega, h3, fun _ => ⟨h4, this⟩⟩
    · rw [if_neg h]
      exact ⟨hc, Nat.le_refl _, rangeOk_none I, by intro h'; cases h'; exact absurd rfl h⟩

theorem signed_zero (neg : Bool) : signed neg 0 = 0 := by cases neg <;> rfl

theorem parseExponent_safe (hc : Inv I c) :
    Safe I.length (parseExponent c) (fun o => Inv I o.2 ∧ c.pos ≤ o.2.pos) := by
  unfold parseExponent
  refine (parseSignIsNegative_safe hc).bind ?_
  rintro ⟨s, c'⟩ ⟨h1, h2, -⟩
  simp only at h1 h2 ⊢
  have := exponentLoop_eq (s.getD false) c'.input.length 0 c' (by rw [Cursor.rest_length]; omega)
    (by rw [signed_zero]; decide)
  rw [signed_zero] at this
  rw [this]
  split
  · rw [ok_bind]
    have hi := inv_digits h1
    have hp : (c'.advanceBy c'.digits.length).pos = c'.pos + c'.digits.length := rfl
    simp only [hp, subUsize]
    rw [if_pos (Nat.le_add_right _ _), liftP_ok, ok_bind]
    split
    · exact ⟨hi, by rw [hp]; omega⟩
    · split
      · exact hi.pos
      · exact hi.pos
  · rw [error_bind_fail]
    cases s.getD false <;> trivial
where
  error_bind_fail {α β : Type} {e : ParseError} {f : α → R β} : (fail e : R α) >>= f = fail e := rfl

theorem parseNumberExponent_safe (dis : Bool) (hc : Inv I c) :
    Safe I.length (parseNumberExponent dis c) (fun o => Inv I o.2.2 ∧ c.pos ≤ o.2.2.pos) := by
  unfold parseNumberExponent
  cases hb : c.cur with
  | none => exact ⟨hc, Nat.le_refl _⟩
  | some b =>
    simp only
    by_cases h : (decide (b = 101) || decide (b = 69)) = true
    · rw [if_pos h]
      cases dis with
      | true => exact hc.pos
      | false =>
        simp only [Bool.false_eq_true, if_false]
        have ha : b.toNat < 128 := by
          simp at h
          rcases h with rfl | rfl <;> decide
        refine (parseExponent_safe (hc.advance hb ha)).bind ?_
        rintro ⟨e, c'⟩ ⟨h1, h2⟩
        have : c.pos + 1 ≤ c'.pos := h2
        exact ⟨h1, by show c.pos ≤ c'.pos; omega⟩
    · rw [if_neg h]; exact ⟨hc, Nat.le_refl _⟩

theorem parseNumberDelimiter_safe {d : Option Delimiter} (hd : ∀ x, d = some x → AsciiOnly x) (hc : Inv I c) :
    Safe I.length (parseNumberDelimiter d c) (fun o => Inv I o.2 ∧ c.pos ≤ o.2.pos) := by
  unfold parseNumberDelimiter
  cases hb : c.cur with
  | none => exact ⟨hc, Nat.le_refl _⟩
  | some b =>
    cases d with
    | none => exact ⟨hc, Nat.le_refl _⟩
    | some d =>
      simp only
      by_cases h : d b = true
      · rw [if_pos h]
        refine (Cursor.tryConsumeDelimiter_safe (hd d rfl) hc hb h).bind ?_
        intro c' hc'
        exact ⟨hc'.1, Nat.le_of_lt hc'.2.1⟩
      · rw [if_neg h]; exact ⟨hc, Nat.le_refl _⟩

theorem parseNumberTimeUnit_safe (he : EnvOk env) (mode : Mode) (hc : Inv I c) :
    Safe I.length (parseNumberTimeUnit mode env c) (fun o => Inv I o.2.2 ∧ c.pos ≤ o.2.2.pos ∧
      ∀ x, o.2.1 = some x → IsUnit env.units x) := by
  unfold parseNumberTimeUnit
  cases hb : c.cur with
  | none => exact ⟨hc, Nat.le_refl _, by intro x hx; cases hx⟩
  | some b =>
    cases mode with
    | single =>
      simp only [numberTimeUnitSingle]
      by_cases h : (!env.units.isEmpty) = true
      · rw [if_pos h]
        refine (parseTimeUnit_safe he .single hc hb).bind ?_
        rintro ⟨u, c'⟩ ⟨h1, h2, h3⟩
        cases u with
        | none =>
          simp only [unitOrError]
          have h1' : Inv I c' := h1
          rw [h1'.getRemainderStr, ok_bind]
          exact h1'.pos
        | some u => exact ⟨h1, h2, fun x hx => by cases hx; exact (h3.2 u rfl).2⟩
      · rw [if_neg h, hc.getRemainderStrUnchecked, ok_bind]
        exact hc.pos
    | multiple =>
      simp only [numberTimeUnitMultiple]
      by_cases h : (!env.units.isEmpty) = true
      · rw [if_pos h]
        refine (parseTimeUnit_safe he .multiple hc hb).bind ?_
        rintro ⟨u, c'⟩ ⟨h1, h2, h3⟩
        exact ⟨h1, h2, fun x hx => (h3.2 x hx).2⟩
      · rw [if_neg h]; exact ⟨hc, Nat.le_refl _, by intro x hx; cases hx⟩

theorem parseAfterWhole_safe (he : EnvOk env) (mode : Mode) {r : DurationRepr} (hr : BaseRepr I r) (hc : Inv I c)
    {p : Nat} (hp : p ≤ c.pos) (hs : (r.whole.isSome = true ∧ p < c.pos) ∨ c.cur = some 46) :
    Safe I.length (parseAfterWhole mode env r c) (OutOk I p (Parses env)) := by
  unfold parseAfterWhole
  refine (parseNumberFraction_safe r.whole env.cfg.disableFraction hc).bind ?_
  rintro ⟨go, f, c1⟩ ⟨h1, h2, h3, h4⟩
  simp only at h1 h2 h3 h4 ⊢
  have hp1 : p < c1.pos := by
    rcases hs with hs | hs
    · omega
    · have := (h4 hs).2; omega
  have hr1 : BaseRepr I { r with fract := f } :=
    ⟨hr.input, hr.finite, hr.unit, hr.multiplier, hr.whole, h3, hr.numeral⟩
  have hpr1 : ({ r with fract := f } : DurationRepr).whole.isSome = true ∨
      ({ r with fract := f } : DurationRepr).fract.isSome = true := by
    rcases hs with hs | hs
    · exact Or.inl hs.1
    · exact Or.inr (h4 hs).1
  generalize ({ r with fract := f } : DurationRepr) = r1 at hr1 hpr1
  cases go with
  | false => exact makeOutput_safe mode (hr1.parses hpr1) h1 hp1
  | true =>
    simp only [Bool.not_true, Bool.false_eq_true, if_false]
    unfold parseExponentPart
    refine (parseNumberExponent_safe env.cfg.disableExponent h1).bind ?_
    rintro ⟨go, e, c2⟩ ⟨g1, g2⟩
    simp only at g1 g2 ⊢
    have hr2 : BaseRepr I { r1 with exponent := e } :=
      ⟨hr1.input, hr1.finite, hr1.unit, hr1.multiplier, hr1.whole, hr1.fract, hr1.numeral⟩
    have hpr2 : ({ r1 with exponent := e } : DurationRepr).whole.isSome = true ∨
      ({ r1 with exponent := e } : DurationRepr).fract.isSome = true := hpr1
    generalize ({ r1 with exponent := e } : DurationRepr) = r2 at hr2 hpr2
    cases go with
    | false => exact makeOutput_safe mode (hr2.parses hpr2) g1 (by omega)
    | true =>
      simp only [Bool.not_true, Bool.false_eq_true, if_false]
      unfold parseDelimiterPart
      refine (parseNumberDelimiter_safe ?_ g1).bind ?_
      · intro x hx
        split at hx
        · cases hx; exact he.cfg.inner
        · cases hx
      · rintro ⟨go, c3⟩ ⟨k1, k2⟩
        simp only at k1 k2 ⊢
        cases go with
        | false => exact makeOutput_safe mode (hr2.parses hpr2) k1 (by omega)
        | true =>
          simp only [Bool.not_true, Bool.false_eq_true, if_false]
          unfold parseUnitPart
          refine (parseNumberTimeUnit_safe he mode k1).bind ?_
          rintro ⟨go, u, c4⟩ ⟨l1, l2, l3⟩
          simp only at l1 l2 l3 ⊢
          cases go with
          | false => exact makeOutput_safe mode (hr2.parses hpr2) l1 (by omega)
          | true =>
            simp only [Bool.not_true, Bool.false_eq_true, if_false]
            refine finalize_safe he.cfg mode ?_ l1 (by omega)
            cases u with
            | none => exact hr2.parses hpr2
            | some x => exact hr2.parses_unit hpr2 (fun ht => (l3 x rfl).mul ht.units)

/-! ## Template -/

theorem parses_word_ok {r : DurationRepr} (hr : BaseRepr I r) (hw : r.whole = none) (hfr : r.fract = none)
    {x : Unit'} (hx : TablesOk env → ∃ m, x.1.multiplier.checkedMul x.2 = some m) :
    Parses env (withUnit r (some x)) := by
  cases h : x.1.multiplier.checkedMul x.2 with
  | some m =>
    refine Or.inl ?_
    rw [parses_word hr.finite hw hfr hr.numeral h]
    exact fixedNumber_wf _ _ _ (checkedMul_isI64 h).1
  | none =>
    refine Or.inr ⟨fun ht => ?_, ?_⟩
    · obtain ⟨m, hm⟩ := hx ht
      rw [h] at hm; cases hm
    · unfold DurationRepr.parse withUnit
      simp only [hr.finite, hw, hfr, hr.numeral, Bool.false_eq_true, if_false, Option.isNone_none, Bool.and_self,
        if_true, Multiplier.mul, h, unwrap]
      rfl

theorem parses_numeral_ok {r : DurationRepr} (hr : BaseRepr I r) (hw : r.whole = none) (hfr : r.fract = none)
    {x : Unit'} {n : NumbersLike} {id : Bytes} {q : Multiplier} (hn : TablesOk env → NumeralsOk n env.units)
    (hid : n id = some q) (hx : IsUnit env.units x) :
    Parses env (withUnit { r with numeral := some q } (some x)) := by
  have ok : TablesOk env → ∃ a m', q.checkedMul x.1.multiplier = some a ∧ a.checkedMul x.2 = some m' := by
    intro ht
    obtain ⟨id', m, h1, h2⟩ := hx
    obtain ⟨a, ha, hb, hb'⟩ := hn ht id q hid id' x.1 m h1
    have : ∃ m', a.checkedMul x.2 = some m' := by
      rw [← Option.isSome_iff_exists]
      rcases h2 with h2 | h2 <;> rw [h2] <;> assumption
    obtain ⟨m', hm'⟩ := this
    exact ⟨a, m', ha, hm'⟩
  cases ha : q.checkedMul x.1.multiplier with
  | none =>
    refine Or.inr ⟨fun ht => ?_, ?_⟩
    · obtain ⟨a, m', h1, -⟩ := ok ht
      rw [ha] at h1; cases h1
    · unfold DurationRepr.parse withUnit
      simp only [hr.finite, hw, hfr, Bool.false_eq_true, if_false, Option.isNone_none, Bool.and_self,
        if_true, Multiplier.mul, unwrap, ok_bind, ha]
      rfl
  | some a =>
    cases hm : a.checkedMul x.2 with
    | none =>
      refine Or.inr ⟨fun ht => ?_, ?_⟩
      · obtain ⟨a', m', h1, h2⟩ := ok ht
        rw [ha] at h1; cases h1
        rw [hm] at h2; cases h2
      · unfold DurationRepr.parse withUnit
        simp only [hr.finite, hw, hfr, Bool.false_eq_true, if_false, Option.isNone_none, Bool.and_self,
          if_true, Multiplier.mul, unwrap, ok_bind, ha, hm]
        rfl
    | some m' =>
      refine Or.inl ?_
      rw [parses_numeral hr.finite hw hfr ha hm]
      exact fixedNumber_wf _ _ _ (checkedMul_isI64 hm).1

theorem parseNumeralWord_safe (he : EnvOk env) (mode : Mode) {r : DurationRepr} (hr : BaseRepr I r)
    (hw : r.whole = none) (hfr : r.fract = none) (hc : Inv I c) {p : Nat} (hp : p ≤ c.pos) :
    Safe I.length (parseNumeralWord mode env r c) (OutOk I p (Parses env)) := by
  unfold parseNumeralWord
  refine (parseNumeral_safe he hc).bind ?_
  rintro ⟨q, c1⟩ ⟨h1, h2, h3⟩
  simp only at h1 h2 h3 ⊢
  cases q with
  | none =>
    unfold afterNumeral
    rw [h1.getRemainderStr, ok_bind]
    trivial
  | some q =>
    obtain ⟨id, q⟩ := q
    obtain ⟨hs, n, id', hn, hid⟩ := h3 _ rfl
    obtain ⟨b, hb⟩ := Option.isSome_iff_exists.mp hs
    unfold afterNumeral
    refine (parseTimeUnit_safe he mode h1 hb).bind ?_
    rintro ⟨u, c2⟩ ⟨g1, g2, g3⟩
    simp only at g1 g2 g3 ⊢
    cases u with
    | none =>
      unfold numeralUnit
      simp only
      split <;> exact g1.pos
    | some x =>
      unfold numeralUnit
      exact finalize_safe he.cfg mode (parses_numeral_ok hr hw hfr (fun ht => ht.numerals n hn) hid (g3.2 x rfl).2) g1
        (by have := (g3.2 x rfl).1; omega)

theorem parseUnitWord_safe (he : EnvOk env) (mode : Mode) {r : DurationRepr} (hr : BaseRepr I r)
    (hw : r.whole = none) (hfr : r.fract = none) (hc : Inv I c) {b : UInt8} (hb : c.cur = some b)
    {p : Nat} (hp : p ≤ c.pos) :
    Safe I.length (parseUnitWord mode env r c) (OutOk I p (Parses env)) := by
  unfold parseUnitWord
  by_cases h : env.cfg.numberIsOptional = true
  · rw [if_pos h]
    refine (parseTimeUnit_safe he mode hc hb).bind ?_
    rintro ⟨u, c1⟩ ⟨h1, h2, h3⟩
    simp only at h1 h2 h3 ⊢
    cases u with
    | none => exact parseNumeralWord_safe he mode hr hw hfr (hc.reset h1) hp
    | some x =>
      exact finalize_safe he.cfg mode (parses_word_ok hr hw hfr (fun ht => (h3.2 x rfl).2.mul ht.units)) h1
        (by have := (h3.2 x rfl).1; omega)
  · rw [if_neg h]
    exact parseNumeralWord_safe he mode hr hw hfr hc hp

theorem cur_of_pos {c' : Cursor} (hc : Inv I c) (hc' : Inv I c') (h : c'.pos = c.pos) : c'.cur = c.cur := by
  unfold Cursor.cur
  rw [hc.input, hc'.input, h]

theorem parseWord_safe (he : EnvOk env) (mode : Mode) {r : DurationRepr} (hr : BaseRepr I r)
    (hw : r.whole = none) (hfr : r.fract = none) (hc : Inv I c) {b : UInt8} (hb : c.cur = some b)
    {p : Nat} (hp : p ≤ c.pos) :
    Safe I.length (parseWord mode env r c) (OutOk I p (Parses env)) := by
  unfold parseWord
  refine (parseKeyword_safe he mode hc hb).bind ?_
  rintro ⟨u, c1⟩ ⟨h1, h2, h3, h4⟩
  simp only at h1 h2 h3 h4 ⊢
  cases u with
  | none =>
    exact parseUnitWord_safe he mode hr hw hfr h1 (by rw [cur_of_pos hc h1 (h3 rfl)]; exact hb) (by omega)
  | some x =>
    obtain ⟨g1, k, hk, g2⟩ := h4 x rfl
    exact finalize_safe he.cfg mode (parses_word_ok hr hw hfr (fun ht => g2.mul (ht.keywords k hk))) h1 (by omega)

theorem parseWhole_safe (he : EnvOk env) (mode : Mode) {r : DurationRepr} (hr : BaseRepr I r)
    (hc : Inv I c) {b : UInt8} (hb : c.cur = some b) (hd : isDigit b = true) {p : Nat} (hp : p ≤ c.pos) :
    Safe I.length (parseWhole mode env r c) (OutOk I p (Parses env)) := by
  unfold parseWhole
  rw [Cursor.parseDigitsStripZeros_eq c hc.pos' b hb hd, ok_bind]
  have := digits_pos hb hd
  have hr' : BaseRepr I { r with whole := some ⟨c.pos + Cursor.zeros c.digits, c.pos + c.digits.length⟩ } :=
    ⟨hr.input, hr.finite, hr.unit, hr.multiplier, rangeOk_digits hc _ (Cursor.zeros_le _), hr.fract, hr.numeral⟩
  refine parseAfterWhole_safe he mode hr' (inv_digits hc) (p := p) ?_ (Or.inl ⟨rfl, ?_⟩)
  · show p ≤ c.pos + _
    omega
  · show p < c.pos + _
    omega

theorem inf_valid : utf8Valid (b! "inf") = true := by decide

theorem parseBody_safe (he : EnvOk env) (mode : Mode) {r : DurationRepr} (hr : BaseRepr I r)
    (hw : r.whole = none) (hfr : r.fract = none) (hc : Inv I c) {p : Nat} (hp : p ≤ c.pos) :
    Safe I.length (parseBody mode env r c) (OutOk I p (Parses env)) := by
  unfold parseBody
  cases hb : c.cur with
  | none => exact hc.pos
  | some b =>
    simp only
    by_cases hd : isDigit b = true
    · rw [if_pos hd]; exact parseWhole_safe he mode hr hc hb hd hp
    · rw [if_neg hd]
      by_cases h46 : b = 46
      · rw [if_pos h46]
        exact parseAfterWhole_safe he mode hr hc hp (Or.inr (by rw [hb, h46]))
      · rw [if_neg h46]
        by_cases hi : (!env.cfg.disableInfinity && c.nextIs (b! "inf")) = true
        · rw [if_pos hi]
          simp only [Bool.and_eq_true] at hi
          refine parseInfinityRemainder_safe he.cfg mode (parses_infinite r)
            (Cursor.nextIs_inv inf_valid hc hi.2) ?_ ?_
          · show p < c.pos + 3
            omega
          · show 3 ≤ c.pos + 3
            omega
        · rw [if_neg hi]; exact parseWord_safe he mode hr hw hfr hc hb hp

theorem templateParse_safe (he : EnvOk env) (mode : Mode) (hc : Inv I c) (hs : c.cur.isSome = true) :
    Safe I.length (templateParse mode env c) (OutOk I c.pos (Parses env)) := by
  obtain ⟨b, hb⟩ := Option.isSome_iff_exists.mp hs
  unfold templateParse
  rw [hb]
  refine (parseNumberSign_safe he.cfg hc hb).bind ?_
  rintro ⟨neg, c1⟩ ⟨h1, h2, h3⟩
  exact parseBody_safe he mode ⟨h1.input, rfl, rfl, rfl, rangeOk_none I, rangeOk_none I, rfl⟩ rfl rfl h1 h2

/-! ## Parser -/

/-- like `Safe`, but the overflow of a product of multipliers is possible unless there is none in the tables -/
def SafeIn {α} (env : Env) (n : Nat) (x : R α) (Q : α → Prop) : Prop :=
  Safe n x Q ∨ (¬ TablesOk env ∧ x = panic .unwrap)

theorem SafeIn.bind {α β} {n : Nat} {x : R α} {f : α → R β} {P : α → Prop} {Q : β → Prop} (hx : SafeIn env n x P)
    (hf : ∀ a, P a → SafeIn env n (f a) Q) : SafeIn env n (x >>= f) Q := by
  rcases hx with hx | ⟨h1, h2⟩
  · match x, hx with
    | .ok a, hx => exact hf a hx
    | .error (.err e), hx => exact Or.inl hx
    | .error (.panic p), hx => exact hx.elim
  · exact Or.inr ⟨h1, by rw [h2]; rfl⟩

theorem parseRepr_safe {n : Nat} (cfg : Config) {r : DurationRepr} (h : Parses env r) :
    SafeIn env n (parseRepr cfg r) Duration.WF := by
  unfold parseRepr
  rcases h with ⟨d, h1, h2⟩ | ⟨h1, h2⟩
  · rw [h1, liftP_ok, ok_bind]
    by_cases hr : rejectNegative cfg d = true
    · rw [if_pos hr]; exact Or.inl trivial
    · rw [if_neg hr]; exact Or.inl h2
  · rw [h2]; exact Or.inr ⟨h1, rfl⟩

theorem accumulate_safe {n : Nat} {d p : Duration} (hd : d.WF) (hp : p.WF) :
    Safe n (accumulate d p) Duration.WF := by
  unfold accumulate
  by_cases h1 : p.isZero = true
  · rw [if_pos h1]; exact hd
  · rw [if_neg h1]
    by_cases h2 : d.isZero = true
    · rw [if_pos h2]; exact hp
    · rw [if_neg h2]
      obtain ⟨s, hs, hw, -⟩ := Props.C02_saturating_add d p hd hp
      rw [hs, liftP_ok]; exact hw

theorem parseMultipleLoop_safe (he : EnvOk env) (fuel : Nat) (d : Duration) (hd : d.WF) (hc : Inv I c)
    (hs : c.cur.isSome = true) (hf : I.length < c.pos + fuel) :
    SafeIn env I.length (parseMultipleLoop env fuel d c) Duration.WF := by
  induction fuel generalizing d c with
  | zero => have := hc.pos; omega
  | succ fuel ih =>
    unfold parseMultipleLoop
    refine SafeIn.bind (Or.inl (templateParse_safe he .multiple hc hs)) ?_
    rintro ⟨r, next⟩ ⟨h1, h2⟩
    simp only at h1 h2 ⊢
    refine (parseRepr_safe env.cfg h1).bind ?_
    intro p hp
    refine SafeIn.bind (Or.inl (accumulate_safe hd hp)) ?_
    intro d' hd'
    cases next with
    | none => exact Or.inl hd'
    | some c' =>
      obtain ⟨g1, g2, g3⟩ := h2 c' rfl
      exact ih d' hd' g1 g3 (by omega)

theorem parseWith_safe (he : EnvOk env) (hI : utf8Valid I = true) (hne : I ≠ []) :
    SafeIn env I.length (parseWith env I) Duration.WF := by
  have hs : (Cursor.new I).cur.isSome = true := by
    cases I with
    | nil => exact absurd rfl hne
    | cons a l => rfl
  unfold parseWith
  by_cases hm : env.cfg.allowMultiple = true
  · rw [if_pos hm]
    exact parseMultipleLoop_safe he _ _ (by decide) (Inv.new hI) hs (by show _ < 0 + _; omega)
  · rw [if_neg hm]
    unfold parseSingle
    refine SafeIn.bind (Or.inl (templateParse_safe he .single (Inv.new hI) hs)) ?_
    rintro ⟨r, next⟩ ⟨h1, -⟩
    exact parseRepr_safe env.cfg h1

theorem parseWith_empty (env : Env) : parseWith env [] = fail .empty := by
  unfold parseWith
  split <;> rfl

end
end Fundu
