import Verif.Proofs.CostDigits
/-! # Each digit which is converted was read before -/
namespace Fundu.Cost
open Fundu

variable {α β : Type}

/-- `P` holds for the value of `x`, if any, and the number of steps -/
def Gives (x : T α) (P : α → Nat → Prop) : Prop := ∀ a, x.res = .ok a → P a x.cost

namespace Gives
variable {x : T α} {P P' : α → Nat → Prop}

theorem mono (h : Gives x P) (hP : ∀ a k, P a k → P' a k) : Gives x P' := fun a ha => hP a _ (h a ha)
theorem ok {a : α} (h : P a 0) : Gives (T.ok a) P := fun b hb => by cases hb; exact h
theorem pure {a : α} (h : P a 0) : Gives (Pure.pure a : T α) P := ok h
theorem fail {e : ParseError} : Gives (Cost.fail e : T α) P := fun b hb => by cases hb
theorem panic {e : Panic} : Gives (Cost.panic e : T α) P := fun b hb => by cases hb
theorem lift {y : R α} (h : ∀ a, y = .ok a → P a 0) : Gives (Cost.lift y) P := h
theorem charge {n : Nat} (h : Gives x (fun a k => P a (n + k))) : Gives (Cost.charge n x) P := h
theorem any : Gives x (fun _ _ => True) := fun _ _ => trivial

theorem bind {f : α → T β} {Q : β → Nat → Prop} (h : Gives x P) (hf : ∀ a k, P a k → Gives (f a) (fun b m => Q b (k + m))) :
    Gives (x >>= f) Q := by
  intro b hb
  have hb : (T.bind x f).res = .ok b := hb
  show Q b (T.bind x f).cost
  unfold T.bind at hb ⊢
  cases hx : x.res with
  | error e => rw [hx] at hb; cases hb
  | ok a =>
    rw [hx] at hb
    exact hf a _ (h a hx) b hb

theorem ite {p : Prop} [Decidable p] {y : T α} (h1 : p → Gives x P) (h2 : ¬ p → Gives y P) : Gives (if p then x else y) P := by
  by_cases h : p
  · rw [if_pos h]; exact h1 h
  · rw [if_neg h]; exact h2 h
end Gives

/-! ## The reader -/

theorem parse8_gives (c : Cursor) : Gives (parse8 c) (fun o k => k = 8 ∧ ∀ n c', o = some (n, c') → c' = c.advanceBy 8) := by
  refine Gives.charge (Gives.lift fun o ho => ⟨rfl, ?_⟩)
  rintro n c' rfl
  unfold Cursor.parse8 at ho
  cases hp : c.peek 8 with
  | none => rw [hp] at ho; cases ho
  | some d =>
    rw [hp] at ho
    dsimp only at ho
    cases hr : (liftP (readU64 d) : R Nat) with
    | error e => rw [hr] at ho; cases ho
    | ok num =>
      rw [hr, ok_bind] at ho
      split at ho
      · cases ho; rfl
      · cases ho

theorem skipBlocks_gives (fuel : Nat) (c : Cursor) : Gives (skipBlocks fuel c) (fun c' k => c'.pos ≤ c.pos + k) := by
  induction fuel generalizing c with
  | zero =>
    unfold skipBlocks
    refine Gives.bind (parse8_gives c) ?_
    rintro (_ | ⟨n, c'⟩) k ⟨rfl, h⟩
    · exact Gives.pure (by omega)
    · exact Gives.panic
  | succ fuel ih =>
    unfold skipBlocks
    refine Gives.bind (parse8_gives c) ?_
    rintro (_ | ⟨n, c'⟩) k ⟨rfl, h⟩
    · exact Gives.pure (by omega)
    · have e := h n c' rfl
      subst e
      refine Gives.mono (ih _) fun c' k hk => ?_
      have : (c.advanceBy 8).pos = c.pos + 8 := rfl
      omega

theorem skipDigits_gives (fuel : Nat) (c : Cursor) : Gives (skipDigits fuel c) (fun c' k => c'.pos ≤ c.pos + k) := by
  have step : ∀ {c c' : Cursor}, c.parseDigit = some c' → c'.pos = c.pos + 1 := by
    intro c c' h
    unfold Cursor.parseDigit at h
    cases hc : c.cur with
    | none => rw [hc] at h; cases h
    | some b =>
      rw [hc] at h
      dsimp only at h
      split at h
      · cases h; rfl
      · cases h
  induction fuel generalizing c with
  | zero =>
    unfold skipDigits
    refine Gives.charge ?_
    cases h : c.parseDigit with
    | none => exact Gives.ok (by omega)
    | some c' => exact Gives.panic
  | succ fuel ih =>
    unfold skipDigits
    refine Gives.charge ?_
    cases h : c.parseDigit with
    | none => exact Gives.ok (by omega)
    | some c' => exact Gives.mono (ih c') fun c2 k hk => by have := step h; omega

theorem parseDigits_gives (c : Cursor) : Gives (parseDigits c) (fun o k => o.1.stop - o.1.start ≤ k) := by
  unfold parseDigits
  refine Gives.bind (P := fun _ k => k = 0) (Gives.lift fun _ _ => rfl) ?_
  rintro _ _ rfl
  refine Gives.bind (skipBlocks_gives _ c) ?_
  rintro c1 k hk
  refine Gives.bind (skipDigits_gives _ c1) ?_
  rintro c2 m hm
  exact Gives.pure (by show c2.pos - c.pos ≤ _; omega)

theorem stripBlocks_gives (fuel start : Nat) (strip : Bool) (c : Cursor) :
    Gives (stripBlocks fuel start strip c) (fun o k => start ≤ o.1 ∧ o.2.2.pos ≤ c.pos + k) := by
  induction fuel generalizing start strip c with
  | zero =>
    unfold stripBlocks
    refine Gives.bind (parse8_gives c) ?_
    rintro (_ | ⟨n, c'⟩) k ⟨rfl, h⟩
    · exact Gives.pure ⟨Nat.le_refl _, by dsimp only; omega⟩
    · exact Gives.panic
  | succ fuel ih =>
    unfold stripBlocks
    refine Gives.bind (parse8_gives c) ?_
    rintro (_ | ⟨n, c'⟩) k ⟨rfl, h⟩
    · exact Gives.pure ⟨Nat.le_refl _, by dsimp only; omega⟩
    · have e := h n c' rfl
      subst e
      have hp : (c.advanceBy 8).pos = c.pos + 8 := rfl
      dsimp only
      refine Gives.ite (fun _ => Gives.ite (fun _ => ?_) (fun _ => ?_)) (fun _ => ?_)
      · exact Gives.mono (ih _ _ _) fun o k ho => ⟨by omega, by omega⟩
      · refine Gives.bind (P := fun _ k => k = 0) (Gives.lift fun _ _ => rfl) ?_
        rintro d _ rfl
        exact Gives.mono (ih _ _ _) fun o k ho => ⟨by omega, by omega⟩
      · exact Gives.mono (ih _ _ _) fun o k ho => ⟨by omega, by omega⟩

theorem stripEach_gives (fuel start : Nat) (strip : Bool) (c : Cursor) :
    Gives (stripEach fuel start strip c) (fun o k => start ≤ o.1 ∧ o.2.pos ≤ c.pos + k) := by
  induction fuel generalizing start strip c with
  | zero =>
    unfold stripEach
    refine Gives.charge ?_
    cases c.cur with
    | none => exact Gives.ok ⟨Nat.le_refl _, by dsimp only; omega⟩
    | some b => exact Gives.ite (fun _ => Gives.panic) (fun _ => Gives.ok ⟨Nat.le_refl _, by dsimp only; omega⟩)
  | succ fuel ih =>
    unfold stripEach
    refine Gives.charge ?_
    have hp : c.advance.pos = c.pos + 1 := rfl
    cases c.cur with
    | none => exact Gives.ok ⟨Nat.le_refl _, by dsimp only; omega⟩
    | some b =>
      refine Gives.ite (fun _ => ?_) (fun _ => Gives.ok ⟨Nat.le_refl _, by dsimp only; omega⟩)
      refine Gives.ite (fun _ => ?_) (fun _ => ?_)
      · exact Gives.mono (ih _ _ _) fun o k ho => ⟨by omega, by omega⟩
      · exact Gives.mono (ih _ _ _) fun o k ho => ⟨by omega, by omega⟩

theorem parseDigitsStripZeros_gives (c : Cursor) : Gives (parseDigitsStripZeros c) (fun o k => o.1.stop - o.1.start ≤ k) := by
  unfold parseDigitsStripZeros
  refine Gives.bind (P := fun _ k => k = 0) (Gives.lift fun _ _ => rfl) ?_
  rintro _ _ rfl
  refine Gives.bind (stripBlocks_gives _ _ _ c) ?_
  rintro ⟨s, t, c1⟩ k hk
  dsimp only at hk
  refine Gives.bind (stripEach_gives _ _ _ c1) ?_
  rintro ⟨s2, c2⟩ m hm
  dsimp only at hm
  exact Gives.pure (by show c2.pos - s2 ≤ _; omega)

/-! ## The template -/

/-- the digits of the result are `n` digits and not more than one digit for each step -/
def Digs (n : Nat) (x : T Output) : Prop := Gives x (fun o k => digits o.1 ≤ n + k)

namespace Digs
variable {n : Nat}

theorem skip {x : T α} {f : α → T Output} (hf : ∀ a, Digs n (f a)) : Digs n (x >>= f) :=
  Gives.bind Gives.any fun a k _ => Gives.mono (hf a) fun o m hm => by omega

theorem pure {o : Output} (h : digits o.1 ≤ n) : Digs n (Pure.pure o) := Gives.pure (by omega)
theorem ok {o : Output} (h : digits o.1 ≤ n) : Digs n (T.ok o) := Gives.pure (by omega)
end Digs

variable {mode : Mode} {env : Env} {cfg : Config}

theorem digits_unit (r : DurationRepr) (u : Option Unit') : digits (withUnit r u) = digits r := by
  cases u <;> rfl

theorem digits_output (mode : Mode) (r : DurationRepr) (c : Cursor) : digits (makeOutput mode r c).1 = digits r := by
  cases mode <;> rfl

theorem finalize_digs (mode : Mode) (cfg : Config) (r : DurationRepr) (c : Cursor) : Digs (digits r) (finalize mode cfg r c) := by
  cases mode with
  | single => exact Digs.skip fun _ => Digs.pure (Nat.le_refl _)
  | multiple =>
    show Digs _ (finalizeMultiple cfg r c)
    unfold finalizeMultiple
    cases c.cur with
    | none => exact Digs.ok (Nat.le_refl _)
    | some b => exact Gives.ite (fun _ => Digs.skip fun _ => Digs.pure (Nat.le_refl _)) (fun _ => Digs.ok (Nat.le_refl _))

theorem finalize_unit (mode : Mode) (cfg : Config) (r : DurationRepr) (u : Option Unit') (c : Cursor) :
    Digs (digits r) (finalize mode cfg (withUnit r u) c) := by
  have := finalize_digs mode cfg (withUnit r u) c
  rwa [digits_unit] at this

theorem output_digs (mode : Mode) (r : DurationRepr) (c : Cursor) : Digs (digits r) (Pure.pure (makeOutput mode r c)) :=
  Digs.pure (Nat.le_of_eq (digits_output mode r c))

theorem infinity_digs (mode : Mode) (cfg : Config) (r : DurationRepr) (c : Cursor) : Digs (digits r) (parseInfinityRemainder mode cfg r c) := by
  have hr : digits { r with isInfinite := true } = digits r := rfl
  rw [← hr]
  cases mode with
  | single =>
    show Digs _ (infinitySingle { r with isInfinite := true } c)
    unfold infinitySingle
    cases c.cur with
    | none => exact Digs.ok (Nat.le_refl _)
    | some b => exact Digs.skip fun _ => Digs.skip fun _ => Digs.pure (Nat.le_refl _)
  | multiple =>
    show Digs _ (infinityMultiple cfg { r with isInfinite := true } c)
    unfold infinityMultiple
    cases c.cur with
    | none => exact Digs.ok (Nat.le_refl _)
    | some b =>
      refine Gives.ite (fun _ => Digs.skip fun _ => Digs.pure (Nat.le_refl _)) (fun _ => Digs.skip fun c' => ?_)
      unfold afterInfinity
      cases c'.cur with
      | none => exact Digs.ok (Nat.le_refl _)
      | some b => exact Gives.ite (fun _ => Digs.skip fun _ => Digs.pure (Nat.le_refl _)) (fun _ => Gives.fail)

theorem numeral_digs (r : DurationRepr) (c : Cursor) : Digs (digits r) (parseNumeralWord mode env r c) := by
  unfold parseNumeralWord
  refine Digs.skip ?_
  rintro ⟨o, c1⟩
  cases o with
  | none => exact Digs.skip fun _ => Gives.fail
  | some p =>
    refine Digs.skip ?_
    rintro ⟨u, c2⟩
    cases u with
    | some u => exact finalize_unit mode env.cfg { r with numeral := some p.2 } (some u) c2
    | none => exact Gives.ite (fun _ => Gives.fail) (fun _ => Gives.fail)

theorem word_digs (r : DurationRepr) (c : Cursor) : Digs (digits r) (parseWord mode env r c) := by
  unfold parseWord
  refine Digs.skip ?_
  rintro ⟨k, c1⟩
  cases k with
  | some u => exact finalize_unit mode env.cfg r (some u) c1
  | none =>
    show Digs _ (parseUnitWord mode env r c1)
    unfold parseUnitWord
    refine Gives.ite (fun _ => ?_) (fun _ => numeral_digs r c1)
    refine Digs.skip ?_
    rintro ⟨u, c2⟩
    cases u with
    | some u => exact finalize_unit mode env.cfg r (some u) c2
    | none => exact numeral_digs r _

theorem delimiterPart_digs (r : DurationRepr) (c : Cursor) : Digs (digits r) (parseDelimiterPart mode env r c) := by
  unfold parseDelimiterPart
  refine Digs.skip ?_
  rintro ⟨go, c1⟩
  refine Gives.ite (fun _ => output_digs mode r c1) (fun _ => ?_)
  unfold parseUnitPart
  refine Digs.skip ?_
  rintro ⟨go, u, c2⟩
  exact Gives.ite (fun _ => output_digs mode r c2) (fun _ => finalize_unit mode env.cfg r u c2)

theorem exponentPart_digs (r : DurationRepr) (c : Cursor) : Digs (digits r) (parseExponentPart mode env r c) := by
  unfold parseExponentPart
  refine Digs.skip ?_
  rintro ⟨go, e, c1⟩
  exact Gives.ite (fun _ => output_digs mode { r with exponent := e } c1) (fun _ => delimiterPart_digs { r with exponent := e } c1)

theorem parseNumberFraction_gives (w : Option Range) (dis : Bool) (c : Cursor) :
    Gives (parseNumberFraction w dis c) (fun o k => optDigits o.2.1 ≤ k) := by
  unfold parseNumberFraction
  cases c.cur with
  | none => exact Gives.ok (Nat.le_refl _)
  | some b =>
    refine Gives.ite (fun _ => Gives.ite (fun _ => Gives.fail) (fun _ => ?_)) (fun _ => Gives.ok (Nat.le_refl _))
    unfold fractionDigits
    have e : ∀ p, optDigits (some ⟨p, p⟩) ≤ 0 := fun p => Nat.le_of_eq (Nat.sub_self p)
    have f : Gives (do
      let pos ← lift (liftP (subUsize c.advance.pos 1))
      fail (.syntax pos .wholeOrFractionMustBePresent) : T (Bool × Option Range × Cursor)) (fun o k => optDigits o.2.1 ≤ k) :=
      Gives.bind Gives.any fun _ _ _ => Gives.fail
    cases c.advance.cur with
    | none => exact Gives.ite (fun _ => f) (fun _ => Gives.ok (e _))
    | some b =>
      refine Gives.ite (fun _ => ?_) (fun _ => Gives.ite (fun _ => f) (fun _ => Gives.ok (e _)))
      refine Gives.bind (parseDigits_gives _) ?_
      rintro ⟨r, c'⟩ k hk
      exact Gives.pure (by show r.stop - r.start ≤ k + 0; dsimp only at hk; omega)

theorem afterWhole_digs (r : DurationRepr) (c : Cursor) : Digs (optDigits r.whole) (parseAfterWhole mode env r c) := by
  unfold parseAfterWhole
  refine Gives.bind (parseNumberFraction_gives _ _ c) ?_
  rintro ⟨go, f, c1⟩ k hk
  have hk : optDigits f ≤ k := hk
  have e : digits { r with fract := f } = optDigits r.whole + optDigits f := rfl
  refine Gives.ite (fun _ => ?_) (fun _ => ?_)
  · exact Gives.mono (output_digs mode { r with fract := f } c1) fun o m hm => by omega
  · exact Gives.mono (exponentPart_digs { r with fract := f } c1) fun o m hm => by omega

theorem templateParse_digs (mode : Mode) (env : Env) (c : Cursor) : Digs 0 (templateParse mode env c) := by
  unfold templateParse
  refine Gives.charge ?_
  cases c.cur with
  | none => exact Gives.fail
  | some b =>
    refine Gives.bind Gives.any ?_
    rintro ⟨neg, c1⟩ k _
    have key : Digs 0 (parseBody mode env { defaultUnit := env.cfg.defaultUnit, input := c1.input, isNegative := neg } c1) := by
      unfold parseBody
      cases c1.cur with
      | none => exact Gives.fail
      | some b =>
        refine Gives.ite (fun _ => ?_) (fun _ => Gives.ite (fun _ => ?_) (fun _ => Gives.charge ?_))
        · unfold parseWhole
          refine Gives.bind (parseDigitsStripZeros_gives c1) ?_
          rintro ⟨w, c2⟩ k hk
          have hk : optDigits (some w) ≤ k := hk
          exact Gives.mono (afterWhole_digs { whole := some w, defaultUnit := env.cfg.defaultUnit, input := c1.input, isNegative := neg } c2)
            fun o m hm => by dsimp only at hm; omega
        · exact afterWhole_digs { defaultUnit := env.cfg.defaultUnit, input := c1.input, isNegative := neg } c1
        · refine Gives.ite (fun _ => ?_) (fun _ => ?_)
          · exact Gives.mono (infinity_digs mode env.cfg { defaultUnit := env.cfg.defaultUnit, input := c1.input, isNegative := neg } _)
              fun o m (hm : digits o.1 ≤ 0 + 0 + m) => by omega
          · exact Gives.mono (word_digs { defaultUnit := env.cfg.defaultUnit, input := c1.input, isNegative := neg } c1)
              fun o m (hm : digits o.1 ≤ 0 + 0 + m) => by omega
    exact Gives.mono key fun o m hm => by omega

end Fundu.Cost
