import Verif.Proofs.ListSim
/-! # Words: the parser on cursors agrees with the parser on texts -/
namespace Fundu
open Spec Cursor

variable {I : Bytes} {p : Nat} {c : Cursor} {s : Bytes} {cfg : Config} {env : Env}

theorem Agrees.map' {α β γ δ} {Q : α → β → Prop} {P : γ → δ → Prop} {x : R α} {y : Option β} {f : α → R γ}
    {g : β → δ} (h : Agrees Q x y) (hf : ∀ a b, y = Option.some b → Q a b → Agrees P (f a) (Option.some (g b))) :
    Agrees P (x >>= f) (y.map g) := by
  match x, y, h with
  | .ok a, .some b, h => exact hf a b rfl h
  | .error e, .none, _ => exact trivial

theorem Agrees.bind' {α β γ δ} {Q : α → β → Prop} {P : γ → δ → Prop} {x : R α} {y : Option β} {f : α → R γ}
    {g : β → Option δ} (h : Agrees Q x y) (hf : ∀ a b, y = Option.some b → Q a b → Agrees P (f a) (g b)) :
    Agrees P (x >>= f) (y.bind g) := by
  match x, y, h with
  | .ok a, .some b, h => exact hf a b rfl h
  | .error e, .none, _ => exact trivial

theorem At.reset {c' : Cursor} {q : Nat} {t : Bytes} (h : At I p c s) (h' : At I q c' t) : At I p (c'.reset c.pos) s := by
  refine ⟨h.inv.reset h'.inv, ?_, h.pos⟩
  rw [← h.rest]
  unfold Cursor.rest Cursor.reset
  rw [h.inv.input, h'.inv.input]

theorem At.finish (h : At I p c s) : At I (p + s.length) c.finish [] := by
  refine ⟨h.inv.finish, rest_finish c, ?_⟩
  have h1 := h.inv.restLength
  rw [h.rest] at h1
  have h2 := h.inv.pos
  have h3 := h.pos
  show p + s.length ≤ c.input.length
  rw [h.inv.input]
  omega

/-- results of looking for a word -/
def WordAt {α : Type} (I : Bytes) (p : Nat) (o : Option α × Cursor) (o' : Option α × Bytes) : Prop :=
  o.1 = o'.1 ∧ At I p o.2 o'.2 ∧ (o'.1.isSome = true → 1 ≤ o.2.pos)

theorem lookupRemainder_at (t : TimeUnitsLike) (h : At I p c s) (hs : s ≠ []) :
    Agrees (WordAt I p) (lookupRemainder t c) (L.lookup t s) := by
  unfold lookupRemainder L.lookup
  rw [h.inv.getRemainderStrUnchecked, ok_bind, h.rest]
  cases t.get s with
  | none => exact ⟨rfl, h, (fun h => by cases h)⟩
  | some u =>
    have := List.length_pos_iff.mpr hs
    have h' := h.finish
    exact ⟨rfl, h'.le (by omega), fun _ => by have := h'.pos; show 1 ≤ c.finish.pos; omega⟩

theorem scan_eq (hsc : env.scan = fun d c => c.advanceTo d) (d : Delimiter) (h : At I p c s) :
    env.scan d c = .ok (L.word d s, c.advanceBy (L.word d s).length) := by
  rw [hsc]
  show c.advanceTo d = _
  rw [advanceTo_eq d c h.pos', h.word_eq]

theorem word_pos {d : Delimiter} (hw : ¬ (L.word d s).isEmpty = true) : L.word d s ≠ [] ∧ 0 < (L.word d s).length := by
  have := isEmpty_false_length hw
  exact ⟨List.length_pos_iff.mp this, this⟩

theorem isEmpty_nil {l : Bytes} (h : l.isEmpty = true) : l = [] := by cases l <;> simp_all

theorem keyword_at (ho : CfgOk env.cfg) (hsc : env.scan = fun d c => c.advanceTo d) (mode : Mode) (h : At I p c s)
    (hs : s ≠ []) : Agrees (WordAt I p) (parseKeyword mode env c) (L.keyword mode env.cfg env.keywords s) := by
  unfold parseKeyword L.keyword
  cases env.keywords with
  | none => exact ⟨rfl, h, (fun h => by cases h)⟩
  | some k =>
    simp only
    cases mode with
    | single => exact lookupRemainder_at k h hs
    | multiple =>
      simp only
      unfold parseKeywordMultiple L.keywordMultiple
      rw [scan_eq hsc _ h, ok_bind]
      simp only
      by_cases hw : (L.word (wordEnd env.cfg) s).isEmpty = true
      · rw [if_pos hw, if_pos (isEmpty_nil hw), isEmpty_nil hw]
        exact ⟨rfl, h, (fun h => by cases h)⟩
      · obtain ⟨h1, h2⟩ := word_pos hw
        rw [if_neg hw, if_neg h1, utf8Unchecked_ok (h.word_valid (wordEnd_ascii ho)), ok_bind]
        have h3 := h.afterWord (wordEnd_ascii ho)
        cases k.get (L.word (wordEnd env.cfg) s) with
        | none =>
          exact ⟨rfl, h.reset h3, (fun h => by cases h)⟩
        | some u =>
          simp only [keywordFound, L.unitFound, L.keywordTail]
          refine (conn_sim ho h3 (by omega)).map ?_
          intro c' t h'
          exact ⟨rfl, h'.le (by omega), fun _ => by have := h'.pos; show 1 ≤ c'.pos; omega⟩

theorem agoSingle_at {start : Cursor} {q : Nat} {S : Bytes} (ho : CfgOk cfg) (h : At I p c s) (hp : 1 ≤ p)
    (hstart : At I q start S) (hq : q ≤ p) (hd : s ≠ [] → L.headIs cfg.innerDelimiter s = true) (u : Unit') :
    Agrees (WordAt I q) (agoSingle cfg start u c) (L.agoSingle cfg S u s) := by
  unfold agoSingle L.agoSingle
  cases hs : s with
  | nil =>
    subst hs
    rw [h.nil, if_pos rfl]
    exact ⟨rfl, h.le hq, fun _ => by have := h.pos; show 1 ≤ c.pos; omega⟩
  | cons b l =>
    rw [← hs]
    have hne : s ≠ [] := by rw [hs]; simp
    have hc : c.cur = some b := by rw [hs] at h; exact h.cons
    rw [hc, if_neg hne]
    simp only
    refine (skipDelims_sim ho.inner h hp (hd hne)).bind ?_
    intro c' t h'
    rw [h'.nextIs]
    split
    · rename_i hn
      have h3 := h'.skip ago_valid hn
      have e : (b! "ago" : Bytes).length = 3 := rfl
      rw [e] at h3
      exact ⟨rfl, h3.le (by omega), fun _ => by have := h3.pos; show 1 ≤ (c'.advanceBy 3).pos; omega⟩
    · exact ⟨rfl, hstart.reset h', (fun h => by cases h)⟩

theorem afterWord_head (d : Delimiter) (s : Bytes) (h : L.afterWord d s ≠ []) : L.headIs d (L.afterWord d s) = true := by
  have := headIs_dropWhile (fun b => !d b) s
  unfold L.afterWord at *
  cases hx : s.dropWhile (fun b => !d b) with
  | nil => exact absurd hx h
  | cons b l =>
    rw [hx] at this
    simp only [L.headIs] at *
    simpa using this

theorem assertSome_ok (h : At I p c s) (hs : s ≠ []) : assertSome c = .ok () := by
  unfold assertSome
  cases hx : s with
  | nil => exact absurd hx hs
  | cons b l => subst hx; rw [h.cons]

theorem unitSingle_at (ho : CfgOk env.cfg) (h : At I p c s) (hs : s ≠ []) :
    Agrees (WordAt I p) (parseTimeUnitSingle env c) (L.unitSingle env.cfg env.units s) := by
  unfold parseTimeUnitSingle L.unitSingle
  rw [assertSome_ok h hs, ok_bind]
  by_cases ha : env.cfg.allowAgo = true
  · rw [if_pos ha, if_pos ha]
    unfold parseTimeUnitAgo
    rw [advanceTo_eq _ c h.pos', h.word_eq, ok_bind]
    simp only
    rw [utf8Unchecked_ok (h.word_valid ho.inner), ok_bind]
    have h3 := h.afterWord ho.inner
    by_cases hw : (L.word env.cfg.innerDelimiter s).isEmpty = true
    · rw [if_pos hw, if_pos (isEmpty_nil hw), isEmpty_nil hw]
      exact ⟨rfl, h, (fun h => by cases h)⟩
    · obtain ⟨h1, h2⟩ := word_pos hw
      rw [if_neg hw, if_neg h1]
      cases env.units.get (L.word env.cfg.innerDelimiter s) with
      | none => exact ⟨rfl, h.reset h3, (fun h => by cases h)⟩
      | some u =>
        simp only [unitFoundSingle, L.unitFound]
        exact agoSingle_at ho h3 (by omega) h (by omega) (afterWord_head _ _) u
  · rw [if_neg ha, if_neg ha]
    exact lookupRemainder_at _ h hs

theorem afterAgo_at {start : Cursor} {q : Nat} {S : Bytes} (h : At I p c s) (hstart : At I q start S) (hq : q ≤ p)
    (u : Unit') : (afterAgo cfg start u c).1 = (L.afterAgo cfg S u s).1 ∧
      At I q (afterAgo cfg start u c).2 (L.afterAgo cfg S u s).2 := by
  unfold afterAgo L.afterAgo
  cases s with
  | nil =>
    rw [h.nil, if_pos (Or.inl rfl)]
    exact ⟨rfl, h.le hq⟩
  | cons b l =>
    rw [h.cons]
    simp only
    by_cases hb : (cfg.outerDelimiter b || isNextDuration b) = true
    · rw [if_pos hb, if_pos (show b :: l = [] ∨ L.headIs (wordEnd cfg) (b :: l) = true from Or.inr hb)]
      exact ⟨rfl, h.le hq⟩
    · rw [if_neg hb, if_neg (by rintro (hh | hh); · cases hh
                                · exact hb hh)]
      exact ⟨rfl, hstart.reset h⟩

theorem agoMultiple_at (ho : CfgOk cfg) (h : At I p c s) (hp : 1 ≤ p) (u : Unit') :
    Agrees (fun o o' => o.1 = o'.1 ∧ At I p o.2 o'.2) (agoMultiple cfg u c) (L.agoMultiple cfg u s) := by
  unfold agoMultiple L.agoMultiple
  cases hs : s with
  | nil =>
    subst hs
    rw [h.nil]
    simp only [L.headIs, Bool.and_false, Bool.false_eq_true, if_false]
    exact ⟨rfl, h⟩
  | cons b l =>
    have hc : c.cur = some b := by rw [hs] at h; exact h.cons
    rw [hc, ← hs]
    simp only
    have e : L.headIs cfg.innerDelimiter s = cfg.innerDelimiter b := by rw [hs]; rfl
    rw [e]
    by_cases hb : (cfg.allowAgo && cfg.innerDelimiter b) = true
    · rw [if_pos hb, if_pos hb]
      rw [Bool.and_eq_true] at hb
      refine (skipDelims_sim ho.inner h hp (by rw [e]; exact hb.2)).map ?_
      intro c' t h'
      rw [h'.nextIs]
      split
      · rename_i hn
        have h3 := h'.skip ago_valid hn
        have e : (b! "ago" : Bytes).length = 3 := rfl
        rw [e] at h3
        exact afterAgo_at h3 h (by omega) u
      · exact ⟨rfl, h.reset h'⟩
    · rw [if_neg hb, if_neg hb]
      exact ⟨rfl, h⟩

theorem unitMultiple_at (ho : CfgOk env.cfg) (hsc : env.scan = fun d c => c.advanceTo d) (h : At I p c s)
    (hs : s ≠ []) : Agrees (WordAt I p) (parseTimeUnitMultiple env c) (L.unitMultiple env.cfg env.units s) := by
  unfold parseTimeUnitMultiple L.unitMultiple
  rw [assertSome_ok h hs, ok_bind, scan_eq hsc _ h, ok_bind]
  simp only
  by_cases hw : (L.word (unitEnd env.cfg) s).isEmpty = true
  · rw [if_pos hw, if_pos (isEmpty_nil hw), isEmpty_nil hw]
    exact ⟨rfl, h, (fun h => by cases h)⟩
  · obtain ⟨h1, h2⟩ := word_pos hw
    rw [if_neg hw, if_neg h1, utf8Unchecked_ok (h.word_valid (unitEnd_ascii ho)), ok_bind]
    have h3 := h.afterWord (unitEnd_ascii ho)
    cases env.units.get (L.word (unitEnd env.cfg) s) with
    | none => exact ⟨rfl, h.reset h3, (fun h => by cases h)⟩
    | some u =>
      simp only [unitFoundMultiple, L.unitFound, L.unitTail]
      refine (agoMultiple_at ho h3 (by omega) u).bind ?_
      intro o o' h4
      refine (conn_sim ho h4.2 (by omega)).map ?_
      intro c' t h'
      exact ⟨by rw [h4.1], h'.le (by omega), fun _ => by have := h'.pos; show 1 ≤ c'.pos; omega⟩

theorem unit_at (ho : CfgOk env.cfg) (hsc : env.scan = fun d c => c.advanceTo d) (mode : Mode) (h : At I p c s)
    (hs : s ≠ []) : Agrees (WordAt I p) (parseTimeUnit mode env c) (L.unit mode env.cfg env.units s) := by
  cases mode with
  | single => exact unitSingle_at ho h hs
  | multiple => exact unitMultiple_at ho hsc h hs

theorem numeral_at (ho : CfgOk env.cfg) (hsc : env.scan = fun d c => c.advanceTo d) (h : At I p c s) :
    Agrees (fun o o' => o.1.map Prod.snd = o'.1 ∧ At I p o.2 o'.2 ∧ (o'.1.isSome = true → 1 ≤ o.2.pos ∧ o'.2 ≠ []))
      (parseNumeral env c) (L.numeral env.cfg env.numerals s) := by
  unfold parseNumeral L.numeral
  cases env.numerals with
  | none => exact ⟨rfl, h, (fun h => by cases h)⟩
  | some n =>
    simp only
    rw [scan_eq hsc _ h, ok_bind]
    simp only
    by_cases hw : (L.word env.cfg.innerDelimiter s).isEmpty = true
    · rw [if_pos hw, if_pos (isEmpty_nil hw), isEmpty_nil hw]
      exact ⟨rfl, h, (fun h => by cases h)⟩
    · obtain ⟨h1, h2⟩ := word_pos hw
      rw [if_neg hw, if_neg h1, utf8Unchecked_ok (h.word_valid ho.inner), ok_bind]
      have h3 := h.afterWord ho.inner
      cases n (L.word env.cfg.innerDelimiter s) with
      | none => exact ⟨rfl, h.reset h3, (fun h => by cases h)⟩
      | some q =>
        simp only [numeralFound, L.numeralFound]
        generalize L.afterWord env.cfg.innerDelimiter s = t at h3
        cases ht : t with
        | nil =>
          have hc := (ht ▸ h3).nil
          rw [hc]
          simp only [L.headIs, Bool.false_eq_true, if_false]
          exact ⟨rfl, h.reset h3, (fun h => by cases h)⟩
        | cons b l =>
          have hc : (c.advanceBy (L.word env.cfg.innerDelimiter s).length).cur = some b := (ht ▸ h3).cons
          rw [hc, ← ht]
          simp only
          have e : L.headIs env.cfg.innerDelimiter t = env.cfg.innerDelimiter b := by rw [ht]; rfl
          rw [e]
          by_cases hb : env.cfg.innerDelimiter b = true
          · rw [if_pos hb, if_pos hb]
            refine (skipDelims_sim ho.inner h3 (by omega) (by rw [e]; exact hb)).map' ?_
            intro c' t' ht' h'
            exact ⟨rfl, h'.le (by omega), fun _ => ⟨by have := h'.pos; show 1 ≤ c'.pos; omega, skipDelims_ne ht'⟩⟩
          · rw [if_neg hb, if_neg hb]
            exact ⟨rfl, h.reset h3, (fun h => by cases h)⟩

end Fundu
