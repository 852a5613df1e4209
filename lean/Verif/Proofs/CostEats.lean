import Verif.Proofs.CostEnds
import Verif.Proofs.CostRead
/-! # Steps of several durations -/
namespace Fundu.Cost
open Fundu

variable {α β : Type} {cfg : Config} {env : Env}

/-- the steps of a duration which begins with a word, if any, and ends behind it -/
def Eats (cfg : Config) (b : Nat) (c : Cursor) (x : T Output) : Prop :=
  Run x (12 * left c + b) (fun o k => ∀ c', o.2 = some c' →
    Later cfg c c' ∧ c.pos + W cfg c ≤ c'.pos ∧ k ≤ 6 * (c'.pos - c.pos) + 2 * W cfg c' + b)

theorem Ends.eats {b : Nat} {c : Cursor} {x : T Output} (h : Ends cfg b c x) (h0 : W cfg c = 0) : Eats cfg b c x :=
  Run.mono h (Nat.le_refl _) (fun o k _ _ ho c' hc' => ⟨(ho c' hc').1, by have := (ho c' hc').1.pos; omega, (ho c' hc').2⟩)

theorem Eats.mono {b b' : Nat} {c : Cursor} {x : T Output} (h : Eats cfg b c x) (hb : b ≤ b') : Eats cfg b' c x :=
  Run.mono h (by omega) (fun _ _ _ _ ho c' hc' => ⟨(ho c' hc').1, (ho c' hc').2.1, by have := (ho c' hc').2.2; omega⟩)

theorem inner_word (H : ∀ b, cfg.innerDelimiter b = true → cfg.outerDelimiter b = true) (c : Cursor) :
    W cfg c ≤ (c.word cfg.innerDelimiter).length := by
  unfold W Cursor.word
  refine takeWhile_le ?_ _
  intro b hb
  cases hi : cfg.innerDelimiter b with
  | false => rfl
  | true => rw [wordEnd_outer (H b hi)] at hb; cases hb

/-- the scan for a numeral -/
theorem numeralScan_run (H : ∀ b, cfg.innerDelimiter b = true → cfg.outerDelimiter b = true) {c : Cursor} (h : Wf cfg c) :
    Run (bufferedAdvanceTo cfg.innerDelimiter c) (left c + 2) (fun o k => ∃ n, W cfg c ≤ o.1.length ∧ o.1.length ≤ left c ∧
      k ≤ o.1.length + 2 ∧ o.2 = ⟨c.input, c.pos + o.1.length, some (c.pos, o.1, n)⟩) := by
  have hlw : (c.word cfg.innerDelimiter).length ≤ left c := by rw [left_rest]; exact Cursor.word_length _ c
  cases hb : c.buffered cfg.innerDelimiter with
  | none =>
    have hk := bufferedAdvanceTo_miss _ c h.pos hb
    refine ⟨by rw [hk]; omega, ?_⟩
    intro o ho
    rw [bufferedAdvanceTo_res, Cursor.bufferedAdvanceTo_none _ c h.pos hb] at ho
    cases ho
    exact ⟨_, inner_word H c, hlw, by rw [hk], rfl⟩
  | some w =>
    have hk := bufferedAdvanceTo_hit _ c hb
    refine ⟨by rw [hk]; omega, ?_⟩
    intro o ho
    rw [bufferedAdvanceTo_res] at ho
    unfold Cursor.bufferedAdvanceTo at ho
    rw [hb] at ho
    cases ho
    unfold Cursor.buffered at hb
    cases hbuf : c.buffer with
    | none => rw [hbuf] at hb; cases hb
    | some x =>
      obtain ⟨p, w', n⟩ := x
      have key : p = c.pos ∧ w' = w := by
        rw [hbuf] at hb
        cases n with
        | none =>
          dsimp only at hb
          by_cases hp : p = c.pos
          · rw [if_pos hp] at hb; cases hb; exact ⟨hp, rfl⟩
          · rw [if_neg hp] at hb; cases hb
        | some b =>
          dsimp only at hb
          by_cases hp : (decide (p = c.pos) && cfg.innerDelimiter b) = true
          · rw [if_pos hp] at hb
            cases hb
            rw [Bool.and_eq_true, decide_eq_true_eq] at hp
            exact ⟨hp.1, rfl⟩
          · rw [if_neg hp] at hb; cases hb
      obtain ⟨rfl, rfl⟩ := key
      rcases h.buf _ _ _ hbuf with hlt | ⟨_, rfl⟩
      · omega
      · refine ⟨n, Nat.le_refl _, W_left cfg c, by rw [hk]; omega, ?_⟩
        unfold Cursor.advanceBy
        rw [hbuf]

theorem parseNumeral_run (H : ∀ b, env.cfg.innerDelimiter b = true → env.cfg.outerDelimiter b = true) {c : Cursor} (h : Wf env.cfg c) :
    Run (parseNumeral env c) (3 * left c + 4) (fun o k => left o.2 ≤ left c ∧
      match o.1 with
      | some _ => Later env.cfg c o.2 ∧ c.pos + W env.cfg c ≤ o.2.pos ∧ k ≤ 2 * (o.2.pos - c.pos) + 4
      | none => k ≤ 2 * left c + 4) := by
  unfold parseNumeral
  cases env.numerals with
  | none => exact Run.ok ⟨Nat.le_refl _, by show 0 ≤ _; omega⟩
  | some numerals =>
    dsimp only
    refine Run.bind (Run.mono (numeralScan_run H h) (by omega) (fun _ _ _ _ h => h)) ?_
    rintro ⟨w, c1⟩ k _ _ ⟨n, hW, hw, hk, e⟩
    dsimp only at hW hw hk e ⊢
    subst e
    have e1 : left (⟨c.input, c.pos + w.length, some (c.pos, w, n)⟩ : Cursor) = left c - w.length := by
      unfold left; dsimp only; omega
    refine Run.ite (fun _ => Run.pure ⟨by show left _ ≤ _; rw [e1]; omega, by show k + 0 ≤ _; omega⟩) (fun hne => ?_)
    have h0 : w.length ≠ 0 := by
      intro h0
      rw [List.eq_nil_of_length_eq_zero h0] at hne
      exact hne rfl
    refine Run.bind (P := fun s k => s = w ∧ k = 0) (Run.lift ?_) ?_
    · intro a ha
      refine ⟨?_, rfl⟩
      unfold utf8Unchecked at ha
      split at ha
      · cases ha; rfl
      · cases ha
    rintro s _ _ _ ⟨e, rfl⟩
    rw [e]
    refine Run.charge (by omega) ?_
    have back : ∀ c2 : Cursor, c2.input = c.input → left (c2.reset c.pos) = left c := by
      intro c2 h2
      unfold left Cursor.reset
      rw [h2]
    unfold numeralFound
    cases numerals w with
    | none => exact Run.ok ⟨Nat.le_of_eq (back _ rfl), by show k + _ ≤ _; omega⟩
    | some m =>
      dsimp only
      cases hc : Cursor.cur (⟨c.input, c.pos + w.length, some (c.pos, w, n)⟩ : Cursor) with
      | none => exact Run.ok ⟨Nat.le_of_eq (back _ rfl), by show k + _ ≤ _; omega⟩
      | some b =>
        dsimp only
        refine Run.ite (fun hb => ?_) (fun _ => Run.ok ⟨Nat.le_of_eq (back _ rfl), by show k + _ ≤ _; omega⟩)
        refine Run.bind (Run.mono (tryConsumeDelimiter_reads _ _ hc hb) (by rw [e1]; omega) (fun _ _ _ _ h => h)) ?_
        rintro c2 m2 _ _ ⟨hm, hk2⟩
        have wf1 : Wf env.cfg ⟨c.input, c.pos + w.length, some (c.pos, w, n)⟩ := by
          refine ⟨?_, ?_⟩
          · have := h.pos
            unfold left at hw
            show c.pos + w.length ≤ c.input.length
            omega
          · intro p v x hx
            cases hx
            left
            show c.pos < c.pos + w.length
            omega
        have hm : Moved _ c2 := hm
        have l2 := hm.later wf1
        have hp : c.pos + w.length ≤ c2.pos := l2.pos
        have hl : left c2 + (c2.pos - (c.pos + w.length)) = _ := l2.left
        have hk2 : m2 + left c2 ≤ _ + 1 := hk2
        rw [e1] at hl hk2
        refine Run.pure ⟨by show left c2 ≤ _; omega, ⟨l2.input, by show c.pos ≤ c2.pos; omega, l2.wf⟩, ?_, ?_⟩
        · show _ ≤ c2.pos; omega
        · show _ ≤ 2 * (c2.pos - c.pos) + 4; omega

theorem finalize_later (cfg : Config) (r : DurationRepr) {c : Cursor} (hw : Wf cfg c) :
    Run (finalize .multiple cfg r c) (left c + connCost cfg) (fun o k => ∀ c', o.2 = some c' → Later cfg c c' ∧
      k ≤ (c'.pos - c.pos) + connCost cfg) :=
  Run.mono (finalizeMultiple_word cfg r c) (Nat.le_refl _) (fun _ _ _ _ ho c' hc' => ⟨(ho c' hc').1.later hw, (ho c' hc').2.1⟩)

theorem parseNumeralWord_eats (H : ∀ b, env.cfg.innerDelimiter b = true → env.cfg.outerDelimiter b = true) (r : DurationRepr) {c : Cursor}
    (hw : Wf env.cfg c) : Run (parseNumeralWord .multiple env r c) (8 * left c + (2 * connCost env.cfg + 12)) (fun o k => ∀ c', o.2 = some c' →
      Later env.cfg c c' ∧ c.pos + W env.cfg c ≤ c'.pos ∧ k ≤ 2 * (c'.pos - c.pos) + (2 * connCost env.cfg + 12)) := by
  unfold parseNumeralWord
  refine Run.bind (Run.mono (parseNumeral_run H hw) (by omega) (fun _ _ _ _ h => h)) ?_
  rintro ⟨o, c1⟩ k _ hk0 ⟨hl, ho⟩
  dsimp only at hl ho
  cases o with
  | none =>
    dsimp only at ho
    show Run (do let remainder ← getRemainderStr c1; Cost.fail (.invalidInput (.text remainder))) _ _
    refine Run.bind (P := fun _ _ => True) ?_ (fun _ _ _ _ _ => Run.fail)
    unfold getRemainderStr
    refine Run.charge ?_ (Run.lift (fun _ _ => trivial))
    have : left c1 = c1.input.length - c1.pos := rfl
    omega
  | some x =>
    obtain ⟨id, numeral⟩ := x
    obtain ⟨l1, hp1, hk1⟩ := ho
    have hl1 := l1.left
    show Run (do let (u, c) ← parseTimeUnitMultiple env c1; numeralUnit .multiple env r c id numeral u) _ _
    refine Run.bind (Run.mono (timeUnitMultiple_looks H l1.wf) (by omega) (fun _ _ _ _ h => h)) ?_
    rintro ⟨u, c2⟩ m _ _ ⟨l2, h2⟩
    dsimp only at l2 h2 ⊢
    have hl2 := l2.left
    have hp2 := l2.pos
    cases u with
    | none =>
      unfold numeralUnit
      exact Run.ite (fun _ => Run.fail) (fun _ => Run.fail)
    | some u =>
      dsimp only at h2
      unfold numeralUnit
      refine Run.mono (finalize_later env.cfg _ l2.wf) (by omega) ?_
      intro o m2 _ _ ho c' hc'
      obtain ⟨l3, hk3⟩ := ho c' hc'
      have hp3 := l3.pos
      exact ⟨(l1.trans l2).trans l3, by omega, by omega⟩

theorem reset_same {c : Cursor} {p : Nat} (h : c.pos = p) : c.reset p = c := by
  subst h; rfl

theorem parseUnitWord_eats (H : ∀ b, env.cfg.innerDelimiter b = true → env.cfg.outerDelimiter b = true) (r : DurationRepr) {c : Cursor}
    (hw : Wf env.cfg c) : Run (parseUnitWord .multiple env r c) (10 * left c + (3 * connCost env.cfg + 20)) (fun o k => ∀ c', o.2 = some c' →
      Later env.cfg c c' ∧ c.pos + W env.cfg c ≤ c'.pos ∧ k ≤ 4 * (c'.pos - c.pos) + (3 * connCost env.cfg + 20)) := by
  have hW := W_left env.cfg c
  unfold parseUnitWord
  refine Run.ite (fun _ => ?_) (fun _ => ?_)
  · show Run (do let (u, c') ← parseTimeUnitMultiple env c; afterUnitWord .multiple env r c c' u) _ _
    refine Run.bind (Run.mono (timeUnitMultiple_looks H hw) (by omega) (fun _ _ _ _ h => h)) ?_
    rintro ⟨u, c1⟩ k _ _ ⟨l1, h1⟩
    dsimp only at l1 h1 ⊢
    have hl1 := l1.left
    have hp1 := l1.pos
    cases u with
    | some u =>
      dsimp only at h1
      refine Run.mono (finalize_later env.cfg _ l1.wf) (by omega) ?_
      intro o m2 _ _ ho c' hc'
      obtain ⟨l3, hk3⟩ := ho c' hc'
      have hp3 := l3.pos
      exact ⟨l1.trans l3, by omega, by omega⟩
    | none =>
      dsimp only at h1
      unfold afterUnitWord
      rw [reset_same h1.1]
      refine Run.mono (parseNumeralWord_eats H r l1.wf) (by omega) ?_
      intro o m2 _ _ ho c' hc'
      obtain ⟨l3, hp, hk3⟩ := ho c' hc'
      rw [W_congr (cfg := env.cfg) l1.input h1.1] at hp
      exact ⟨l1.trans l3, by omega, by omega⟩
  · refine Run.mono (parseNumeralWord_eats H r hw) (by omega) ?_
    intro o m2 _ _ ho c' hc'
    obtain ⟨l3, hp, hk3⟩ := ho c' hc'
    exact ⟨l3, by omega, by omega⟩

theorem parseWord_eats (H : ∀ b, env.cfg.innerDelimiter b = true → env.cfg.outerDelimiter b = true) (r : DurationRepr) {c : Cursor}
    (hw : Wf env.cfg c) : Eats env.cfg (4 * connCost env.cfg + 23) c (parseWord .multiple env r c) := by
  have hW := W_left env.cfg c
  unfold parseWord
  have look : Looks env.cfg (connCost env.cfg + 3) c (parseKeyword .multiple env c) := by
    unfold parseKeyword
    cases env.keywords with
    | none => exact Run.ok ⟨⟨rfl, Nat.le_refl _, hw⟩, rfl, Nat.zero_le _⟩
    | some keywords => exact keywordMultiple_looks keywords hw
  refine Run.bind (Run.mono look (by omega) (fun _ _ _ _ h => h)) ?_
  · rintro ⟨u, c1⟩ k _ _ ⟨l1, h1⟩
    dsimp only at l1 h1 ⊢
    have hl1 := l1.left
    have hp1 := l1.pos
    cases u with
    | some u =>
      dsimp only at h1
      refine Run.mono (finalize_later env.cfg _ l1.wf) (by omega) ?_
      intro o m2 _ _ ho c' hc'
      obtain ⟨l3, hk3⟩ := ho c' hc'
      have hp3 := l3.pos
      exact ⟨l1.trans l3, by omega, by omega⟩
    | none =>
      dsimp only at h1
      refine Run.mono (parseUnitWord_eats H r l1.wf) (by omega) ?_
      intro o m2 _ _ ho c' hc'
      obtain ⟨l3, hp, hk3⟩ := ho c' hc'
      rw [W_congr (cfg := env.cfg) l1.input h1.1] at hp
      exact ⟨l1.trans l3, by omega, by omega⟩

/-- `.` and the digits after it -/
theorem point_eats (H : ∀ b, env.cfg.innerDelimiter b = true → env.cfg.outerDelimiter b = true) (r : DurationRepr) {c : Cursor} (hr : r.whole = none)
    (hc : c.cur = some 46) (hw : Wf env.cfg c) : Eats env.cfg (9 + (1 + (1 + (2 * connCost env.cfg + 8)))) c (parseAfterWhole .multiple env r c) := by
  unfold parseAfterWhole
  refine Run.bind (P := fun o k => Moved c.advance o.2.2 ∧ k + left o.2.2 ≤ left c.advance + 9 ∧ W env.cfg c ≤ 1) ?_ ?_
  · unfold parseNumberFraction
    rw [hc]
    dsimp only
    rw [if_pos rfl]
    refine Run.ite (fun _ => Run.fail) (fun _ => ?_)
    have hm := moved_advance hc
    have h0 := hm.left
    have r0 := fractionDigits_reads r.whole c.advance ((hw.moved hm).pos)
    refine Run.mono r0 (by omega) ?_
    intro o k ho _ hk
    refine ⟨hk.1, hk.2, ?_⟩
    refine W_le (n := 1) ?_
    intro b hb
    have hb : c.advance.cur = some b := hb
    unfold fractionDigits at ho
    rw [hb] at ho
    dsimp only at ho
    by_cases hd : isDigit b = true
    · unfold wordEnd isNextDuration
      rw [hd]
      simp
    · rw [if_neg hd, hr] at ho
      cases hs : (liftP (subUsize c.advance.pos 1) : R Nat) with
      | error e => rw [hs] at ho; cases ho
      | ok p => rw [hs] at ho; cases ho
  · rintro ⟨go, f, c1⟩ k _ _ ⟨hm, hk, hW⟩
    dsimp only at hm hk ⊢
    have hm0 := moved_advance hc
    have hl0 := hm0.left
    have hl1 := hm.left
    have hp : c.advance.pos = c.pos + 1 := rfl
    have hw1 := (hw.moved hm0).moved hm
    have e : Ends env.cfg (1 + (1 + (2 * connCost env.cfg + 8))) c1 (if (!go) = true then Pure.pure (makeOutput .multiple { r with fract := f } c1)
      else parseExponentPart .multiple env { r with fract := f } c1) :=
      Run.ite (fun _ => makeOutput_ends hw1) (fun _ => parseExponentPart_ends H _ hw1)
    refine Run.mono e (by omega) ?_
    intro o m _ _ ho c' hc'
    obtain ⟨l3, hk3⟩ := ho c' hc'
    have hp3 := l3.pos
    exact ⟨((hm0.trans hm).later hw).trans l3, by omega, by omega⟩

theorem Reads.eats {b : Nat} {c c1 : Cursor} {x : T Output} (hw : Wf cfg c) (hm : Moved c c1)
    (h : Run x (left c1 + b) (fun o k => ∀ c', o.2 = some c' → Moved c1 c' ∧ k + left c' ≤ left c1 + b ∧ W cfg c ≤ c'.pos - c.pos)) :
    Eats cfg b c x := by
  have hl := hm.left
  refine Run.mono h (by omega) ?_
  intro o k _ _ ho c' hc'
  obtain ⟨h1, h2, h3⟩ := ho c' hc'
  have hl1 := h1.left
  exact ⟨(hm.trans h1).later hw, by omega, by omega⟩

theorem inityLoopMultiple_end {start : Nat} {l : Bytes} {c c2 : Cursor} (h : Fundu.inityLoopMultiple start c l = .ok c2) : c2 = c.advanceBy l.length := by
  induction l generalizing c with
  | nil => cases h; rfl
  | cons b bs ih =>
    unfold Fundu.inityLoopMultiple at h
    cases hc : c.cur with
    | none =>
      rw [hc] at h
      dsimp only at h
      cases h1 : (liftP (subUsize start 3) : R Nat) with
      | error e => rw [h1] at h; cases h
      | ok p =>
        rw [h1] at h
        cases h2 : c.getCurrentStrUnwrap start with
        | error e => rw [ok_bind, h2] at h; cases h
        | ok t => rw [ok_bind, h2] at h; cases h
    | some x =>
      rw [hc] at h
      dsimp only at h
      by_cases hx : toLower x = toLower b
      · rw [if_pos hx] at h
        rw [ih h]
        unfold Cursor.advance Cursor.advanceBy
        rw [List.length_cons, Nat.add_assoc, Nat.add_comm 1]
      · rw [if_neg hx] at h; cases h

/-- `inf` and `infinity` -/
theorem infinity_eats (r : DurationRepr) {c : Cursor} (hi : c.nextIs (b! "inf") = true) (hw : Wf cfg c) :
    Eats cfg (connCost cfg + 5) c (parseInfinityRemainder .multiple cfg r (c.advanceBy 3)) := by
  have h3 : 3 ≤ left c := nextIs_left hi
  have hm := moved_by h3
  refine Reads.eats hw hm ?_
  have hp : (c.advanceBy 3).pos = c.pos + 3 := rfl
  show Run (infinityMultiple cfg { r with isInfinite := true } (c.advanceBy 3)) _ _
  generalize hc1 : c.advanceBy 3 = c1
  rw [hc1] at hp hm
  unfold infinityMultiple
  cases hc : c1.cur with
  | none => exact Run.ok (fun c' h => by cases h)
  | some b =>
    refine Run.ite (fun hb => ?_) (fun _ => ?_)
    · refine Run.bind (Run.mono (tryConnection_reads cfg c1 hc hb) (by omega) (fun _ _ _ _ h => h)) ?_
      rintro c2 k _ _ ⟨hm2, hk2⟩
      refine Run.pure (fun c' h => ?_)
      have h : some c2 = some c' := h
      cases h
      have hm2 : Moved c1 c2 := hm2
      have hk2 : k + left c2 ≤ left c1 + connCost cfg := hk2
      have hl2 := hm2.left
      have hW : W cfg c ≤ 3 := W_le (fun x hx => by
        rw [hc1, hc] at hx
        cases hx
        exact wordEnd_outer hb)
      exact ⟨hm2, by omega, by omega⟩
    · refine Run.bind (P := fun c2 k => Moved c1 c2 ∧ k + left c2 ≤ left c1 + 5 ∧ c2 = c1.advanceBy 5) ?_ ?_
      · refine Run.mono (inityLoopMultiple_reads c1.pos c1 (b! "inity")) (by show _ + 5 ≤ _; omega) ?_
        rintro c2 k h2 _ ⟨hm2, hk2⟩
        refine ⟨hm2, hk2, ?_⟩
        rw [inityLoopMultiple_res] at h2
        exact inityLoopMultiple_end h2
      · rintro c2 k _ _ ⟨hm2, hk2, e2⟩
        have hl2 := hm2.left
        unfold afterInfinity
        cases hcc : c2.cur with
        | none => exact Run.ok (fun c' h => by cases h)
        | some x =>
          refine Run.ite (fun hx => ?_) (fun _ => Run.fail)
          refine Run.bind (Run.mono (tryConnection_reads cfg c2 hcc hx) (by omega) (fun _ _ _ _ h => h)) ?_
          rintro c3 m _ _ ⟨hm3, hk3⟩
          refine Run.pure (fun c' h => ?_)
          have h : some c3 = some c' := h
          cases h
          have hm3 : Moved c2 c3 := hm3
          have hk3 : m + left c3 ≤ left c2 + connCost cfg := hk3
          have hl3 := hm3.left
          have hp2 : c2.pos = c1.pos + 5 := by rw [e2]; rfl
          have hW : W cfg c ≤ 8 := W_le (fun y hy => by
            have : c.advanceBy 8 = c2 := by rw [e2, ← hc1]; rfl
            rw [this, hcc] at hy
            cases hy
            exact wordEnd_outer hx)
          exact ⟨hm2.trans hm3, by omega, by omega⟩

/-- the constant part of the steps of one duration -/
def partCost (cfg : Config) : Nat := 4 * connCost cfg + 30

theorem parseBody_eats (H : ∀ b, env.cfg.innerDelimiter b = true → env.cfg.outerDelimiter b = true) (r : DurationRepr) (hr : r.whole = none)
    {c : Cursor} (hw : Wf env.cfg c) : Eats env.cfg (partCost env.cfg - 2) c (parseBody .multiple env r c) := by
  unfold parseBody partCost
  cases hc : c.cur with
  | none => exact Run.fail
  | some b =>
    refine Run.ite (fun hd => ?_) (fun _ => Run.ite (fun hp => ?_) (fun _ => ?_))
    · refine (parseWhole_ends H r hw).eats (W_zero hc ?_) |>.mono (by omega)
      unfold wordEnd isNextDuration
      rw [hd]; simp
    · subst hp
      exact (point_eats H r hr hc hw).mono (by omega)
    · have e : Eats env.cfg (4 * connCost env.cfg + 24) c (if (!env.cfg.disableInfinity && c.nextIs (b! "inf")) = true then
          parseInfinityRemainder .multiple env.cfg r (c.advanceBy 3) else parseWord .multiple env r c) := by
        refine Run.ite (fun hi => ?_) (fun _ => (parseWord_eats H r hw).mono (by omega))
        rw [Bool.and_eq_true] at hi
        exact (infinity_eats r hi.2 hw).mono (by omega)
      exact Run.charge (by omega) (Run.mono e (by omega) (fun _ _ _ _ ho c' hc' =>
        ⟨(ho c' hc').1, (ho c' hc').2.1, by have := (ho c' hc').2.2; omega⟩))

theorem sign_word {c : Cursor} {o : Option Bool × Cursor} (h : (parseNumberSign cfg c).res = .ok o) : o.2 = c ∨ W cfg c = 0 := by
  rw [parseNumberSign_res] at h
  unfold Fundu.parseNumberSign Fundu.parseSignIsNegative at h
  cases hc : c.cur with
  | none => rw [hc] at h; cases h
  | some b =>
    rw [hc] at h
    dsimp only at h
    by_cases h1 : b = 43
    · right; subst h1; exact W_zero hc (by unfold wordEnd isNextDuration; simp)
    · by_cases h2 : b = 45
      · right; subst h2; exact W_zero hc (by unfold wordEnd isNextDuration; simp)
      · rw [if_neg h1, if_neg h2] at h
        cases h
        exact Or.inl rfl

theorem templateParse_eats (H : ∀ b, env.cfg.innerDelimiter b = true → env.cfg.outerDelimiter b = true)
    {c : Cursor} (hw : Wf env.cfg c) : Eats env.cfg (partCost env.cfg) c (templateParse .multiple env c) := by
  have hp : 30 ≤ partCost env.cfg := by unfold partCost; omega
  unfold templateParse
  cases hc : c.cur with
  | none => exact Run.charge (by omega) Run.fail
  | some b =>
    refine Run.charge (by omega) ?_
    refine Run.bind (Run.mono (parseNumberSign_reads env.cfg c) (by omega) (fun _ _ _ _ h => h)) ?_
    rintro ⟨neg, c1⟩ k hs _ ⟨hm, hk⟩
    have hsw := sign_word hs
    dsimp only at hm hk hsw ⊢
    have hl := hm.left
    refine Run.mono (parseBody_eats H _ rfl (hw.moved hm)) (by omega) ?_
    intro o m _ _ ho c' hc'
    obtain ⟨l3, hp3, hk3⟩ := ho c' hc'
    refine ⟨(hm.later hw).trans l3, ?_, by omega⟩
    rcases hsw with rfl | h0
    · exact hp3
    · omega

/-- all the steps of one of several durations -/
def durationCost (cfg : Config) : Nat := 2 * partCost cfg + 18

theorem accumulate_cost (a b : Duration) : (accumulate a b).cost = 0 := by
  unfold accumulate
  split
  · rfl
  · split
    · rfl
    · rfl

/-- the digits of the duration are among the bytes which were read -/
theorem eats_digits (H : ∀ b, env.cfg.innerDelimiter b = true → env.cfg.outerDelimiter b = true) {c : Cursor} (hw : Wf env.cfg c) :
    Run (templateParse .multiple env c) (12 * left c + partCost env.cfg) (fun o k => (∀ c', o.2 = some c' →
      Later env.cfg c c' ∧ c.pos + W env.cfg c ≤ c'.pos ∧ k ≤ 6 * (c'.pos - c.pos) + 2 * W env.cfg c' + partCost env.cfg) ∧ digits o.1 ≤ k ∧
      k ≤ 12 * left c + partCost env.cfg) := by
  have h := templateParse_eats H hw
  refine ⟨h.1, fun o ho => ⟨h.2 o ho, ?_, h.1⟩⟩
  have := templateParse_digs .multiple env c o ho
  omega

/-- all the durations of a text -/
theorem parseMultipleLoop_cost (H : ∀ b, env.cfg.innerDelimiter b = true → env.cfg.outerDelimiter b = true) (fuel : Nat) (d : Duration)
    {c : Cursor} (hw : Wf env.cfg c) :
    (parseMultipleLoop env fuel d c).cost + 4 * W env.cfg c ≤ 28 * left c + durationCost env.cfg * fuel := by
  have hW := W_left env.cfg c
  induction fuel generalizing c d with
  | zero => show 0 + _ ≤ _; omega
  | succ fuel ih =>
    have key : Run (parseMultipleLoop env (fuel + 1) d c) (28 * left c + durationCost env.cfg * (fuel + 1) - 4 * W env.cfg c) (fun _ _ => True) := by
      rw [Nat.mul_add, Nat.mul_one]
      have hd : durationCost env.cfg = 2 * partCost env.cfg + 18 := rfl
      unfold parseMultipleLoop
      refine Run.bind (Run.mono (eats_digits H hw) (by omega) (fun _ _ _ _ h => h)) ?_
      rintro ⟨r, next⟩ k _ _ ⟨ho, hr, hk⟩
      have hc := parseRepr_cost env.cfg r
      dsimp only at hr
      refine Run.bind (P := fun _ j => j ≤ k + 18) ⟨by omega, fun _ _ => by omega⟩ ?_
      rintro p j _ _ hj
      refine Run.bind (P := fun _ k => k = 0) ⟨by rw [accumulate_cost]; omega, fun _ _ => accumulate_cost _ _⟩ ?_
      rintro d' _ _ _ rfl
      cases next with
      | none => exact Run.pure trivial
      | some c' =>
        obtain ⟨l, hp, hk⟩ := ho c' rfl
        have hl := l.left
        have hp0 := l.pos
        have := ih d' l.wf (W_left env.cfg c')
        show Run (parseMultipleLoop env fuel d' c') _ _
        exact ⟨by omega, fun _ _ => trivial⟩
    have := key.1
    omega

theorem wf_new (cfg : Config) (s : Bytes) : Wf cfg (Cursor.new s) :=
  ⟨Nat.zero_le _, fun _ _ _ h => by cases h⟩

/-- all the durations of a text, in `fundu-gnu` -/
theorem fuzzyLoop_cost (H : ∀ b, env.cfg.innerDelimiter b = true → env.cfg.outerDelimiter b = true) (fuel : Nat) (t : Gnu.Totals)
    {c : Cursor} (hw : Wf env.cfg c) :
    (fuzzyLoop env fuel t c).cost + 4 * W env.cfg c ≤ 28 * left c + durationCost env.cfg * fuel := by
  have hW := W_left env.cfg c
  induction fuel generalizing c t with
  | zero => show 0 + _ ≤ _; omega
  | succ fuel ih =>
    have key : Run (fuzzyLoop env (fuel + 1) t c) (28 * left c + durationCost env.cfg * (fuel + 1) - 4 * W env.cfg c) (fun _ _ => True) := by
      rw [Nat.mul_add, Nat.mul_one]
      have hd : durationCost env.cfg = 2 * partCost env.cfg + 18 := rfl
      unfold fuzzyLoop
      refine Run.bind (Run.mono (eats_digits H hw) (by omega) (fun _ _ _ _ h => h)) ?_
      rintro ⟨r, next⟩ k _ _ ⟨ho, hr, hk⟩
      have hc := parseReprFuzzy_cost r
      dsimp only at hr
      refine Run.bind (P := fun _ j => j ≤ k + 18) ⟨by omega, fun _ _ => by omega⟩ ?_
      rintro p j _ _ hj
      refine Run.bind (P := fun _ k => k = 0) (Run.lift (fun _ _ => rfl)) ?_
      rintro t' _ _ _ rfl
      cases next with
      | none => exact Run.pure trivial
      | some c' =>
        obtain ⟨l, hp, hk⟩ := ho c' rfl
        have hl := l.left
        have hp0 := l.pos
        have := ih t' l.wf (W_left env.cfg c')
        show Run (fuzzyLoop env fuel t' c') _ _
        exact ⟨by omega, fun _ _ => trivial⟩
    have := key.1
    omega

theorem parseMultiple_cost (H : ∀ b, env.cfg.innerDelimiter b = true → env.cfg.outerDelimiter b = true) (s : Bytes) :
    (parseMultiple env s).cost ≤ 28 * s.length + durationCost env.cfg * (s.length + 1) := by
  have := parseMultipleLoop_cost H (s.length + 1) Duration.ZERO (wf_new env.cfg s)
  have e : left (Cursor.new s) = s.length := rfl
  rw [e] at this
  unfold parseMultiple
  omega

end Fundu.Cost
