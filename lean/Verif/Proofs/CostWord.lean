import Verif.Proofs.CostNumber
/-! # Steps of words, if each inner delimiter is an outer delimiter -/
namespace Fundu.Cost
open Fundu

variable {α β : Type} {cfg : Config}

/-- the number of bytes up to the next outer delimiter, digit or sign -/
def W (cfg : Config) (c : Cursor) : Nat := (c.word (wordEnd cfg)).length

theorem W_left (cfg : Config) (c : Cursor) : W cfg c ≤ left c := by
  rw [left_rest]; exact Cursor.word_length _ c

theorem word_congr (d : Delimiter) {c c' : Cursor} (hi : c'.input = c.input) (hp : c'.pos = c.pos) : c'.word d = c.word d := by
  unfold Cursor.word Cursor.rest
  rw [hi, hp]

theorem W_congr {c c' : Cursor} (hi : c'.input = c.input) (hp : c'.pos = c.pos) : W cfg c' = W cfg c := by
  unfold W
  rw [word_congr _ hi hp]

/-- the word ends not later than at a byte which ends words, or at the end -/
theorem W_le {c : Cursor} {n : Nat} (h : ∀ b, (c.advanceBy n).cur = some b → wordEnd cfg b = true) : W cfg c ≤ n := by
  unfold W Cursor.word
  have hr : (c.advanceBy n).cur = (c.rest.drop n).head? := by rw [Cursor.cur_eq, Cursor.rest_advanceBy]
  rw [hr] at h
  clear hr
  generalize c.rest = l at h
  induction l generalizing n with
  | nil => exact Nat.zero_le _
  | cons x xs ih =>
    cases n with
    | zero =>
      have := h x rfl
      rw [List.takeWhile_cons, this]
      exact Nat.le_refl _
    | succ n =>
      rw [List.takeWhile_cons]
      by_cases hx : (!wordEnd cfg x) = true
      · rw [if_pos hx, List.length_cons]
        have := ih (n := n) h
        omega
      · rw [if_neg hx]; exact Nat.zero_le _

/-- the state of the reader: the buffer, if it belongs to the current position, holds the word there -/
structure Wf (cfg : Config) (c : Cursor) : Prop where
  pos : c.pos ≤ c.input.length
  buf : ∀ p w n, c.buffer = some (p, w, n) → p < c.pos ∨ (p = c.pos ∧ w = c.word (wordEnd cfg))

theorem Wf.moved {c c' : Cursor} (h : Wf cfg c) (hm : Moved c c') : Wf cfg c' := by
  refine ⟨hm.pos h.pos, ?_⟩
  obtain ⟨n, rfl, hn⟩ := hm
  intro p w x hb
  rcases h.buf p w x hb with hlt | ⟨rfl, rfl⟩
  · left; show p < c.pos + n; omega
  · cases n with
    | zero => right; exact ⟨rfl, rfl⟩
    | succ n => left; show c.pos < c.pos + (n + 1); omega

/-- a later state of the reader on the same input -/
structure Later (cfg : Config) (c c' : Cursor) : Prop where
  input : c'.input = c.input
  pos : c.pos ≤ c'.pos
  wf : Wf cfg c'

theorem Later.trans {a b c : Cursor} (h1 : Later cfg a b) (h2 : Later cfg b c) : Later cfg a c :=
  ⟨h2.input.trans h1.input, Nat.le_trans h1.pos h2.pos, h2.wf⟩

theorem Moved.later {c c' : Cursor} (hm : Moved c c') (h : Wf cfg c) : Later cfg c c' := by
  have := hm.left
  refine ⟨?_, this.2, h.moved hm⟩
  obtain ⟨n, rfl, _⟩ := hm
  rfl

theorem Later.left {c c' : Cursor} (h : Later cfg c c') : Cost.left c' + (c'.pos - c.pos) = Cost.left c := by
  have h1 := h.pos
  have h2 := h.wf.pos
  unfold Cost.left
  rw [h.input] at h2 ⊢
  omega

theorem scan_run {c : Cursor} (h : Wf cfg c) :
    Run (bufferedAdvanceTo (wordEnd cfg) c) (W cfg c + 2) (fun o _ => ∃ n, o = (c.word (wordEnd cfg),
      ⟨c.input, c.pos + W cfg c, some (c.pos, c.word (wordEnd cfg), n)⟩)) := by
  cases hb : c.buffered (wordEnd cfg) with
  | none =>
    refine ⟨by rw [bufferedAdvanceTo_miss _ c h.pos hb]; exact Nat.le_refl _, ?_⟩
    intro o ho
    rw [bufferedAdvanceTo_res, Cursor.bufferedAdvanceTo_none _ c h.pos hb] at ho
    cases ho
    exact ⟨_, rfl⟩
  | some w =>
    refine ⟨by rw [bufferedAdvanceTo_hit _ c hb]; omega, ?_⟩
    intro o ho
    rw [bufferedAdvanceTo_res] at ho
    unfold Cursor.bufferedAdvanceTo at ho
    rw [hb] at ho
    cases ho
    unfold Cursor.buffered at hb
    cases hbuf : c.buffer with
    | none => rw [hbuf] at hb; cases hb
    | some x =>
      obtain ⟨p, w', n⟩ := x
      have key : p = c.pos ∧ w' = w := by
        rw [hbuf] at hb
        cases n with
        | none =>
          dsimp only at hb
          by_cases hp : p = c.pos
          · rw [if_pos hp] at hb; cases hb; exact ⟨hp, rfl⟩
          · rw [if_neg hp] at hb; cases hb
        | some b =>
          dsimp only at hb
          by_cases hp : (decide (p = c.pos) && wordEnd cfg b) = true
          · rw [if_pos hp] at hb
            cases hb
            rw [Bool.and_eq_true, decide_eq_true_eq] at hp
            exact ⟨hp.1, rfl⟩
          · rw [if_neg hp] at hb; cases hb
      obtain ⟨rfl, rfl⟩ := key
      rcases h.buf _ _ _ hbuf with hlt | ⟨_, rfl⟩
      · omega
      · refine ⟨n, ?_⟩
        unfold Cursor.advanceBy W
        rw [hbuf]

/-- the cursor after a scan is a state of the reader -/
theorem wf_after {c : Cursor} (h : Wf cfg c) {n : Option UInt8} :
    Wf cfg ⟨c.input, c.pos + W cfg c, some (c.pos, c.word (wordEnd cfg), n)⟩ := by
  refine ⟨?_, ?_⟩
  · have := W_left cfg c
    unfold left at this
    have := h.pos
    show c.pos + W cfg c ≤ c.input.length
    omega
  · intro p w x hb
    cases hb
    by_cases h0 : W cfg c = 0
    · right
      refine ⟨by show c.pos = c.pos + W cfg c; omega, ?_⟩
      exact (word_congr (c := c) (c' := ⟨c.input, c.pos + W cfg c, some (c.pos, c.word (wordEnd cfg), n)⟩) _ rfl
        (by show c.pos + W cfg c = c.pos; omega)).symm
    · left; show c.pos < c.pos + W cfg c; omega

/-- and so is the one which is set back to the start of the scan -/
theorem wf_back {c : Cursor} (h : Wf cfg c) {n : Option UInt8} {p : Nat} :
    Wf cfg (Cursor.reset ⟨c.input, p, some (c.pos, c.word (wordEnd cfg), n)⟩ c.pos) := by
  refine ⟨h.pos, ?_⟩
  intro p w x hb
  cases hb
  exact Or.inr ⟨rfl, (word_congr _ rfl rfl).symm⟩

/-- a word was looked up: if it was found, then the reader is behind it; if not, then it is where it was -/
def Looks (cfg : Config) (b : Nat) (c : Cursor) (x : T (Option α × Cursor)) : Prop :=
  Run x (4 * left c + b) (fun o k => Later cfg c o.2 ∧
    match o.1 with
    | some _ => c.pos + W cfg c ≤ o.2.pos ∧ k ≤ 2 * (o.2.pos - c.pos) + b
    | none => o.2.pos = c.pos ∧ k ≤ 2 * W cfg c + b)

theorem keywordMultiple_looks {env : Env} (keywords : TimeUnitsLike) {c : Cursor} (h : Wf env.cfg c) :
    Looks env.cfg (connCost env.cfg + 3) c (parseKeywordMultiple env keywords c) := by
  have hW := W_left env.cfg c
  unfold parseKeywordMultiple
  refine Run.bind (Run.mono (scan_run h) (by omega) (fun a k _ hk ha => And.intro hk ha)) ?_
  rintro _ k _ _ ⟨hk, n, rfl⟩
  dsimp only
  have wf1 := wf_after h (n := n)
  refine Run.ite (fun he => ?_) (fun _ => ?_)
  · have h0 : W env.cfg c = 0 := by
      unfold W
      rw [List.isEmpty_iff] at he
      rw [he]; rfl
    refine Run.pure ⟨⟨rfl, by show c.pos ≤ c.pos + _; omega, wf1⟩, ?_⟩
    exact ⟨by show c.pos + _ = _; omega, by omega⟩
  · refine Run.bind (P := fun s k => s = c.word (wordEnd env.cfg) ∧ k = 0) (Run.lift ?_) ?_
    · intro a ha
      refine ⟨?_, rfl⟩
      unfold utf8Unchecked at ha
      split at ha
      · cases ha; rfl
      · cases ha
    rintro _ _ _ _ ⟨rfl, rfl⟩
    have eW : (c.word (wordEnd env.cfg)).length = W env.cfg c := rfl
    rw [eW]
    refine Run.charge (by omega) ?_
    unfold keywordFound
    cases keywords.get (c.word (wordEnd env.cfg)) with
    | none =>
      refine Run.ok ⟨⟨rfl, Nat.le_refl _, wf_back h⟩, rfl, ?_⟩
      omega
    | some u =>
      dsimp only
      have e1 : left (⟨c.input, c.pos + W env.cfg c, some (c.pos, c.word (wordEnd env.cfg), n)⟩ : Cursor) = left c - W env.cfg c := by
        unfold left; dsimp only; omega
      refine Run.bind (Run.mono (consumeConnectionIfAny_reads env.cfg _) (by rw [e1]; omega) (fun a k _ _ ha => ha)) ?_
      rintro c2 m _ _ ⟨hm, hk2⟩
      have hm : Moved _ c2 := hm
      have l2 := hm.later wf1
      have hp : c.pos + W env.cfg c ≤ c2.pos := l2.pos
      have hl : left c2 + (c2.pos - (c.pos + W env.cfg c)) = _ := l2.left
      have hk2 : m + left c2 ≤ _ + connCost env.cfg := hk2
      rw [e1] at hl hk2
      refine Run.pure ⟨⟨l2.input, ?_, l2.wf⟩, ?_, ?_⟩
      · show c.pos ≤ c2.pos; omega
      · show _ ≤ c2.pos; omega
      · show _ ≤ 2 * (c2.pos - c.pos) + _
        omega

/-- the time unit word is the word up to the next outer delimiter, digit or sign -/
theorem unitEnd_eq (H : ∀ b, cfg.innerDelimiter b = true → cfg.outerDelimiter b = true) : unitEnd cfg = wordEnd cfg := by
  unfold unitEnd
  by_cases h : cfg.allowAgo = true
  · rw [if_pos h]
    funext b
    unfold wordEndAgo wordEnd
    cases hi : cfg.innerDelimiter b with
    | false => rfl
    | true => rw [H b hi]; rfl
  · rw [if_neg h]

theorem takeWhile_le {p q : UInt8 → Bool} (h : ∀ b, p b = true → q b = true) (l : Bytes) :
    (l.takeWhile p).length ≤ (l.takeWhile q).length := by
  induction l with
  | nil => exact Nat.le_refl _
  | cons x xs ih =>
    rw [List.takeWhile_cons, List.takeWhile_cons]
    by_cases hp : p x = true
    · rw [if_pos hp, if_pos (h x hp), List.length_cons, List.length_cons]; omega
    · rw [if_neg hp]; exact Nat.zero_le _

/-- `ago` and a connection after a time unit -/
theorem agoConnection_run (H : ∀ b, cfg.innerDelimiter b = true → cfg.outerDelimiter b = true) (u : Unit') (c : Cursor) :
    Run (do
      let (u, c) ← agoMultiple cfg u c
      let c ← consumeConnectionIfAny cfg c
      return (some u, c) : T (Option Unit' × Cursor)) (2 * left c + connCost cfg + 5)
      (fun o k => Moved c o.2 ∧ o.1.isSome = true ∧ k ≤ 2 * (o.2.pos - c.pos) + connCost cfg + 5) := by
  -- the connection from a cursor further on
  have plain : ∀ (u : Unit') (c' : Cursor) (k : Nat), Moved c c' → k ≤ (c'.pos - c.pos) + 5 →
      Run (do
        let c ← consumeConnectionIfAny cfg c'
        return (some u, c) : T (Option Unit' × Cursor)) (2 * left c + connCost cfg + 5 - k)
        (fun o m => Moved c o.2 ∧ o.1.isSome = true ∧ k + m ≤ 2 * (o.2.pos - c.pos) + connCost cfg + 5) := by
    intro u c' k hm hk
    have hl := hm.left
    refine Run.bind (Run.mono (consumeConnectionIfAny_reads cfg c') (by omega) (fun a k _ _ ha => ha)) ?_
    rintro c2 m _ _ ⟨hm2, hk2⟩
    have hm2 : Moved c' c2 := hm2
    have hk2 : m + left c2 ≤ left c' + connCost cfg := hk2
    have hl2 := hm2.left
    refine Run.pure ⟨hm.trans hm2, rfl, ?_⟩
    show _ ≤ 2 * (c2.pos - c.pos) + _ + 5
    omega
  unfold agoMultiple
  cases hc : c.cur with
  | none =>
    refine Run.bind (P := fun o k => o = (u, c) ∧ k = 0) (Run.ok ⟨rfl, rfl⟩) ?_
    rintro _ _ _ _ ⟨rfl, rfl⟩
    exact plain u c 0 (Moved.refl c) (Nat.zero_le _)
  | some b =>
    dsimp only
    by_cases hb : (cfg.allowAgo && cfg.innerDelimiter b) = true
    · rw [if_pos hb]
      rw [Bool.and_eq_true] at hb
      have hd : (c.delims cfg.innerDelimiter).length ≤ left c := by rw [left_rest]; exact Cursor.takeWhile_length_le _ _
      have h1 := cur_left hc
      refine Run.bind (P := fun o k => (Moved c o.2 ∧ k ≤ (o.2.pos - c.pos) + 5) ∨
          (o.2 = c ∧ k ≤ (c.delims cfg.innerDelimiter).length + 5)) ?_ ?_
      · refine Run.bind (Run.mono (tryConsumeDelimiter_run _ c hc hb.2) (by omega) (fun a k _ _ ha => ha)) ?_
        rintro c' k _ _ ⟨rfl, hp, hp', hk⟩
        have e := left_advanceBy c (c.delims cfg.innerDelimiter).length
        refine Run.charge (by omega) (Run.ite (fun hn => ?_) (fun _ => Run.pure ?_))
        · have h3 : 3 ≤ left (c.advanceBy (c.delims cfg.innerDelimiter).length) := nextIs_left hn
          refine Run.pure ?_
          have hm : Moved c ((c.advanceBy (c.delims cfg.innerDelimiter).length).advanceBy 3) := (moved_by hd).trans (moved_by h3)
          unfold afterAgo
          cases ((c.advanceBy (c.delims cfg.innerDelimiter).length).advanceBy 3).cur with
          | none => left; refine ⟨hm, ?_⟩; show _ ≤ c.pos + _ + 3 - c.pos + 5; omega
          | some y =>
            dsimp only
            by_cases hy : (cfg.outerDelimiter y || isNextDuration y) = true
            · rw [if_pos hy]; left; refine ⟨hm, ?_⟩; show _ ≤ c.pos + _ + 3 - c.pos + 5; omega
            · rw [if_neg hy]; right; exact ⟨rfl, by omega⟩
        · right; exact ⟨rfl, by omega⟩
      · rintro ⟨u', c'⟩ k _ _ hk
        rcases hk with ⟨hm, hk⟩ | ⟨hcc, hk⟩
        · exact plain u' c' k hm hk
        · dsimp only at hcc
          subst hcc
          have ho := H b hb.2
          have he : consumeConnectionIfAny cfg c' = tryConnection cfg c' := by
            unfold consumeConnectionIfAny
            rw [hc]
            exact if_pos ho
          dsimp only
          rw [he]
          have hdd : (c'.delims cfg.innerDelimiter).length ≤ (c'.delims cfg.outerDelimiter).length := takeWhile_le H _
          have hdo : (c'.delims cfg.outerDelimiter).length ≤ left c' := by rw [left_rest]; exact Cursor.takeWhile_length_le _ _
          refine Run.bind (P := fun o m => Moved c' o ∧ m ≤ o.pos - c'.pos + connCost cfg ∧
              c'.pos + (c'.delims cfg.outerDelimiter).length ≤ o.pos) ?_ ?_
          · unfold tryConnection tryConsumeConnection
            have ec : connCost cfg = wordsCost (cfg.conjunctions.getD []) + 2 := rfl
            refine Run.bind (P := fun _ k => k = 0) (Run.lift (fun _ _ => rfl)) ?_
            rintro _ _ _ _ rfl
            refine Run.bind (Run.mono (tryConsumeDelimiter_run _ c' hc ho) (by omega) (fun a k _ _ ha => ha)) ?_
            rintro c2 m _ _ ⟨rfl, _, _, hm2⟩
            have e := left_advanceBy c' (c'.delims cfg.outerDelimiter).length
            have ec : connCost cfg = wordsCost (cfg.conjunctions.getD []) + 2 := rfl
            refine Run.mono (consumeConjunction_reads _ _ _ _) (by omega) ?_
            rintro c3 m3 _ _ ⟨hm3, hk3⟩
            have hm3 : Moved (c'.advanceBy (c'.delims cfg.outerDelimiter).length) c3 := hm3
            have hk3 : m3 + left c3 ≤ _ := hk3
            have hl3 := hm3.left
            have hp3 : (c'.advanceBy (c'.delims cfg.outerDelimiter).length).pos = c'.pos + (c'.delims cfg.outerDelimiter).length := rfl
            exact ⟨(moved_by hdo).trans hm3, by omega, by omega⟩
          · rintro c2 m _ _ ⟨hm2, hk2, hp2⟩
            refine Run.pure ⟨hm2, rfl, ?_⟩
            show _ ≤ 2 * (c2.pos - c'.pos) + _ + 5
            omega
    · rw [if_neg hb]
      refine Run.bind (P := fun o k => o = (u, c) ∧ k = 0) (Run.ok ⟨rfl, rfl⟩) ?_
      rintro _ _ _ _ ⟨rfl, rfl⟩
      exact plain u c 0 (Moved.refl c) (Nat.zero_le _)

theorem timeUnitMultiple_looks {env : Env} (H : ∀ b, env.cfg.innerDelimiter b = true → env.cfg.outerDelimiter b = true) {c : Cursor}
    (h : Wf env.cfg c) : Looks env.cfg (connCost env.cfg + 8) c (parseTimeUnitMultiple env c) := by
  have hW := W_left env.cfg c
  unfold parseTimeUnitMultiple
  refine Run.bind (P := fun _ k => k = 0) ?_ ?_
  · unfold assertSome
    cases c.cur with
    | none => exact Run.panic
    | some b => exact Run.ok rfl
  rintro _ _ _ _ rfl
  rw [unitEnd_eq H]
  refine Run.bind (Run.mono (scan_run h) (by omega) (fun a k _ hk ha => And.intro hk ha)) ?_
  rintro _ k _ _ ⟨hk, n, rfl⟩
  dsimp only
  have wf1 := wf_after h (n := n)
  refine Run.ite (fun he => ?_) (fun _ => ?_)
  · have h0 : W env.cfg c = 0 := by
      unfold W
      rw [List.isEmpty_iff] at he
      rw [he]; rfl
    refine Run.pure ⟨⟨rfl, by show c.pos ≤ c.pos + _; omega, wf1⟩, ?_⟩
    exact ⟨by show c.pos + _ = _; omega, by omega⟩
  · refine Run.bind (P := fun s k => s = c.word (wordEnd env.cfg) ∧ k = 0) (Run.lift ?_) ?_
    · intro a ha
      refine ⟨?_, rfl⟩
      unfold utf8Unchecked at ha
      split at ha
      · cases ha; rfl
      · cases ha
    rintro _ _ _ _ ⟨rfl, rfl⟩
    have eW : (c.word (wordEnd env.cfg)).length = W env.cfg c := rfl
    rw [eW]
    refine Run.charge (by omega) ?_
    unfold unitFoundMultiple
    cases env.units.get (c.word (wordEnd env.cfg)) with
    | none =>
      refine Run.ok ⟨⟨rfl, Nat.le_refl _, wf_back h⟩, rfl, ?_⟩
      omega
    | some u =>
      dsimp only
      have e1 : left (⟨c.input, c.pos + W env.cfg c, some (c.pos, c.word (wordEnd env.cfg), n)⟩ : Cursor) = left c - W env.cfg c := by
        unfold left; dsimp only; omega
      refine Run.mono (agoConnection_run H u _) (by rw [e1]; omega) ?_
      rintro ⟨o, c2⟩ m _ _ ⟨hm, hs, hk2⟩
      have l2 := hm.later wf1
      have hp : c.pos + W env.cfg c ≤ c2.pos := l2.pos
      refine ⟨⟨l2.input, by show c.pos ≤ c2.pos; omega, l2.wf⟩, ?_⟩
      cases o with
      | none => cases hs
      | some u =>
        have hk2 : m ≤ 2 * (c2.pos - (c.pos + W env.cfg c)) + connCost env.cfg + 5 := hk2
        exact ⟨hp, by show _ ≤ 2 * (c2.pos - c.pos) + _; omega⟩

end Fundu.Cost
