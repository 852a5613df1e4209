import Verif.Proofs.CostEats
/-! # Steps of a single duration -/
namespace Fundu.Cost
open Fundu

variable {α β : Type} {cfg : Config} {env : Env} {q : Bool}

/-- a state of the reader, in which nothing is buffered if `q` is set -/
structure Plain (q : Bool) (n : Nat) (c : Cursor) : Prop where
  len : c.input.length = n
  pos : c.pos ≤ n
  buf : q = true → c.buffer = none

theorem Plain.left {n : Nat} {c : Cursor} (h : Plain q n c) : Cost.left c ≤ n := by
  unfold Cost.left; rw [h.len]; omega

theorem Plain.pos' {n : Nat} {c : Cursor} (h : Plain q n c) : c.pos ≤ c.input.length := by rw [h.len]; exact h.pos

theorem Plain.moved {n : Nat} {c c' : Cursor} (h : Plain q n c) (hm : Moved c c') : Plain q n c' := by
  have hp := hm.pos h.pos'
  obtain ⟨m, rfl, _⟩ := hm
  exact ⟨h.len, by have : (c.advanceBy m).input.length = n := h.len; omega, h.buf⟩

/-- at most `E` steps, and the reader stays on the text -/
def Upto (q : Bool) (n E : Nat) (x : T α) (out : α → Cursor) : Prop := Run x E (fun o _ => Plain q n (out o))

theorem Upto.mono {n E E' : Nat} {x : T α} {out : α → Cursor} (h : Upto q n E x out) (hE : E ≤ E') : Upto q n E' x out :=
  Run.mono h hE (fun _ _ _ _ h => h)

theorem Upto.bind {n E E' : Nat} {x : T α} {out : α → Cursor} {f : α → T β} {out' : β → Cursor} (h : Upto q n E x out)
    (hf : ∀ a, Plain q n (out a) → Upto q n E' (f a) out') : Upto q n (E + E') (x >>= f) out' := by
  refine Run.bind (Run.mono h (by omega) (fun a k _ hk hp => And.intro hk hp)) ?_
  rintro a k _ _ ⟨hk, hp⟩
  exact Run.mono (hf a hp) (by omega) (fun _ _ _ _ h => h)

theorem Upto.charge {n m E : Nat} {x : T α} {out : α → Cursor} (h : Upto q n E x out) : Upto q n (m + E) (Cost.charge m x) out :=
  Run.charge (by omega) (Run.mono h (by omega) (fun _ _ _ _ h => h))

theorem Upto.reads {n b : Nat} {c : Cursor} {x : T α} {out : α → Cursor} (hp : Plain q n c) (h : Reads b c x out) : Upto q n (n + b) x out :=
  Run.mono h (by have := hp.left; omega) (fun _ _ _ _ h => hp.moved h.1)

theorem Upto.remainder {n E : Nat} {c : Cursor} {f : Bytes → ParseError} {out : α → Cursor} (hp : Plain q n c) (hE : n + 1 ≤ E) :
    Upto q n E (do let r ← getRemainderStr c; Cost.fail (f r) : T α) out := by
  refine Run.bind (P := fun _ _ => True) ?_ (fun _ _ _ _ _ => Run.fail)
  unfold getRemainderStr
  refine Run.charge ?_ (Run.lift (fun _ _ => trivial))
  have : left c = c.input.length - c.pos := rfl
  have := hp.left
  omega

theorem checkEnd_upto {n : Nat} {c : Cursor} {out : Unit → Cursor} (hp : Plain q n c) (ho : ∀ u, out u = c) : Upto q n (n + 1) (checkEnd c) out := by
  unfold checkEnd
  cases c.cur with
  | none => exact Run.ok (by rw [ho]; exact hp)
  | some b => exact Upto.remainder hp (Nat.le_refl _)

theorem Upto.total {n E E' : Nat} {x : T α} {out : α → Cursor} {f : α → T β} (h : Upto q n E x out)
    (hf : ∀ a, x.res = .ok a → Plain q n (out a) → (f a).cost ≤ E') : (x >>= f).cost ≤ E + E' := by
  have : Run (x >>= f) (E + E') (fun _ _ => True) := by
    refine Run.bind (Run.mono h (by omega) (fun a k _ hk hp => And.intro hk hp)) ?_
    rintro a k ha _ ⟨hk, hp⟩
    exact ⟨Nat.le_trans (hf a ha hp) (by omega), fun _ _ => trivial⟩
  exact this.1

theorem finalize_cost {n : Nat} (r : DurationRepr) {c : Cursor} (hp : Plain q n c) : (finalize .single cfg r c).cost ≤ n + 1 :=
  Upto.total (E' := 0) (checkEnd_upto hp (out := fun _ => c) (fun _ => rfl)) (fun _ _ _ => Nat.le_refl _)

theorem tryConsumeDelimiter_upto {n : Nat} (d : Delimiter) {c : Cursor} (hp : Plain q n c) : Upto q n (n + 1) (tryConsumeDelimiter d c) id := by
  cases hc : c.cur with
  | none =>
    unfold tryConsumeDelimiter
    refine Run.bind (P := fun _ _ => False) (Run.lift ?_) (fun _ _ _ _ h => h.elim)
    intro a ha
    unfold Cursor.assertDelimiter at ha
    rw [hc] at ha
    cases ha
  | some b =>
    by_cases hd : d b = true
    · exact Upto.reads hp (tryConsumeDelimiter_reads d c hc hd)
    · unfold tryConsumeDelimiter
      refine Run.bind (P := fun _ _ => False) (Run.lift ?_) (fun _ _ _ _ h => h.elim)
      intro a ha
      unfold Cursor.assertDelimiter at ha
      rw [hc] at ha
      simp [hd] at ha
      cases ha

theorem lookupRemainder_upto {n : Nat} (units : TimeUnitsLike) {c : Cursor} (hp : Plain q n c) : Upto q n (n + 1) (lookupRemainder units c) (fun o => o.2) := by
  unfold lookupRemainder
  refine Run.bind (P := fun s k => s.length ≤ n ∧ k = 0) (Run.lift ?_) ?_
  · intro a ha
    refine ⟨?_, rfl⟩
    unfold Cursor.getRemainderStrUnchecked Cursor.getRemainder at ha
    have h1 : c.input.length - c.pos ≤ n := by rw [hp.len]; omega
    have : sliceR c.input c.pos c.input.length = .ok c.rest := by
      have := Cursor.sliceR_rest c c.rest.length hp.pos' (Nat.le_refl _)
      rw [Cursor.rest_length] at this
      rw [← List.take_length (l := c.rest), Cursor.rest_length]
      rw [← this]
      congr 1
      have := hp.pos'
      omega
    rw [this, ok_bind] at ha
    unfold utf8Unchecked at ha
    split at ha
    · cases ha; rw [Cursor.rest_length]; exact h1
    · cases ha
  · rintro s _ _ _ ⟨hs, rfl⟩
    refine Run.charge (by omega) ?_
    cases units.get s with
    | none => exact Run.pure hp
    | some u => exact Run.pure ⟨hp.len, by show c.input.length ≤ n; rw [hp.len], hp.buf⟩

theorem parseTimeUnitSingle_upto {n : Nat} {c : Cursor} (hp : Plain q n c) : Upto q n (3 * n + 7) (parseTimeUnitSingle env c) (fun o => o.2) := by
  unfold parseTimeUnitSingle
  refine Upto.mono (Upto.bind (E := 0) (E' := 3 * n + 7) (out := fun _ => c) ?_ ?_) (by omega)
  · unfold assertSome
    cases c.cur with
    | none => exact Run.panic
    | some b => exact Run.ok hp
  intro _ _
  refine Run.ite (fun _ => ?_) (fun _ => Upto.mono (lookupRemainder_upto _ hp) (by omega))
  unfold parseTimeUnitAgo
  refine Run.bind (Run.mono (advanceTo_run env.cfg.innerDelimiter c hp.pos') (by have := hp.left; omega) (fun _ _ _ _ h => h)) ?_
  rintro _ k _ _ ⟨rfl, rfl⟩
  dsimp only
  have hl : (c.word env.cfg.innerDelimiter).length ≤ left c := by rw [left_rest]; exact Cursor.word_length _ c
  have hl2 := hp.left
  have hp1 := hp.moved (moved_by hl)
  refine Run.bind (P := fun s k => s.length ≤ n ∧ k = 0) (Run.lift ?_) ?_
  · intro a ha
    refine ⟨?_, rfl⟩
    unfold utf8Unchecked at ha
    split at ha
    · cases ha; omega
    · cases ha
  rintro s _ _ _ ⟨hs, rfl⟩
  refine Run.ite (fun _ => Run.pure hp1) (fun _ => Run.charge (by omega) ?_)
  have back : ∀ c2 : Cursor, Plain q n c2 → Plain q n (c2.reset c.pos) := fun c2 h => ⟨h.len, hp.pos, h.buf⟩
  unfold unitFoundSingle
  cases env.units.get s with
  | none => exact Run.ok (back _ hp1)
  | some u =>
    unfold agoSingle
    generalize hg : c.advanceBy (c.word env.cfg.innerDelimiter).length = c1 at hp1
    cases c1.cur with
    | none => exact Run.ok hp1
    | some b =>
      refine Run.mono (P := fun o _ => Plain q n o.2) (E := (n + 1) + (4 + 0)) ?_ (by omega) (fun _ _ _ _ h => h)
      refine Upto.bind (tryConsumeDelimiter_upto _ hp1) (fun c2 hp2 => Upto.charge ?_)
      have hp2 : Plain q n c2 := hp2
      refine Run.ite (fun hn => Run.pure (hp2.moved (moved_by (nextIs_left hn)))) (fun _ => Run.pure (back _ hp2))

theorem parseNumeral_upto {n : Nat} {c : Cursor} (hp : Plain true n c) :
    Upto false n (3 * n + 4) (parseNumeral env c) (fun o => o.2) := by
  have hl := hp.left
  unfold parseNumeral
  cases env.numerals with
  | none => exact Run.ok ⟨hp.len, hp.pos, fun h => by cases h⟩
  | some numerals =>
    dsimp only
    have hlw : (c.word env.cfg.innerDelimiter).length ≤ left c := by rw [left_rest]; exact Cursor.word_length _ c
    have hb : c.buffered env.cfg.innerDelimiter = none := by unfold Cursor.buffered; rw [hp.buf rfl]
    have hk := bufferedAdvanceTo_miss _ c hp.pos' hb
    refine Run.bind (P := fun o k => o.1.length ≤ n ∧ k ≤ o.1.length + 2 ∧ o.2.input = c.input ∧ o.2.pos = c.pos + o.1.length ∧ o.1.length ≤ left c)
      ⟨by rw [hk]; omega, ?_⟩ ?_
    · intro o ho
      rw [bufferedAdvanceTo_res, Cursor.bufferedAdvanceTo_none _ c hp.pos' hb] at ho
      cases ho
      exact ⟨by show List.length (c.word _) ≤ _; omega, by rw [hk], rfl, rfl, hlw⟩
    · rintro ⟨w, c1⟩ k _ _ ⟨h1, h2, h3, h4, h5⟩
      dsimp only at h1 h2 h3 h4 h5 ⊢
      have hin : c1.pos ≤ n := by
        unfold left at h5
        rw [hp.len] at h5
        have := hp.pos
        omega
      refine Run.ite (fun _ => Run.pure ⟨by show c1.input.length = n; rw [h3]; exact hp.len, hin, fun h => by cases h⟩) (fun _ => ?_)
      refine Run.bind (P := fun s k => s.length ≤ n ∧ k = 0) (Run.lift ?_) ?_
      · intro a ha
        refine ⟨?_, rfl⟩
        unfold utf8Unchecked at ha
        split at ha
        · cases ha; omega
        · cases ha
      rintro s _ _ _ ⟨hs, rfl⟩
      refine Run.charge (by omega) ?_
      have back : Plain false n (c1.reset c.pos) := ⟨by show c1.input.length = n; rw [h3]; exact hp.len, hp.pos, fun h => by cases h⟩
      unfold numeralFound
      cases numerals s with
      | none => exact Run.ok back
      | some m =>
        dsimp only
        cases hc : c1.cur with
        | none => exact Run.ok back
        | some b =>
          refine Run.ite (fun hd => ?_) (fun _ => Run.ok back)
          have hl1 : left c1 = left c - w.length := by unfold left; rw [h3, h4]; omega
          refine Run.bind (Run.mono (tryConsumeDelimiter_reads _ _ hc hd) (by rw [hl1]; omega) (fun _ _ _ _ h => h)) ?_
          rintro c2 m2 _ _ ⟨hm, _⟩
          have hm : Moved c1 c2 := hm
          have hp2 := hm.pos (by rw [h3, hp.len]; exact hin)
          have hi2 : c2.input = c1.input := by obtain ⟨m, rfl, _⟩ := hm; rfl
          refine Run.pure ⟨?_, ?_, fun h => by cases h⟩
          · show c2.input.length = n; rw [hi2, h3]; exact hp.len
          · show c2.pos ≤ n; rw [hi2, h3, hp.len] at hp2; exact hp2

theorem ite_cost {p : Prop} [Decidable p] {x y : T α} {E : Nat} (h1 : x.cost ≤ E) (h2 : y.cost ≤ E) : (if p then x else y).cost ≤ E := by
  split
  · exact h1
  · exact h2

theorem parseUnitPart_cost {n : Nat} (r : DurationRepr) {c : Cursor} (hp : Plain true n c) :
    (parseUnitPart .single env r c).cost ≤ (4 * n + 8) + (n + 1) := by
  have hl := hp.left
  unfold parseUnitPart
  refine Upto.total (q := true) (n := n) (out := fun o => o.2.2) ?_ ?_
  · unfold parseNumberTimeUnit
    cases c.cur with
    | none => exact Run.ok hp
    | some b =>
      dsimp only
      unfold numberTimeUnitSingle
      refine Run.ite (fun _ => ?_) (fun _ => ?_)
      · refine Upto.mono (Upto.bind (E' := n + 1) (parseTimeUnitSingle_upto hp) ?_) (by omega)
        rintro ⟨u, c1⟩ hp1
        have hp1 : Plain true n c1 := hp1
        dsimp only
        unfold unitOrError
        cases u with
        | some u => exact Run.ok hp1
        | none => exact Upto.remainder hp1 (Nat.le_refl _)
      · refine Run.bind (P := fun _ _ => True) ?_ (fun _ _ _ _ _ => Run.fail)
        refine Run.charge ?_ (Run.lift (fun _ _ => trivial))
        have : left c = c.input.length - c.pos := rfl
        omega
  · rintro ⟨go, u, c1⟩ _ hp1
    exact ite_cost (Nat.zero_le _) (finalize_cost _ hp1)

theorem parseDelimiterPart_cost {n : Nat} (r : DurationRepr) {c : Cursor} (hp : Plain true n c) :
    (parseDelimiterPart .single env r c).cost ≤ (n + 1) + ((4 * n + 8) + (n + 1)) :=
  Upto.total (Upto.reads hp (parseNumberDelimiter_reads _ c)) (fun _ _ hp1 => ite_cost (Nat.zero_le _) (parseUnitPart_cost _ hp1))

theorem parseExponentPart_cost {n : Nat} (r : DurationRepr) {c : Cursor} (hp : Plain true n c) :
    (parseExponentPart .single env r c).cost ≤ (n + 1) + ((n + 1) + ((4 * n + 8) + (n + 1))) :=
  Upto.total (Upto.reads hp (parseNumberExponent_reads _ c)) (fun _ _ hp1 => ite_cost (Nat.zero_le _) (parseDelimiterPart_cost _ hp1))

theorem parseAfterWhole_cost {n : Nat} (r : DurationRepr) {c : Cursor} (hp : Plain true n c) :
    (parseAfterWhole .single env r c).cost ≤ (n + 9) + ((n + 1) + ((n + 1) + ((4 * n + 8) + (n + 1)))) :=
  Upto.total (Upto.reads hp (parseNumberFraction_reads _ _ c hp.pos')) (fun _ _ hp1 => ite_cost (Nat.zero_le _) (parseExponentPart_cost _ hp1))

theorem parseWhole_cost {n : Nat} (r : DurationRepr) {c : Cursor} (hp : Plain true n c) :
    (parseWhole .single env r c).cost ≤ (n + 9) + ((n + 9) + ((n + 1) + ((n + 1) + ((4 * n + 8) + (n + 1))))) :=
  Upto.total (Upto.reads hp (parseDigitsStripZeros_reads c hp.pos')) (fun _ _ hp1 => parseAfterWhole_cost _ hp1)

theorem infinity_cost {n : Nat} (r : DurationRepr) {c : Cursor} (hp : Plain q n c) :
    (parseInfinityRemainder .single cfg r c).cost ≤ (n + 5) + (n + 1) := by
  show (infinitySingle { r with isInfinite := true } c).cost ≤ _
  unfold infinitySingle
  cases c.cur with
  | none => exact Nat.zero_le _
  | some b =>
    refine Upto.total (q := q) (n := n) (Upto.reads hp (inityLoop_reads c (b! "inity"))) (fun c1 _ hp1 => ?_)
    exact Upto.total (E' := 0) (checkEnd_upto hp1 (out := fun _ => c1) (fun _ => rfl)) (fun _ _ _ => Nat.le_refl _)

theorem parseNumeralWord_cost {n : Nat} (r : DurationRepr) {c : Cursor} (hp : Plain true n c) :
    (parseNumeralWord .single env r c).cost ≤ (3 * n + 4) + ((3 * n + 7) + (n + 1)) := by
  unfold parseNumeralWord
  refine Upto.total (parseNumeral_upto hp) ?_
  rintro ⟨o, c1⟩ _ hp1
  have hp1 : Plain false n c1 := hp1
  cases o with
  | none =>
    show (do let r ← getRemainderStr c1; Cost.fail (.invalidInput (.text r)) : T Output).cost ≤ _
    exact (Upto.remainder (out := fun _ => c1) hp1 (by omega)).1
  | some x =>
    obtain ⟨id, numeral⟩ := x
    show (do let (u, c) ← parseTimeUnitSingle env c1; numeralUnit .single env r c id numeral u : T Output).cost ≤ _
    refine Upto.total (parseTimeUnitSingle_upto hp1) ?_
    rintro ⟨u, c2⟩ _ hp2
    cases u with
    | none => exact ite_cost (Nat.zero_le _) (Nat.zero_le _)
    | some u => exact finalize_cost (cfg := env.cfg) _ hp2

theorem parseUnitWord_cost {n : Nat} (r : DurationRepr) {c : Cursor} (hp : Plain true n c) :
    (parseUnitWord .single env r c).cost ≤ (3 * n + 7) + ((3 * n + 4) + ((3 * n + 7) + (n + 1))) := by
  unfold parseUnitWord
  refine ite_cost ?_ (Nat.le_trans (parseNumeralWord_cost r hp) (by omega))
  show (do let (u, c') ← parseTimeUnitSingle env c; afterUnitWord .single env r c c' u : T Output).cost ≤ _
  refine Upto.total (parseTimeUnitSingle_upto hp) ?_
  rintro ⟨u, c1⟩ _ hp1
  have hp1 : Plain true n c1 := hp1
  cases u with
  | some u => exact Nat.le_trans (finalize_cost (cfg := env.cfg) _ hp1) (by omega)
  | none => exact parseNumeralWord_cost r ⟨hp1.len, hp.pos, hp1.buf⟩

theorem parseWord_cost {n : Nat} (r : DurationRepr) {c : Cursor} (hp : Plain true n c) :
    (parseWord .single env r c).cost ≤ (n + 1) + ((3 * n + 7) + ((3 * n + 4) + ((3 * n + 7) + (n + 1)))) := by
  unfold parseWord
  refine Upto.total (q := true) (n := n) (out := fun o => o.2) ?_ ?_
  · unfold parseKeyword
    cases env.keywords with
    | none => exact Run.ok hp
    | some keywords => exact lookupRemainder_upto _ hp
  · rintro ⟨u, c1⟩ _ hp1
    have hp1 : Plain true n c1 := hp1
    cases u with
    | some u => exact Nat.le_trans (finalize_cost (cfg := env.cfg) _ hp1) (by omega)
    | none => exact parseUnitWord_cost r hp1

theorem parseBody_cost {n : Nat} (r : DurationRepr) {c : Cursor} (hp : Plain true n c) :
    (parseBody .single env r c).cost ≤ 11 * n + 32 := by
  unfold parseBody
  cases c.cur with
  | none => exact Nat.zero_le _
  | some b =>
    refine ite_cost (Nat.le_trans (parseWhole_cost r hp) (by omega)) (ite_cost (Nat.le_trans (parseAfterWhole_cost r hp) (by omega)) ?_)
    show 4 + _ ≤ _
    have : (if (!env.cfg.disableInfinity && c.nextIs (b! "inf")) = true then
          parseInfinityRemainder .single env.cfg r (c.advanceBy 3) else parseWord .single env r c).cost ≤ 11 * n + 28 := by
      by_cases hi : (!env.cfg.disableInfinity && c.nextIs (b! "inf")) = true
      · rw [if_pos hi]
        rw [Bool.and_eq_true] at hi
        exact Nat.le_trans (infinity_cost r (hp.moved (moved_by (nextIs_left hi.2)))) (by omega)
      · rw [if_neg hi]
        exact Nat.le_trans (parseWord_cost r hp) (by omega)
    omega

theorem parseSingle_cost (env : Env) (s : Bytes) : (parseSingle env s).cost ≤ 24 * s.length + 86 := by
  have hp : Plain true s.length (Cursor.new s) := ⟨rfl, Nat.zero_le _, fun _ => rfl⟩
  have key : (templateParse .single env (Cursor.new s)).cost ≤ 12 * s.length + 34 := by
    unfold templateParse
    show 1 + _ ≤ _
    cases (Cursor.new s).cur with
    | none => show 1 + 0 ≤ _; omega
    | some b =>
      have := Upto.total (f := fun x => parseBody .single env { defaultUnit := env.cfg.defaultUnit, input := x.2.input, isNegative := x.1 } x.2)
        (Upto.reads hp (parseNumberSign_reads env.cfg (Cursor.new s))) (fun a _ hp1 => parseBody_cost _ hp1)
      exact Nat.le_trans (Nat.add_le_add_left this 1) (by omega)
  have h2 : Run (parseSingle env s) (24 * s.length + 86) (fun _ _ => True) := by
    unfold parseSingle
    refine Run.bind (P := fun o k => digits o.1 ≤ k ∧ k ≤ 12 * s.length + 34) ⟨by omega, fun o ho => ⟨?_, key⟩⟩ ?_
    · have := templateParse_digs .single env (Cursor.new s) o ho
      omega
    · rintro ⟨r, next⟩ k _ _ ⟨hr, hk⟩
      have := parseRepr_cost env.cfg r
      dsimp only at hr
      show Run (parseRepr env.cfg r) _ _
      exact ⟨by omega, fun _ _ => trivial⟩
  exact h2.1

end Fundu.Cost
