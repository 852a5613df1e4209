import Verif.Proofs.CostRun
/-! # Steps of the conversion of digits -/
namespace Fundu.Cost
open Fundu

variable {α β : Type}

theorem bind_cost {x : T α} {f : α → T β} {a b : Nat} (h : x.cost ≤ a) (hf : ∀ v, x.res = .ok v → (f v).cost ≤ b) : (x >>= f).cost ≤ a + b := by
  show (T.bind x f).cost ≤ _
  unfold T.bind
  cases hx : x.res with
  | error e => exact Nat.le_trans h (Nat.le_add_right _ _)
  | ok v => exact Nat.add_le_add h (hf v hx)

theorem lift_bind_cost {x : R α} {f : α → T β} {b : Nat} (hf : ∀ v, x = .ok v → (f v).cost ≤ b) : (lift x >>= f).cost ≤ b := by
  have := bind_cost (x := lift x) (a := 0) (Nat.le_refl 0) hf
  omega

theorem pure_cost (a : α) : (Pure.pure a : T α).cost = 0 := rfl

theorem chunks_length : ∀ l : Bytes, 8 * (chunksExact8 l).1.length + (chunksExact8 l).2.length = l.length
  | a :: b :: c :: d :: e :: f :: g :: h :: rest => by
    unfold chunksExact8
    have := chunks_length rest
    simp only [List.length_cons]
    omega
  | [] => rfl
  | [_] => rfl
  | [_, _] => rfl
  | [_, _, _] => rfl
  | [_, _, _, _] => rfl
  | [_, _, _, _, _] => rfl
  | [_, _, _, _, _, _] => rfl
  | [_, _, _, _, _, _, _] => rfl

theorem wholeChunks_cost (s : Nat) (l : List Bytes) : (Whole.parseChunks s l).cost ≤ 8 * l.length := by
  induction l generalizing s with
  | nil => exact Nat.zero_le _
  | cons c cs ih =>
    unfold Whole.parseChunks
    show 8 + _ ≤ _
    rw [List.length_cons, Nat.mul_add, Nat.add_comm]
    refine Nat.add_le_add_right ?_ 8
    cases checkedU64 (100000000 * s) with
    | none => exact Nat.zero_le _
    | some s =>
      refine lift_bind_cost fun e _ => ?_
      cases checkedU64 (s + e) with
      | none => exact Nat.zero_le _
      | some s => exact ih s

theorem wholeEach_cost (s : Nat) (l : Bytes) : (Whole.parseEach s l).cost ≤ l.length := by
  induction l generalizing s with
  | nil => exact Nat.zero_le _
  | cons c cs ih =>
    unfold Whole.parseEach
    show 1 + _ ≤ _
    rw [List.length_cons, Nat.add_comm]
    refine Nat.add_le_add_right ?_ 1
    cases checkedU64 (s * 10) with
    | none => exact Nat.zero_le _
    | some s =>
      refine lift_bind_cost fun e _ => ?_
      cases checkedU64 (s + e) with
      | none => exact Nat.zero_le _
      | some s => exact ih s

theorem wholeSlice_cost (s : Nat) (l : Bytes) : (Whole.parseSlice s l).cost ≤ l.length := by
  unfold Whole.parseSlice
  by_cases h : 8 ≤ l.length
  · rw [if_pos h, ← chunks_length l]
    refine bind_cost (wholeChunks_cost _ _) fun o _ => ?_
    cases o with
    | none => exact Nat.zero_le _
    | some s => exact wholeEach_cost _ _
  · rw [if_neg h]; exact wholeEach_cost _ _

theorem whole_cost (digits : Bytes) (append : Option Bytes) (zeros : Option Nat) :
    (Whole.parse digits append zeros).cost ≤ digits.length + (append.getD []).length := by
  unfold Whole.parse
  by_cases h : (digits.isEmpty && noneOrEmpty append) = true
  · rw [if_pos h]; exact Nat.zero_le _
  · rw [if_neg h]
    refine bind_cost (wholeSlice_cost _ _) fun o _ => ?_
    cases o with
    | none => exact Nat.zero_le _
    | some s =>
      refine bind_cost (b := 0) ?_ fun o _ => ?_
      · cases append with
        | none => exact Nat.zero_le _
        | some a => exact wholeSlice_cost _ _
      · cases o with
        | none => exact Nat.zero_le _
        | some s =>
          dsimp only
          split <;> exact Nat.zero_le _

theorem fractChunks_cost (s : Nat) (l : List Bytes) : (Fract.parseChunks s l).cost ≤ 8 * l.length := by
  induction l generalizing s with
  | nil => exact Nat.zero_le _
  | cons c cs ih =>
    unfold Fract.parseChunks
    show 8 + _ ≤ _
    rw [List.length_cons, Nat.mul_add, Nat.add_comm]
    refine Nat.add_le_add_right ?_ 8
    exact lift_bind_cost fun m _ => lift_bind_cost fun e _ => lift_bind_cost fun a _ => ih a

theorem fractEach_cost (s : Nat) (l : Bytes) : (Fract.parseEach s l).cost ≤ l.length := by
  induction l generalizing s with
  | nil => exact Nat.zero_le _
  | cons c cs ih =>
    unfold Fract.parseEach
    show 1 + _ ≤ _
    rw [List.length_cons, Nat.add_comm]
    refine Nat.add_le_add_right ?_ 1
    exact lift_bind_cost fun m _ => lift_bind_cost fun e _ => lift_bind_cost fun a _ => ih a

theorem fractUsed_cost (s : Nat) (l : Bytes) : (Fract.parseUsed s l).cost ≤ l.length := by
  unfold Fract.parseUsed
  by_cases h : 8 ≤ l.length
  · rw [if_pos h, ← chunks_length l]
    exact bind_cost (fractChunks_cost _ _) fun o _ => fractEach_cost _ _
  · rw [if_neg h]; exact fractEach_cost _ _

theorem slice_length {l s : Bytes} {a b : Nat} (h : slice l a b = .ok s) : s.length = b - a := by
  unfold slice at h
  by_cases hb : a ≤ b ∧ b ≤ l.length
  · rw [if_pos hb] at h
    cases h
    rw [List.length_drop, List.length_take]
    omega
  · rw [if_neg hb] at h; cases h

theorem liftP_inv {x : Except Panic α} {a : α} (h : (liftP x : R α) = .ok a) : x = .ok a := by
  cases x with
  | error e => cases h
  | ok v => cases h; rfl

/-- no more digits than are asked for, and what is left of them -/
theorem fractSlice_run (s n : Nat) (l : Bytes) : Run (Fract.parseSlice s n l) n (fun o k => k + o.2 ≤ n) := by
  unfold Fract.parseSlice
  have hm := Nat.min_le_right l.length n
  refine Run.bind (P := fun u k => k = 0 ∧ u.length = min l.length n) (Run.lift fun u hu => ⟨rfl, by rw [slice_length (liftP_inv hu)]; omega⟩) ?_
  rintro u _ _ _ ⟨rfl, hl⟩
  refine Run.bind (P := fun _ k => k ≤ min l.length n) ?_ ?_
  · have := fractUsed_cost s u
    exact ⟨by omega, fun _ _ => by omega⟩
  rintro a k _ _ hk
  refine Run.bind (P := fun r k => k = 0 ∧ r = n - min l.length n) (Run.lift fun r hr => ⟨rfl, ?_⟩) ?_
  · have hr := liftP_inv hr
    unfold subUsize at hr
    rw [if_pos hm] at hr
    cases hr
    rfl
  rintro r _ _ _ ⟨rfl, rfl⟩
  exact Run.pure (by dsimp only; omega)

/-- at most 18 digits behind the point are converted -/
theorem fract_cost (digits : Bytes) (prepend : Option Bytes) (zeros : Option Nat) : (Fract.parse digits prepend zeros).cost ≤ 18 := by
  unfold Fract.parse
  by_cases h : (digits.isEmpty && noneOrEmpty prepend) = true
  · rw [if_pos h]; exact Nat.zero_le _
  · rw [if_neg h]
    by_cases hz : 18 < Fundu.Fract.zerosOr0 zeros
    · rw [if_pos hz]; exact Nat.zero_le _
    · rw [if_neg hz]
      have hn : 18 - Fundu.Fract.zerosOr0 zeros ≤ 18 := Nat.sub_le _ _
      generalize 18 - Fundu.Fract.zerosOr0 zeros = n at hn
      cases Fundu.Fract.nonEmpty prepend with
      | some p =>
        have : Run (Fract.parseSlice 0 n p >>= fun o => Fract.afterPrepend digits o.1 o.2) n (fun _ _ => True) := by
          refine Run.bind (fractSlice_run 0 n p) ?_
          rintro ⟨a, m⟩ k _ _ hk
          dsimp only at hk ⊢
          unfold Fract.afterPrepend
          refine Run.ite (fun _ => Run.ok trivial) (fun _ => Run.ite (fun _ => Run.lift fun _ _ => trivial) (fun _ => ?_))
          refine Run.bind (Run.mono (fractSlice_run a m digits) (by omega) (fun _ _ _ _ h => h)) ?_
          rintro o k _ _ hk
          exact Run.ite (fun _ => Run.lift fun _ _ => trivial) (fun _ => Run.pure trivial)
        exact Nat.le_trans this.1 hn
      | none =>
        have : Run (Fract.parseAlone digits n) n (fun _ _ => True) := by
          unfold Fract.parseAlone
          refine Run.bind (fractSlice_run 0 n digits) ?_
          rintro o k _ _ hk
          exact Run.ite (fun _ => Run.lift fun _ _ => trivial) (fun _ => Run.pure trivial)
        exact Nat.le_trans this.1 hn

/-- the number of digits of a part of a number -/
def optDigits : Option Range → Nat
  | none => 0
  | some r => r.stop - r.start

/-- the number of digits of a number -/
def digits (r : DurationRepr) : Nat := optDigits r.whole + optDigits r.fract

theorem rangeSlice_length {l s : Bytes} {r : Range} (h : DurationRepr.rangeSlice l r = .ok s) : s.length = r.stop - r.start := slice_length h

theorem optSlice_length {l s : Bytes} {o : Option Range} (h : DurationRepr.optSlice l o = .ok s) : s.length = optDigits o := by
  cases o with
  | none => cases h; rfl
  | some r => exact rangeSlice_length h

theorem appendSlice_length {l : Bytes} {s : Option Bytes} {o : Option Range} (h : DurationRepr.appendSlice l o = .ok s) : (s.getD []).length = optDigits o := by
  cases o with
  | none => cases h; rfl
  | some r =>
    unfold DurationRepr.appendSlice at h
    dsimp only at h
    cases hs : DurationRepr.rangeSlice l r with
    | error e => rw [hs] at h; cases h
    | ok t =>
      rw [hs] at h
      cases h
      exact rangeSlice_length hs

theorem longerThan_some {o : Option Range} {n : Nat} {w : Range} (h : DurationRepr.longerThan o n = .ok (some w)) :
    o = some w ∧ n < w.stop - w.start := by
  cases o with
  | none => cases h
  | some r =>
    unfold DurationRepr.longerThan Range.len subUsize at h
    dsimp only at h
    by_cases hr : r.start ≤ r.stop
    · rw [if_pos hr] at h
      by_cases hn : n < r.stop - r.start
      · have : (if n < r.stop - r.start then Except.ok (some r) else Except.ok none : Except Panic (Option Range)) = .ok (some w) := h
        rw [if_pos hn] at this
        cases this
        exact ⟨rfl, hn⟩
      · have : (if n < r.stop - r.start then Except.ok (some r) else Except.ok none : Except Panic (Option Range)) = .ok (some w) := h
        rw [if_neg hn] at this
        cases this
    · rw [if_neg hr] at h; cases h

theorem subUsize_ok {a b c : Nat} (h : subUsize a b = .ok c) : c = a - b := by
  unfold subUsize at h
  by_cases hb : b ≤ a
  · rw [if_pos hb] at h; cases h; rfl
  · rw [if_neg hb] at h; cases h

theorem secondsAndAttos_cost (l : Bytes) (whole fract : Option Range) (e : Int) :
    (secondsAndAttos l whole fract e).cost ≤ optDigits whole + optDigits fract + 18 := by
  unfold secondsAndAttos
  by_cases h1 : e < 0
  · rw [if_pos h1]
    refine lift_bind_cost fun o ho => ?_
    cases o with
    | some w =>
      obtain ⟨rfl, hn⟩ := longerThan_some (liftP_inv ho)
      show (shiftRight l fract w e.natAbs).cost ≤ _
      unfold shiftRight
      refine lift_bind_cost fun cut hc => lift_bind_cost fun s hs => ?_
      have hc := subUsize_ok (liftP_inv hc)
      have hs := slice_length (liftP_inv hs)
      have hw := whole_cost s none none
      rw [show (Option.getD (none : Option Bytes) []).length = 0 from rfl] at hw
      refine Nat.le_trans (bind_cost hw (b := 18) fun o _ => ?_) (by show s.length + 0 + 18 ≤ w.stop - w.start + _ + 18; omega)
      cases o with
      | none => exact Nat.zero_le _
      | some seconds =>
        exact lift_bind_cost fun f _ => lift_bind_cost fun p _ => bind_cost (b := 0) (fract_cost _ _ _) fun _ _ => Nat.le_refl _
    | none =>
      have hw : ∀ n, (shiftWhole l whole n).cost ≤ 18 := fun n => by
        unfold shiftWhole
        exact lift_bind_cost fun _ _ => lift_bind_cost fun _ _ => lift_bind_cost fun _ _ => bind_cost (b := 0) (fract_cost _ _ _) fun _ _ => Nat.le_refl _
      have hb : ∀ f n, (shiftBoth l whole f n).cost ≤ 18 := fun f n => by
        unfold shiftBoth
        exact lift_bind_cost fun _ _ => lift_bind_cost fun _ _ => lift_bind_cost fun _ _ => lift_bind_cost fun _ _ =>
          bind_cost (b := 0) (fract_cost _ _ _) fun _ _ => Nat.le_refl _
      refine Nat.le_trans ?_ (Nat.le_add_left 18 _)
      cases fract with
      | none => exact hw _
      | some f =>
        dsimp only
        split
        · exact hw _
        · exact hb _ _
  · rw [if_neg h1]
    by_cases h0 : e = 0
    · rw [if_pos h0]
      unfold shiftNone
      rw [Nat.add_assoc]
      refine bind_cost ?_ fun o _ => ?_
      · cases whole with
        | none => exact Nat.zero_le _
        | some w =>
          refine lift_bind_cost fun s hs => ?_
          have := rangeSlice_length (liftP_inv hs)
          have hw := whole_cost s none none
          rw [show (Option.getD (none : Option Bytes) []).length = 0 from rfl] at hw
          show _ ≤ w.stop - w.start
          omega
      · cases o with
        | none => exact Nat.zero_le _
        | some seconds =>
          refine Nat.le_trans (bind_cost (a := 18) (b := 0) ?_ fun _ _ => Nat.le_refl _) (by omega)
          cases fract with
          | none => exact Nat.zero_le _
          | some f => exact lift_bind_cost fun s _ => fract_cost _ _ _
    · rw [if_neg h0]
      refine lift_bind_cost fun o ho => ?_
      cases o with
      | some f =>
        obtain ⟨rfl, hn⟩ := longerThan_some (liftP_inv ho)
        show (shiftLeft l whole f e.natAbs).cost ≤ _
        unfold shiftLeft
        refine lift_bind_cost fun w hw => lift_bind_cost fun a ha => ?_
        have hw := optSlice_length (liftP_inv hw)
        have ha := slice_length (liftP_inv ha)
        have hc := whole_cost w (some a) none
        rw [show (Option.getD (some a) []).length = a.length from rfl] at hc
        refine Nat.le_trans (bind_cost hc (b := 18) fun o _ => ?_) (by show w.length + a.length + 18 ≤ optDigits whole + (f.stop - f.start) + 18; omega)
        cases o with
        | none => exact Nat.zero_le _
        | some seconds =>
          exact lift_bind_cost fun s _ => bind_cost (b := 0) (fract_cost _ _ _) fun _ _ => Nat.le_refl _
      | none =>
        show (shiftAll l whole fract e.natAbs).cost ≤ _
        unfold shiftAll
        refine lift_bind_cost fun w hw => lift_bind_cost fun a ha => lift_bind_cost fun _ _ => lift_bind_cost fun z _ => ?_
        have hw := optSlice_length (liftP_inv hw)
        have ha := appendSlice_length (liftP_inv ha)
        have hc := whole_cost w a (some z)
        refine Nat.le_trans (bind_cost hc (b := 0) fun o _ => ?_) (by omega)
        cases o with
        | none => exact Nat.zero_le _
        | some seconds => exact Nat.zero_le _

theorem convert_cost (r : DurationRepr) : (convert r).cost ≤ digits r + 18 := by
  unfold convert
  split
  · exact Nat.zero_le _
  · refine lift_bind_cost fun m _ => ?_
    split
    · exact Nat.zero_le _
    · refine bind_cost (b := 0) (secondsAndAttos_cost _ _ _ _) fun o _ => ?_
      cases o with
      | none => exact Nat.zero_le _
      | some o => exact Nat.zero_le _

theorem parseRepr_cost (cfg : Config) (r : DurationRepr) : (parseRepr cfg r).cost ≤ digits r + 18 := by
  unfold parseRepr
  refine bind_cost (b := 0) (convert_cost r) fun d _ => ?_
  split <;> exact Nat.zero_le _

theorem rangeWhole_cost (l : Bytes) (w : Range) {f : Option Nat → T α} {b : Nat} (hf : ∀ o, (f o).cost ≤ b) :
    (lift (liftP (DurationRepr.rangeSlice l w)) >>= fun s => Whole.parse s none none >>= f).cost ≤ w.stop - w.start + b := by
  refine lift_bind_cost fun s hs => ?_
  have := rangeSlice_length (liftP_inv hs)
  have hw := whole_cost s none none
  rw [show (Option.getD (none : Option Bytes) []).length = 0 from rfl] at hw
  exact bind_cost (by omega) fun o _ => hf o

theorem scaled_cost (r : DurationRepr) (w : Range) {x : T Nat} (m : Multiplier) (hx : x.cost ≤ 18) :
    (scaled r w x m).cost ≤ w.stop - w.start + 18 := by
  unfold scaled
  refine rangeWhole_cost _ _ fun o => ?_
  cases o with
  | none => exact Nat.zero_le _
  | some s => exact bind_cost (b := 0) hx fun _ _ => Nat.le_refl _

theorem parseReprGnu_cost (r : DurationRepr) : (parseReprGnu r).cost ≤ digits r + 18 := by
  unfold parseReprGnu digits
  cases r.whole with
  | none => exact Nat.zero_le _
  | some w =>
    have h0 : optDigits (some w) = w.stop - w.start := rfl
    cases r.fract with
    | none =>
      have : ∀ m, (scaled r w (.ok 0) m).cost ≤ optDigits (some w) + optDigits none + 18 := fun m =>
        Nat.le_trans (scaled_cost r w m (Nat.zero_le _)) (by omega)
      exact lift_bind_cost fun m _ => this m
    | some f =>
      dsimp only
      split
      · split
        · exact Nat.zero_le _
        · exact lift_bind_cost fun m _ => Nat.le_trans (scaled_cost r w m (lift_bind_cost fun s _ => fract_cost _ _ _)) (by omega)
      · exact Nat.zero_le _

theorem fuzzyUnit_cost (r : DurationRepr) : (fuzzyUnit r).cost ≤ digits r + 18 := by
  unfold fuzzyUnit
  split
  · exact Nat.zero_le _
  · unfold fuzzyNumber digits
    cases r.whole with
    | none => exact Nat.zero_le _
    | some w =>
      have h0 : optDigits (some w) = w.stop - w.start := rfl
      exact Nat.le_trans (rangeWhole_cost _ _ (b := 0) fun o => Nat.le_refl _) (by omega)

theorem parseReprFuzzy_cost (r : DurationRepr) : (parseReprFuzzy r).cost ≤ digits r + 18 := by
  unfold parseReprFuzzy
  split
  · exact bind_cost (b := 0) (fuzzyUnit_cost r) fun _ _ => Nat.le_refl _
  · split
    · exact bind_cost (b := 0) (fuzzyUnit_cost r) fun _ _ => Nat.le_refl _
    · exact bind_cost (b := 0) (parseReprGnu_cost r) fun _ _ => Nat.le_refl _

end Fundu.Cost
