import Verif.Proofs.ListParser
/-! # The parser on cursors agrees with the parser on texts -/
namespace Fundu
open Spec Cursor

/-- both fail, or both succeed with related values -/
def Agrees {α β} (Q : α → β → Prop) (x : R α) (y : Option β) : Prop :=
  match x, y with
  | .ok a, some b => Q a b
  | .error _, none => True
  | _, _ => False

theorem Agrees.ok {α β} {Q : α → β → Prop} {a : α} {b : β} (h : Q a b) : Agrees Q (.ok a) (some b) := h
theorem Agrees.fail {α β} {Q : α → β → Prop} (e : ParseError) : Agrees Q (fail e : R α) (none : Option β) := trivial

theorem Agrees.bind {α β γ δ} {Q : α → β → Prop} {P : γ → δ → Prop} {x : R α} {y : Option β} {f : α → R γ}
    {g : β → Option δ} (h : Agrees Q x y) (hf : ∀ a b, Q a b → Agrees P (f a) (g b)) :
    Agrees P (x >>= f) (y.bind g) := by
  match x, y, h with
  | .ok a, some b, h => exact hf a b h
  | .error e, none, _ => exact trivial

theorem Agrees.map {α β γ δ} {Q : α → β → Prop} {P : γ → δ → Prop} {x : R α} {y : Option β} {f : α → R γ}
    {g : β → δ} (h : Agrees Q x y) (hf : ∀ a b, Q a b → Agrees P (f a) (some (g b))) :
    Agrees P (x >>= f) (y.map g) := by
  match x, y, h with
  | .ok a, some b, h => exact hf a b h
  | .error e, none, _ => exact trivial

theorem Agrees.mono {α β} {Q P : α → β → Prop} {x : R α} {y : Option β} (h : Agrees Q x y)
    (hq : ∀ a b, Q a b → P a b) : Agrees P x y := by
  match x, y, h with
  | .ok a, some b, h => exact hq a b h
  | .error e, none, _ => exact trivial

theorem Agrees.iff {α β} {Q : α → β → Prop} {x : R α} {y : Option β} (h : Agrees Q x y) :
    (∃ a, x = .ok a) ↔ ∃ b, y = some b := by
  match x, y, h with
  | .ok a, some b, h => exact ⟨fun _ => ⟨b, rfl⟩, fun _ => ⟨a, rfl⟩⟩
  | .error e, none, _ => exact ⟨(fun ⟨_, h⟩ => by cases h), (fun ⟨_, h⟩ => by cases h)⟩

theorem Agrees.some {α β} {Q : α → β → Prop} {x : R α} {y : Option β} (h : Agrees Q x y) {b : β} (hy : y = some b) :
    ∃ a, x = .ok a ∧ Q a b := by
  match x, y, h with
  | .ok a, .some b', h => cases hy; exact ⟨a, rfl, h⟩

theorem Agrees.of_ok {α β} {Q : α → β → Prop} {x : R α} {y : Option β} (h : Agrees Q x y) {a : α} (hx : x = .ok a) :
    ∃ b, y = Option.some b ∧ Q a b := by
  match x, y, h with
  | .ok a, .some b', h => cases hx; exact ⟨b', rfl, h⟩

/-- the cursor is in the input `I` at `r`, and not before position `p` -/
structure At (I : Bytes) (p : Nat) (c : Cursor) (r : Bytes) : Prop where
  inv : Inv I c
  rest : c.rest = r
  pos : p ≤ c.pos

section
variable {I : Bytes} {p : Nat} {c : Cursor} {s : Bytes} {cfg : Config}

theorem At.le {q : Nat} (h : At I p c s) (hq : q ≤ p) : At I q c s := ⟨h.inv, h.rest, Nat.le_trans hq h.pos⟩
theorem At.zero (h : At I p c s) : At I 0 c s := h.le (Nat.zero_le _)

theorem At.nil (h : At I p c []) : c.cur = none := by rw [cur_none_iff]; exact h.rest
theorem At.cons {b : UInt8} {l : Bytes} (h : At I p c (b :: l)) : c.cur = some b := by rw [cur_eq, h.rest]; rfl
theorem At.pos' (h : At I p c s) : c.pos ≤ c.input.length := h.inv.pos'

theorem At.advance {b : UInt8} {l : Bytes} (h : At I p c (b :: l)) (hb : b.toNat < 128) : At I (p + 1) c.advance l := by
  refine ⟨h.inv.advance h.cons hb, ?_, ?_⟩
  · rw [rest_advance, h.rest]; rfl
  · have := h.pos; show p + 1 ≤ c.pos + 1; omega

theorem At.advanceBy {A B : Bytes} (h : At I p c (A ++ B)) (hA : utf8Valid A = true) : At I (p + A.length) (c.advanceBy A.length) B := by
  refine ⟨h.inv.advanceBy h.rest hA, ?_, ?_⟩
  · rw [rest_advanceBy, h.rest, List.drop_left]
  · have := h.pos; show p + _ ≤ c.pos + _; omega

theorem takeWhile_append_dropWhile' (q : UInt8 → Bool) (l : Bytes) : l = l.takeWhile q ++ l.dropWhile q :=
  (List.takeWhile_append_dropWhile ..).symm

theorem At.delims {d : Delimiter} (hd : AsciiOnly d) (h : At I p c s) :
    At I (p + (s.takeWhile d).length) (c.advanceBy (c.delims d).length) (s.dropWhile d) := by
  have hs := takeWhile_append_dropWhile' d s
  have h' : At I p c (s.takeWhile d ++ s.dropWhile d) := by rw [← hs]; exact h
  have e : c.delims d = s.takeWhile d := by rw [Cursor.delims, h.rest]
  rw [e]
  exact h'.advanceBy (utf8Valid_ascii (fun x hx => hd x (takeWhile_mem hx)))

theorem At.word_eq {d : Delimiter} (h : At I p c s) : c.word d = L.word d s := by
  rw [Cursor.word, h.rest]; rfl

theorem At.afterWord {d : Delimiter} (hd : AsciiOnly d) (h : At I p c s) :
    At I (p + (L.word d s).length) (c.advanceBy (L.word d s).length) (L.afterWord d s) := by
  have hs := takeWhile_append_dropWhile' (fun b => !d b) s
  have h' : At I p c (L.word d s ++ L.afterWord d s) := by
    unfold L.word L.afterWord; rw [← hs]; exact h
  refine h'.advanceBy ?_
  rw [← h.word_eq]; exact Cursor.word_valid hd h.inv

theorem At.word_valid {d : Delimiter} (hd : AsciiOnly d) (h : At I p c s) : utf8Valid (L.word d s) = true := by
  rw [← h.word_eq]; exact Cursor.word_valid hd h.inv

theorem At.nextIs (h : At I p c s) (w : Bytes) : c.nextIs w = L.starts w s := by
  rw [nextIs_eq c w h.pos', h.rest]; rfl

theorem At.skip {w : Bytes} (h : At I p c s) (hw : utf8Valid w = true) (hn : L.starts w s = true) :
    At I (p + w.length) (c.advanceBy w.length) (s.drop w.length) := by
  have := nextIs_inv hw h.inv (by rw [h.nextIs]; exact hn)
  refine ⟨this, by rw [rest_advanceBy, h.rest], ?_⟩
  have := h.pos; show p + _ ≤ c.pos + _; omega

theorem skipDelims_sim {d : Delimiter} (hd : AsciiOnly d) (h : At I p c s) (hp : 1 ≤ p) (hh : L.headIs d s = true) :
    Agrees (At I p) (c.tryConsumeDelimiter d) (L.skipDelims d s) := by
  cases s with
  | nil => cases hh
  | cons b l =>
    have hb : d b = true := hh
    rw [tryConsumeDelimiter_eq d c b h.cons hb (by have := h.pos; omega)]
    have h' := h.delims hd
    unfold L.skipDelims
    rw [h'.rest]
    split
    · exact Agrees.fail _
    · exact h'.le (by omega)

theorem afterConj_sim {d : Delimiter} (hd : AsciiOnly d) (start : Nat) (w : Bytes) (h : At I p c s) (hp : 1 ≤ p) :
    Agrees (At I p) (afterConjunction d start w c) (L.afterConj d s) := by
  unfold afterConjunction L.afterConj
  cases s with
  | nil => rw [h.nil]; exact Agrees.fail _
  | cons b l =>
    rw [h.cons]
    simp only [reduceCtorEq, if_false]
    by_cases hb : d b = true
    · rw [if_pos hb, if_pos (show L.headIs d (b :: l) = true from hb)]
      exact skipDelims_sim hd h hp hb
    · rw [if_neg hb, if_neg (show ¬ L.headIs d (b :: l) = true from hb)]
      by_cases hn : isNextDuration b = true
      · rw [if_pos hn, if_pos (show L.headIs isNextDuration (b :: l) = true from hn)]
        exact h
      · rw [if_neg hn, if_neg (show ¬ L.headIs isNextDuration (b :: l) = true from hn)]
        exact Agrees.fail _

theorem conj_sim {d : Delimiter} (hd : AsciiOnly d) (start : Nat) (h : At I p c s) (hp : 1 ≤ p) (ws : List Bytes)
    (hw : ∀ w ∈ ws, utf8Valid w = true) :
    Agrees (At I p) (consumeConjunction d start c ws) (L.conj d s ws) := by
  induction ws with
  | nil => exact h
  | cons w ws ih =>
    unfold consumeConjunction L.conj
    rw [h.nextIs]
    by_cases hn : L.starts w s = true
    · rw [if_pos hn, if_pos hn]
      exact (afterConj_sim hd start w (h.skip (hw w (by simp)) hn) (by omega)).mono (fun _ _ h => h.le (by omega))
    · rw [if_neg hn, if_neg hn]
      exact ih (fun x hx => hw x (by simp [hx]))

theorem tryConnection_sim' (ho : CfgOk cfg) (h : At I p c s) (hp : 1 ≤ p)
    (hh : L.headIs cfg.outerDelimiter s = true) : Agrees (At I p) (tryConnection cfg c) (L.conn cfg s) := by
  cases s with
  | nil => cases hh
  | cons b l =>
    unfold tryConnection tryConsumeConnection L.conn
    rw [assertDelimiter_ok _ c b h.cons hh, ok_bind, if_pos hh]
    refine (skipDelims_sim ho.outer h hp hh).bind ?_
    intro c' t h'
    exact conj_sim ho.outer _ h' hp _ ho.conjunctions

theorem conn_sim (ho : CfgOk cfg) (h : At I p c s) (hp : 1 ≤ p) :
    Agrees (At I p) (consumeConnectionIfAny cfg c) (L.conn cfg s) := by
  unfold consumeConnectionIfAny
  cases s with
  | nil => rw [h.nil]; exact h
  | cons b l =>
    rw [h.cons]
    simp only
    by_cases hb : cfg.outerDelimiter b = true
    · rw [if_pos hb]; exact tryConnection_sim' ho h hp hb
    · rw [if_neg hb]
      unfold L.conn
      rw [if_neg (show ¬ L.headIs cfg.outerDelimiter (b :: l) = true from hb)]
      exact h

/-- the output of the template: the repr satisfies `P`, the cursor to continue with is where the text remains -/
def Out (I : Bytes) (p : Nat) (mode : Mode) (P : DurationRepr → Prop) (o : Output) (t : Bytes) : Prop :=
  P o.1 ∧ (mode = .single → t = []) ∧
    match o.2 with
    | none => t = []
    | some c => t ≠ [] ∧ At I p c t

theorem skipDelims_ne {d : Delimiter} {s t : Bytes} (h : L.skipDelims d s = some t) : t ≠ [] := by
  unfold L.skipDelims at h
  split at h
  · cases h
  · cases h; assumption

theorem afterConj_ne {d : Delimiter} {s t : Bytes} (h : L.afterConj d s = some t) : t ≠ [] := by
  unfold L.afterConj at h
  split at h
  · cases h
  · split at h
    · exact skipDelims_ne h
    · split at h
      · cases h; assumption
      · cases h

theorem conj_ne {d : Delimiter} {s t : Bytes} (hs : s ≠ []) {ws : List Bytes} (h : L.conj d s ws = some t) : t ≠ [] := by
  induction ws with
  | nil => cases h; exact hs
  | cons w ws ih =>
    unfold L.conj at h
    split at h
    · exact afterConj_ne h
    · exact ih h

theorem conn_ne {s t : Bytes} (hs : s ≠ []) (h : L.conn cfg s = some t) : t ≠ [] := by
  unfold L.conn at h
  split at h
  · rw [Option.bind_eq_some_iff] at h
    obtain ⟨x, h1, h2⟩ := h
    exact conj_ne (skipDelims_ne h1) h2
  · cases h; exact hs

theorem headIs_dropWhile (d : Delimiter) (s : Bytes) : L.headIs d (s.dropWhile d) = false := by
  cases h : s.dropWhile d with
  | nil => rfl
  | cons b l =>
    have : (s.dropWhile d).head? = some b := by rw [h]; rfl
    exact dropWhile_head this

theorem skipDelims_head {d : Delimiter} {s t : Bytes} (h : L.skipDelims d s = some t) : L.headIs d t = false := by
  unfold L.skipDelims at h
  split at h
  · cases h
  · cases h; exact headIs_dropWhile d s

theorem conn_head {s t : Bytes} (h : L.conn cfg s = some t) : L.headIs cfg.outerDelimiter t = false := by
  unfold L.conn at h
  split at h
  · rw [Option.bind_eq_some_iff] at h
    obtain ⟨x, h1, h2⟩ := h
    have hx := skipDelims_head h1
    clear h1
    generalize cfg.conjunctions.getD [] = ws at h2
    induction ws with
    | nil => cases h2; exact hx
    | cons w ws ih =>
      unfold L.conj at h2
      split at h2
      · unfold L.afterConj at h2
        split at h2
        · cases h2
        · split at h2
          · exact skipDelims_head h2
          · split at h2
            · cases h2; simp_all
            · cases h2
      · exact ih h2
  · cases h; simp_all

theorem conn_conn {s t : Bytes} (h : L.conn cfg s = some t) : L.conn cfg t = some t := by
  have := conn_head h
  unfold L.conn
  rw [this]; rfl

theorem makeOutput_end (mode : Mode) {P : DurationRepr → Prop} {r : DurationRepr} (hr : P r) (h : At I p c []) :
    Out I p mode P (makeOutput mode r c) [] := by
  cases mode with
  | single => exact ⟨hr, fun _ => rfl, rfl⟩
  | multiple =>
    unfold makeOutput unlessEnd
    rw [h.nil]
    exact ⟨hr, fun _ => rfl, rfl⟩

theorem finalize_sim' (ho : CfgOk cfg) (mode : Mode) {P : DurationRepr → Prop} {r : DurationRepr} (hr : P r)
    (h : At I p c s) (hp : 1 ≤ p) :
    Agrees (Out I p mode P) (finalize mode cfg r c) (L.final mode cfg s) := by
  cases mode with
  | single =>
    simp only [finalize, L.final]
    cases s with
    | nil =>
      unfold checkEnd
      rw [h.nil, if_pos rfl]
      exact ⟨hr, fun _ => rfl, rfl⟩
    | cons b l =>
      unfold checkEnd
      rw [h.cons]
      simp only [h.inv.getRemainderStr, ok_bind]
      exact trivial
  | multiple =>
    simp only [finalize, finalizeMultiple, L.final]
    cases s with
    | nil => rw [h.nil]; exact ⟨hr, fun _ => rfl, rfl⟩
    | cons b l =>
      rw [h.cons]
      simp only
      by_cases hb : cfg.outerDelimiter b = true
      · rw [if_pos hb]
        have hs := tryConnection_sim' ho h hp hb
        cases hy : L.conn cfg (b :: l) with
        | none =>
          rw [hy] at hs
          match hx : tryConnection cfg c, hs with
          | .error e, _ => exact trivial
        | some t =>
          obtain ⟨c', hx, hc'⟩ := hs.some hy
          rw [hx, ok_bind]
          exact ⟨hr, (fun h => by cases h), conn_ne (by simp) hy, hc'⟩
      · rw [if_neg hb]
        unfold L.conn
        rw [if_neg (show ¬ L.headIs cfg.outerDelimiter (b :: l) = true from hb)]
        exact ⟨hr, (fun h => by cases h), by simp, h⟩

/-! ## Signs and numbers -/

theorem afterSign_sim (ho : CfgOk cfg) (neg : Bool) (h : At I p c s) (hp : 1 ≤ p) :
    Agrees (fun o o' => o.1 = o'.1 ∧ At I p o.2 o'.2) (afterSign cfg c (some neg)) (L.signRest cfg neg s) := by
  unfold afterSign L.signRest
  cases s with
  | nil => rw [h.nil, if_pos rfl]; exact Agrees.fail _
  | cons b l =>
    rw [h.cons, if_neg (by simp)]
    simp only
    show Agrees _ (if (cfg.allowSignDelimiter && cfg.innerDelimiter b) = true then _ else _)
      (if (cfg.allowSignDelimiter && cfg.innerDelimiter b) = true then _ else _)
    split
    · rename_i hh
      simp only [Bool.and_eq_true] at hh
      refine (skipDelims_sim ho.inner h hp hh.2).map ?_
      intro c' t h'
      exact ⟨rfl, h'⟩
    · exact ⟨rfl, h⟩

theorem sign_sim (ho : CfgOk cfg) (h : At I 0 c s) :
    Agrees (fun o o' => o.1 = o'.1 ∧ At I 0 o.2 o'.2) (parseNumberSign cfg c) (L.sign cfg s) := by
  unfold parseNumberSign parseSignIsNegative L.sign
  cases s with
  | nil => rw [h.nil]; exact trivial
  | cons b l =>
    rw [h.cons]
    simp only
    by_cases h1 : b = 43
    · rw [if_pos h1, if_pos h1, ok_bind]
      subst h1
      exact (afterSign_sim ho false (h.advance (by decide)) (by omega)).mono (fun _ _ h => ⟨h.1, h.2.zero⟩)
    · rw [if_neg h1, if_neg h1]
      by_cases h2 : b = 45
      · rw [if_pos h2, if_pos h2, ok_bind]
        subst h2
        exact (afterSign_sim ho true (h.advance (by decide)) (by omega)).mono (fun _ _ h => ⟨h.1, h.2.zero⟩)
      · rw [if_neg h2, if_neg h2, ok_bind]
        exact ⟨rfl, h⟩

theorem At.digits_eq (h : At I p c s) : c.digits = s.takeWhile isDigit := by rw [Cursor.digits, h.rest]

theorem At.digits (h : At I p c s) :
    At I (p + (s.takeWhile isDigit).length) (c.advanceBy (s.takeWhile isDigit).length) (s.dropWhile isDigit) := by
  have h' : At I p c (s.takeWhile isDigit ++ s.dropWhile isDigit) := by
    rw [List.takeWhile_append_dropWhile]; exact h
  refine h'.advanceBy (utf8Valid_ascii (fun x hx => ?_))
  have := (isDigit_iff x).mp (takeWhile_mem hx)
  have := this.2
  omega

/-- the range of fraction digits -/
def IsFract (I : Bytes) (o : Option Range) (F : Bytes) : Prop := DurationRepr.optSlice I o = .ok F ∧ AllDigits F

/-- the range of whole digits denotes the number of `W` -/
def IsWhole (I : Bytes) (o : Option Range) (W : Bytes) : Prop :=
  (o = none ↔ W = []) ∧ ∃ W', DurationRepr.optSlice I o = .ok W' ∧ AllDigits W' ∧ decimal W' = decimal W

theorem optSlice_rest (h : At I p c s) (k n : Nat) (hk : k ≤ n) (hn : n ≤ s.length) :
    DurationRepr.optSlice I (some ⟨c.pos + k, c.pos + n⟩) = .ok ((s.take n).drop k) := by
  have hlen : s.length = I.length - c.pos := by rw [← h.rest, h.inv.restLength]
  have hpos := h.inv.pos
  rcases Nat.eq_zero_or_pos n with h0 | h0
  · subst h0
    have : k = 0 := by omega
    subst this
    show slice I (c.pos + 0) (c.pos + 0) = _
    rw [slice_ok (by omega) (by omega)]
    simp
  · show slice I (c.pos + k) (c.pos + n) = _
    rw [slice_ok (by omega) (by omega)]
    congr 1
    have : s = I.drop c.pos := by rw [← h.rest, Cursor.rest, h.inv.input]
    subst this
    rw [List.drop_take, List.drop_take, List.drop_drop]
    congr 1
    omega

theorem decimal_drop_zeros (W : Bytes) (k : Nat) (hk : k ≤ W.length) (h : ∀ b ∈ W.take k, b = 48) :
    decimal (W.drop k) = decimal W := by
  induction W generalizing k with
  | nil => simp
  | cons b l ih =>
    cases k with
    | zero => rfl
    | succ k =>
      have hb : b = 48 := h b (by simp)
      subst hb
      have := ih k (by simpa using hk) (fun x hx => h x (by simp [hx]))
      simp only [List.drop_succ_cons, decimal]
      rw [this]
      simp

theorem whole_sim (h : At I 0 c s) (hd : L.headIs isDigit s = true) :
    ∃ r c', c.parseDigitsStripZeros = .ok (r, c') ∧ IsWhole I (some r) (s.takeWhile isDigit) ∧
      At I 1 c' (s.dropWhile isDigit) := by
  cases hs : s with
  | nil => rw [hs] at hd; cases hd
  | cons b l =>
    rw [← hs]
    have hb : isDigit b = true := by rw [hs] at hd; exact hd
    have hcur : c.cur = some b := by rw [hs] at h; exact h.cons
    refine ⟨_, _, parseDigitsStripZeros_eq c h.pos' b hcur hb, ?_, ?_⟩
    · rw [h.digits_eq]
      have hlen : (s.takeWhile isDigit).length ≤ s.length := takeWhile_length_le _ _
      refine ⟨⟨(fun h => by cases h), fun h => ?_⟩, _, optSlice_rest h _ _ (zeros_le _) hlen, ?_, ?_⟩
      · rw [hs, List.takeWhile_cons, if_pos hb] at h; cases h
      · rw [takeWhile_take]
        intro x hx
        exact allDigits_takeWhile s x (List.mem_of_mem_drop hx)
      · rw [takeWhile_take]
        refine decimal_drop_zeros _ _ (zeros_le _) (fun x hx => ?_)
        unfold zeros at hx
        rw [takeWhile_take] at hx
        have := takeWhile_mem hx
        simpa using this
    · rw [h.digits_eq]
      refine h.digits.le ?_
      rw [hs, List.takeWhile_cons, if_pos hb]; simp

theorem fract_sim {whole : Option Range} {W : Bytes} (hw : IsWhole I whole W) (h : At I 0 c s)
    (hW : W ≠ [] → 1 ≤ c.pos) (hne : W = [] → L.headIs (fun b => b = 46) s = true) :
    Agrees (fun o o' => (o.1 = false → o'.2 = []) ∧ IsFract I o.2.1 o'.1 ∧ At I 1 o.2.2 o'.2 ∧
        (whole.isSome = true ∨ o.2.1.isSome = true) ∧ o.2.1.isSome = L.headIs (fun b => b = 46) s)
      (parseNumberFraction whole cfg.disableFraction c) (L.fract cfg W s) := by
  have hwn : whole.isNone = true ↔ W = [] := by rw [← hw.1]; cases whole <;> simp
  have hwhole : W ≠ [] → whole.isSome = true := by
    intro hne
    cases hx : whole with
    | none => exact absurd (hw.1.mp hx) hne
    | some _ => rfl
  unfold parseNumberFraction L.fract
  cases s with
  | nil =>
    rw [h.nil]
    have hWne : W ≠ [] := fun hh => by have := hne hh; cases this
    exact ⟨fun _ => rfl, ⟨rfl, fun b hb => by cases hb⟩, ⟨h.inv, h.rest, hW hWne⟩, Or.inl (hwhole hWne), rfl⟩
  | cons b l =>
    rw [h.cons]
    simp only
    by_cases hb : b = 46
    · rw [if_pos hb, if_pos hb]
      cases hdis : cfg.disableFraction with
      | true => exact Agrees.fail _
      | false =>
        simp only [Bool.false_eq_true, if_false]
        have h1 : At I 1 c.advance l := by subst hb; exact h.advance (by decide)
        have hpos := h1.pos
        unfold fractionDigits L.fractDigits
        cases l with
        | nil =>
          rw [h1.nil]
          simp only [List.takeWhile_nil, and_true, List.dropWhile_nil]
          by_cases hWe : W = []
          · rw [if_pos (hwn.mpr hWe), if_pos hWe]
            unfold subUsize
            rw [if_pos hpos]
            exact trivial
          · rw [if_neg (fun hh => hWe (hwn.mp hh)), if_neg hWe]
            have e := optSlice_rest h1 0 0 (by omega) (by omega)
            exact ⟨fun _ => rfl, ⟨e, fun b hb => by simp at hb⟩, h1, Or.inr rfl, by simp [L.headIs, hb]⟩
        | cons x l' =>
          rw [h1.cons]
          simp only
          by_cases hx : isDigit x = true
          · have ht : (x :: l').takeWhile isDigit ≠ [] := by rw [List.takeWhile_cons, if_pos hx]; simp
            rw [if_pos hx, parseDigits_eq _ h1.pos' x h1.cons hx, ok_bind, if_neg (fun hh => ht hh.2)]
            have e := optSlice_rest h1 0 _ (by omega) (takeWhile_length_le isDigit (x :: l'))
            rw [takeWhile_take] at e
            rw [h1.digits_eq]
            exact ⟨(fun h => by cases h), ⟨e, allDigits_takeWhile _⟩, h1.digits.le (by omega), Or.inr rfl, by simp [L.headIs, hb]⟩
          · have ht : (x :: l').takeWhile isDigit = [] := by rw [List.takeWhile_cons, if_neg hx]
            have hdw : (x :: l').dropWhile isDigit = x :: l' := by rw [List.dropWhile_cons, if_neg hx]
            rw [if_neg hx, ht, hdw]
            by_cases hWe : W = []
            · rw [if_pos (hwn.mpr hWe), if_pos ⟨hWe, rfl⟩]
              unfold subUsize
              rw [if_pos hpos]
              exact trivial
            · rw [if_neg (fun hh => hWe (hwn.mp hh)), if_neg (fun hh => hWe hh.1)]
              have e := optSlice_rest h1 0 0 (by omega) (by omega)
              exact ⟨(fun h => by cases h), ⟨e, fun b hb => by simp at hb⟩, h1, Or.inr rfl, by simp [L.headIs, hb]⟩
    · rw [if_neg hb, if_neg hb]
      have hWne : W ≠ [] := fun hh => by
        have := hne hh
        simp only [L.headIs, decide_eq_true_eq] at this
        exact hb this
      exact ⟨(fun h => by cases h), ⟨rfl, fun b hb => by cases hb⟩, ⟨h.inv, h.rest, hW hWne⟩, Or.inl (hwhole hWne), by simp [L.headIs, hb]⟩

theorem parseSign_exp (h : At I 1 c s) (hs : s ≠ []) :
    ∃ sg c', parseSignIsNegative c = .ok (sg, c') ∧ sg.getD false = (L.expSign s).1 ∧ At I 1 c' (L.expSign s).2 := by
  unfold parseSignIsNegative
  cases s with
  | nil => exact absurd rfl hs
  | cons b l =>
    rw [h.cons]
    simp only [L.expSign]
    by_cases h1 : b = 43
    · rw [if_pos h1, if_pos h1]
      subst h1
      exact ⟨_, _, rfl, rfl, (h.advance (by decide)).le (by omega)⟩
    · rw [if_neg h1, if_neg h1]
      by_cases h2 : b = 45
      · rw [if_pos h2, if_pos h2]
        subst h2
        exact ⟨_, _, rfl, rfl, (h.advance (by decide)).le (by omega)⟩
      · rw [if_neg h2, if_neg h2]
        exact ⟨_, _, rfl, rfl, h⟩

theorem exp_sim (h : At I 1 c s) :
    Agrees (fun o o' => (o.1 = false → o'.2 = []) ∧ o.2.1 = o'.1 ∧ At I 1 o.2.2 o'.2)
      (parseNumberExponent cfg.disableExponent c) (L.exp cfg s) := by
  unfold parseNumberExponent L.exp
  cases s with
  | nil => rw [h.nil]; exact ⟨fun _ => rfl, rfl, h⟩
  | cons b l =>
    rw [h.cons]
    simp only
    by_cases hb : (b = 101 || b = 69) = true
    · rw [if_pos hb, if_pos hb]
      cases hdis : cfg.disableExponent with
      | true => exact Agrees.fail _
      | false =>
        simp only [Bool.false_eq_true, if_false]
        have hba : b.toNat < 128 := by
          simp only [Bool.or_eq_true, decide_eq_true_eq] at hb
          rcases hb with rfl | rfl <;> decide
        have h1 : At I 1 c.advance l := (h.advance hba).le (by omega)
        cases hl : l with
        | nil =>
          rw [hl] at h1
          unfold parseExponent parseSignIsNegative
          rw [h1.nil]
          exact trivial
        | cons x l' =>
          rw [← hl]
          obtain ⟨sg, c1, e1, e2, h2⟩ := parseSign_exp h1 (by rw [hl]; simp)
          unfold parseExponent
          rw [e1]
          simp only [ok_bind]
          have e3 := exponentLoop_eq (sg.getD false) c1.input.length 0 c1 (by rw [Cursor.rest_length]; omega)
            (by rw [signed_zero]; decide)
          rw [signed_zero] at e3
          rw [e3, h2.digits_eq, e2]
          simp only [Nat.zero_mul, Nat.zero_add]
          generalize (L.expSign l).1 = neg
          unfold L.expDigits
          generalize (L.expSign l).2 = r at *
          by_cases hi : IsI16 (signed neg (decimal (r.takeWhile isDigit)))
          · rw [if_pos hi, if_pos hi]
            simp only [ok_bind]
            have : subUsize (c1.advanceBy (r.takeWhile isDigit).length).pos c1.pos = .ok (r.takeWhile isDigit).length := by
              unfold subUsize
              rw [pos_advanceBy, if_pos (Nat.le_add_right _ _)]
              congr 1; omega
            rw [this]
            simp only [liftP_ok, ok_bind]
            by_cases ht : r.takeWhile isDigit = []
            · rw [if_pos ht, ht]
              simp only [List.length_nil, Nat.lt_irrefl, if_false]
              split <;> exact trivial
            · rw [if_neg ht, if_pos (List.length_pos_iff.mpr ht)]
              exact ⟨(fun h => by cases h), rfl, h2.digits.le (by omega)⟩
          · simp only [if_neg hi, ite_self]
            cases neg <;> exact trivial
    · rw [if_neg hb, if_neg hb]
      exact ⟨(fun h => by cases h), rfl, h⟩

theorem numDelim_sim (ho : CfgOk cfg) (h : At I 1 c s) :
    Agrees (fun o t => (o.1 = false → t = []) ∧ At I 1 o.2 t)
      (parseNumberDelimiter (if cfg.allowTimeUnitDelimiter then some cfg.innerDelimiter else none) c)
      (L.numDelim cfg s) := by
  unfold parseNumberDelimiter L.numDelim
  cases s with
  | nil =>
    rw [h.nil]
    simp only [L.headIs, Bool.and_false, Bool.false_eq_true, if_false]
    exact ⟨fun _ => rfl, h⟩
  | cons b l =>
    rw [h.cons]
    cases ha : cfg.allowTimeUnitDelimiter with
    | false =>
      simp only [Bool.false_eq_true, if_false, Bool.false_and]
      exact ⟨(fun h => by cases h), h⟩
    | true =>
      simp only [if_true, Bool.true_and]
      by_cases hb : cfg.innerDelimiter b = true
      · rw [if_pos hb, if_pos (show L.headIs cfg.innerDelimiter (b :: l) = true from hb)]
        have := skipDelims_sim ho.inner h (Nat.le_refl _) hb
        cases hy : L.skipDelims cfg.innerDelimiter (b :: l) with
        | none =>
          rw [hy] at this
          match hx : c.tryConsumeDelimiter cfg.innerDelimiter, this with
          | .error e, _ => exact trivial
        | some t =>
          obtain ⟨c', hx, hc'⟩ := this.some hy
          rw [hx, ok_bind]
          exact ⟨(fun h => by cases h), hc'⟩
      · rw [if_neg hb, if_neg (show ¬ L.headIs cfg.innerDelimiter (b :: l) = true from hb)]
        exact ⟨(fun h => by cases h), h⟩

end
end Fundu
