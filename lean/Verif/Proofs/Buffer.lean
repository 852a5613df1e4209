import Verif.Proofs.SafeParse
/-! # The scan buffer is transparent: the parser gives the same result without it -/
namespace Fundu
open Spec

/-- both results are errors, the same one, or both are values which are related by `Q` -/
def Sim {α β} (Q : α → β → Prop) (x : R α) (y : R β) : Prop :=
  match x, y with
  | .ok a, .ok b => Q a b
  | .error e, .error f => e = f
  | _, _ => False

theorem Sim.ok {α β} {Q : α → β → Prop} {a : α} {b : β} (h : Q a b) : Sim Q (.ok a) (.ok b) := h
theorem Sim.fail {α β} {Q : α → β → Prop} (e : ParseError) : Sim Q (fail e : R α) (fail e : R β) := rfl
theorem Sim.panic {α β} {Q : α → β → Prop} (p : Panic) : Sim Q (panic p : R α) (panic p : R β) := rfl

theorem Sim.bind {α β γ δ} {Q : α → β → Prop} {P : γ → δ → Prop} {x : R α} {y : R β} {f : α → R γ} {g : β → R δ}
    (h : Sim Q x y) (hf : ∀ a b, Q a b → Sim P (f a) (g b)) : Sim P (x >>= f) (y >>= g) := by
  match x, y, h with
  | .ok a, .ok b, h => exact hf a b h
  | .error e, .error f, h => exact h

/-- binding the same computation -/
theorem Sim.bind_same {α γ δ} {P : γ → δ → Prop} {x : R α} {f : α → R γ} {g : α → R δ}
    (hf : ∀ a, x = .ok a → Sim P (f a) (g a)) : Sim P (x >>= f) (x >>= g) := by
  match hx : x with
  | .ok a => exact hf a rfl
  | .error e => exact rfl

theorem Sim.mono {α β} {Q P : α → β → Prop} {x : R α} {y : R β} (h : Sim Q x y) (hq : ∀ a b, Q a b → P a b) :
    Sim P x y := by
  match x, y, h with
  | .ok a, .ok b, h => exact hq a b h
  | .error e, .error f, h => exact h

theorem Sim.eq {α} {x y : R α} (h : Sim (fun a b => a = b) x y) : x = y := by
  match x, y, h with
  | .ok a, .ok b, h => cases h; rfl
  | .error e, .error f, h => cases h; rfl

theorem Sim.refl {α} (x : R α) : Sim (fun a b => a = b) x x := by cases x <;> exact rfl

namespace Cursor

/-- the cursor without its buffer -/
def erase (c : Cursor) : Cursor := { c with buffer := none }

/-- `c1` is reached from `c` without touching the buffer, and `c2` is the same cursor without buffer -/
structure Keeps (c c1 c2 : Cursor) : Prop where
  erase : c2 = c1.erase
  buffer : c1.buffer = c.buffer
  pos : c.pos ≤ c1.pos
  input : c1.input = c.input

theorem Keeps.refl (c : Cursor) : Keeps c c c.erase := ⟨rfl, rfl, Nat.le_refl _, rfl⟩

theorem Keeps.trans {c c1 c2 c3 : Cursor} {d : Cursor} (h : Keeps c c1 c2) (h' : Keeps c1 c3 d) : Keeps c c3 d :=
  ⟨h'.1, h'.buffer.trans h.buffer, Nat.le_trans h.pos h'.pos, h'.input.trans h.input⟩

theorem Keeps.advanceBy (c : Cursor) (n : Nat) : Keeps c (c.advanceBy n) (c.erase.advanceBy n) :=
  ⟨rfl, rfl, Nat.le_add_right _ _, rfl⟩

theorem cur_erase (c : Cursor) : c.erase.cur = c.cur := rfl
theorem rest_erase (c : Cursor) : c.erase.rest = c.rest := rfl

theorem skipTo_sim (d : Delimiter) (n : Nat) (c : Cursor) : Sim (Keeps c) (skipTo d n c) (skipTo d n c.erase) := by
  induction n generalizing c with
  | zero =>
    unfold skipTo
    rw [cur_erase]
    cases c.cur with
    | none => exact Keeps.refl c
    | some b =>
      simp only
      split
      · exact Keeps.refl c
      · exact Sim.panic _
  | succ n ih =>
    unfold skipTo
    rw [cur_erase]
    cases c.cur with
    | none => exact Keeps.refl c
    | some b =>
      simp only
      split
      · exact Keeps.refl c
      · exact (ih c.advance).mono (fun _ _ h => (Keeps.advanceBy c 1).trans h)

theorem tryConsumeDelimiter_sim (d : Delimiter) (c : Cursor) :
    Sim (Keeps c) (c.tryConsumeDelimiter d) (c.erase.tryConsumeDelimiter d) := by
  unfold tryConsumeDelimiter
  refine Sim.bind_same (x := assertDelimiter d c) (fun _ _ => ?_)
  show Sim _ _ (if c.pos = 0 then _ else _)
  split
  · exact Sim.fail _
  · refine (skipTo_sim _ _ c.advance).bind ?_
    rintro c1 c2 h
    obtain rfl := h.1
    rw [cur_erase]
    cases c1.cur with
    | none => exact Sim.fail _
    | some b => exact (Keeps.advanceBy c 1).trans h

theorem getRemainder_erase (c : Cursor) : c.erase.getRemainder = c.getRemainder := rfl
theorem getRemainderStr_erase (c : Cursor) : c.erase.getRemainderStr = c.getRemainderStr := rfl
theorem getRemainderStrUnchecked_erase (c : Cursor) : c.erase.getRemainderStrUnchecked = c.getRemainderStrUnchecked := rfl
theorem checkEnd_erase (c : Cursor) : c.erase.checkEnd = c.checkEnd := rfl
theorem nextIs_erase (c : Cursor) (w : Bytes) : c.erase.nextIs w = c.nextIs w := rfl

end Cursor
open Cursor

section
variable {cfg : Config}

theorem afterConjunction_sim (d : Delimiter) (start : Nat) (w : Bytes) (c : Cursor) :
    Sim (Keeps c) (afterConjunction d start w c) (afterConjunction d start w c.erase) := by
  unfold afterConjunction
  rw [cur_erase]
  cases c.cur with
  | none => exact Sim.fail _
  | some b =>
    simp only
    split
    · exact tryConsumeDelimiter_sim d c
    · split
      · exact Keeps.refl c
      · exact Sim.fail _

theorem consumeConjunction_sim (d : Delimiter) (start : Nat) (c : Cursor) (ws : List Bytes) :
    Sim (Keeps c) (consumeConjunction d start c ws) (consumeConjunction d start c.erase ws) := by
  induction ws with
  | nil => exact Keeps.refl c
  | cons w ws ih =>
    unfold consumeConjunction
    rw [nextIs_erase]
    split
    · exact (afterConjunction_sim d start w (c.advanceBy w.length)).mono (fun _ _ h => (Keeps.advanceBy c _).trans h)
    · exact ih

theorem tryConnection_sim (c : Cursor) : Sim (Keeps c) (tryConnection cfg c) (tryConnection cfg c.erase) := by
  unfold tryConnection tryConsumeConnection
  refine Sim.bind_same (x := assertDelimiter cfg.outerDelimiter c) (fun _ _ => ?_)
  refine (tryConsumeDelimiter_sim _ c).bind ?_
  rintro c1 c2 h
  obtain rfl := h.1
  exact (consumeConjunction_sim _ c1.pos c1 _).mono (fun _ _ h' => h.trans h')

theorem consumeConnectionIfAny_sim (c : Cursor) :
    Sim (Keeps c) (consumeConnectionIfAny cfg c) (consumeConnectionIfAny cfg c.erase) := by
  unfold consumeConnectionIfAny
  rw [cur_erase]
  cases c.cur with
  | none => exact Keeps.refl c
  | some b =>
    simp only
    split
    · exact tryConnection_sim c
    · exact Keeps.refl c

/-- outputs of the template which agree up to the buffer; the cursor to continue with has an old buffer -/
def OutSim (c : Cursor) (o o' : Output) : Prop :=
  o.1 = o'.1 ∧ match o.2, o'.2 with
    | none, none => True
    | some c1, some c2 => Keeps c c1 c2
    | _, _ => False

theorem OutSim.of_keeps {c c1 c2 : Cursor} (h : Keeps c c1 c2) {o o' : Output} (ho : OutSim c1 o o') : OutSim c o o' := by
  refine ⟨ho.1, ?_⟩
  obtain ⟨r, n⟩ := o
  obtain ⟨r', n'⟩ := o'
  match n, n', ho.2 with
  | none, none, _ => trivial
  | some c1, some c2, h' => exact h.trans h'

theorem makeOutput_sim (mode : Mode) (r : DurationRepr) (c : Cursor) :
    OutSim c (makeOutput mode r c) (makeOutput mode r c.erase) := by
  cases mode with
  | single => exact ⟨rfl, trivial⟩
  | multiple =>
    unfold makeOutput unlessEnd
    rw [cur_erase]
    cases c.cur with
    | none => exact ⟨rfl, trivial⟩
    | some b => exact ⟨rfl, Keeps.refl c⟩

theorem finalize_sim (mode : Mode) (r : DurationRepr) (c : Cursor) :
    Sim (OutSim c) (finalize mode cfg r c) (finalize mode cfg r c.erase) := by
  cases mode with
  | single =>
    unfold finalize
    exact Sim.bind_same (x := c.checkEnd) (fun _ _ => ⟨rfl, trivial⟩)
  | multiple =>
    unfold finalize finalizeMultiple
    rw [cur_erase]
    cases c.cur with
    | none => exact ⟨rfl, trivial⟩
    | some b =>
      simp only
      split
      · exact (tryConnection_sim c).bind (fun c1 c2 h => ⟨rfl, h⟩)
      · exact ⟨rfl, Keeps.refl c⟩

theorem inityLoop_sim (c : Cursor) (l : Bytes) : Sim (Keeps c) (inityLoop c l) (inityLoop c.erase l) := by
  induction l generalizing c with
  | nil => exact Keeps.refl c
  | cons x l ih =>
    unfold inityLoop
    rw [cur_erase]
    cases c.cur with
    | none => exact Sim.fail _
    | some b =>
      simp only
      split
      · exact (ih c.advance).mono (fun _ _ h => (Keeps.advanceBy c 1).trans h)
      · exact Sim.fail _

theorem inityLoopMultiple_sim (start : Nat) (c : Cursor) (l : Bytes) :
    Sim (Keeps c) (inityLoopMultiple start c l) (inityLoopMultiple start c.erase l) := by
  induction l generalizing c with
  | nil => exact Keeps.refl c
  | cons x l ih =>
    unfold inityLoopMultiple
    rw [cur_erase]
    cases c.cur with
    | none =>
      simp only
      refine Sim.bind_same (fun _ _ => ?_)
      exact Sim.bind_same (x := c.getCurrentStrUnwrap start) (fun _ _ => Sim.fail _)
    | some b =>
      simp only
      split
      · exact (ih c.advance).mono (fun _ _ h => (Keeps.advanceBy c 1).trans h)
      · exact Sim.fail _

theorem parseInfinityRemainder_sim (mode : Mode) (r : DurationRepr) (c : Cursor) :
    Sim (OutSim c) (parseInfinityRemainder mode cfg r c) (parseInfinityRemainder mode cfg r c.erase) := by
  cases mode with
  | single =>
    unfold parseInfinityRemainder infinitySingle
    rw [cur_erase]
    cases c.cur with
    | none => exact ⟨rfl, trivial⟩
    | some b =>
      simp only
      refine (inityLoop_sim c _).bind ?_
      rintro c1 c2 h
      obtain rfl := h.1
      exact Sim.bind_same (x := c1.checkEnd) (fun _ _ => ⟨rfl, trivial⟩)
  | multiple =>
    unfold parseInfinityRemainder infinityMultiple
    rw [cur_erase]
    cases c.cur with
    | none => exact ⟨rfl, trivial⟩
    | some b =>
      simp only
      split
      · exact (tryConnection_sim c).bind (fun c1 c2 h => ⟨rfl, h⟩)
      · refine (inityLoopMultiple_sim c.pos c _).bind ?_
        rintro c1 c2 h
        obtain rfl := h.1
        unfold afterInfinity
        rw [cur_erase]
        cases c1.cur with
        | none => exact ⟨rfl, trivial⟩
        | some b =>
          simp only
          split
          · exact (tryConnection_sim c1).bind (fun c2 c3 h' => ⟨rfl, h.trans h'⟩)
          · exact Sim.fail _

/-! ## Scanning -/

/-- the buffer is older than the position, or it is what a scan for the end of a time unit finds here -/
def BufOk (cfg : Config) (c : Cursor) : Prop :=
  ∀ p w n, c.buffer = some (p, w, n) →
    p < c.pos ∨ (p = c.pos ∧ w = c.word (unitEnd cfg) ∧ n = (c.advanceBy w.length).cur)

theorem BufOk.keeps {c c1 c2 : Cursor} (h : BufOk cfg c) (hk : Keeps c c1 c2) : BufOk cfg c1 := by
  intro p w n hb
  have hb' := hb
  rw [hk.buffer] at hb'
  have hpos := hk.pos
  rcases h p w n hb' with h | h
  · exact Or.inl (by omega)
  · rcases Nat.lt_or_ge c.pos c1.pos with hlt | hge
    · exact Or.inl (by omega)
    · have hc : c1 = c := by
        have h1 : c1.pos = c.pos := by omega
        have h2 := hk.buffer
        have h3 := hk.input
        cases c1; cases c
        simp only at h1 h2 h3
        subst h1; subst h2; subst h3; rfl
      rw [hc]
      exact Or.inr h

/-- what every scan of the parser satisfies: the word is the one an unbuffered scan finds -/
structure ScanPost (cfg : Config) (d : Delimiter) (c : Cursor) (o o' : Bytes × Cursor) : Prop where
  word : o.1 = o'.1
  erase : o'.2 = o.2.erase
  pos : o.2.pos = c.pos + o.1.length
  input : o.2.input = c.input
  fine : o.1 ≠ [] ∨ d = unitEnd cfg → BufOk cfg o.2
  again : d = unitEnd cfg → BufOk cfg (o.2.reset c.pos)

/-- the word up to the end of words is the word up to another delimiter `d`, if `d` is coarser and
what follows the word is a delimiter too -/
theorem word_eq_of_next {d e : Delimiter} (hde : ∀ b, d b = true → e b = true) (c : Cursor)
    (hn : ∀ b, (c.advanceBy (c.word e).length).cur = some b → d b = true) : c.word d = c.word e := by
  have hsplit : c.rest = c.word e ++ (c.advanceBy (c.word e).length).rest := by
    rw [Cursor.rest_advanceBy]
    conv_lhs => rw [← List.take_append_drop (c.word e).length c.rest]
    rw [Cursor.word_take]
  rw [Cursor.word, hsplit, List.takeWhile_append_of_pos]
  · rw [Cursor.cur_eq] at hn
    cases hr : (c.advanceBy (c.word e).length).rest with
    | nil => simp
    | cons x l =>
      rw [hr] at hn
      rw [List.takeWhile_cons, hn x rfl]
      simp
  · intro b hb
    have := takeWhile_mem (l := c.rest) hb
    simp only [Bool.not_eq_true'] at *
    by_contra h
    have h' : d b = true := by simpa using h
    rw [hde b h'] at this
    cases this

theorem scan_sim {d : Delimiter} (c : Cursor) (hp : c.pos ≤ c.input.length)
    (hb : c.buffer = none ∨ ((∀ b, d b = true → unitEnd cfg b = true) ∧ BufOk cfg c)) :
    Sim (ScanPost cfg d c) (c.bufferedAdvanceTo d) (c.erase.advanceTo d) := by
  rw [Cursor.advanceTo_eq d c.erase hp]
  cases h : c.buffered d with
  | none =>
    rw [Cursor.bufferedAdvanceTo_none d c hp h]
    have again : d = unitEnd cfg → BufOk cfg
        (Cursor.mk c.input c.pos (some (c.pos, c.word d, (c.advanceBy (c.word d).length).cur))) := by
      rintro rfl p w n hb'
      simp only [Option.some.injEq, Prod.mk.injEq] at hb'
      obtain ⟨rfl, rfl, rfl⟩ := hb'
      exact Or.inr ⟨rfl, rfl, rfl⟩
    refine ⟨rfl, rfl, rfl, rfl, ?_, again⟩
    intro hne
    by_cases hw : c.word d = []
    · have hd : d = unitEnd cfg := by
        rcases hne with hne | hne
        · exact absurd hw hne
        · exact hne
      have := again hd
      have e : (c.advanceBy (c.word d).length).pos = c.pos := by rw [hw]; rfl
      show BufOk cfg (Cursor.mk c.input (c.pos + (c.word d).length) _)
      rw [hw] at this ⊢
      exact this
    · intro p w n hb'
      simp only [Option.some.injEq, Prod.mk.injEq] at hb'
      obtain ⟨rfl, -, -⟩ := hb'
      have := List.length_pos_iff.mpr hw
      left
      show c.pos < c.pos + _
      exact Nat.lt_add_of_pos_right this
  | some w =>
    unfold bufferedAdvanceTo
    rw [h]
    simp only
    have hb' : (∀ b, d b = true → unitEnd cfg b = true) ∧ BufOk cfg c := by
      rcases hb with hb | hb
      · exfalso
        unfold buffered at h
        rw [hb] at h
        cases h
      · exact hb
    clear hb
    obtain ⟨hd, hb⟩ := hb'
    have key : w = c.word d ∧ ∃ n, c.buffer = some (c.pos, w, n) := by
      unfold buffered at h
      split at h
      · rename_i p buf n hbuf
        split at h
        · rename_i hh
          cases h
          simp only [Bool.and_eq_true, decide_eq_true_eq] at hh
          rcases hb _ _ _ hbuf with h1 | ⟨h1, h2, h3⟩
          · omega
          · refine ⟨?_, some n, by rw [hbuf, h1]⟩
            rw [h2]
            refine (word_eq_of_next hd c ?_).symm
            intro b hb'
            rw [← h2] at hb'
            rw [hb'] at h3
            cases h3
            exact hh.2
        · cases h
      · rename_i p buf hbuf
        split at h
        · rename_i hh
          cases h
          rcases hb _ _ _ hbuf with h1 | ⟨h1, h2, h3⟩
          · omega
          · refine ⟨?_, none, by rw [hbuf, h1]⟩
            rw [h2]
            refine (word_eq_of_next hd c ?_).symm
            intro b hb'
            rw [← h2] at hb'
            rw [hb'] at h3
            cases h3
        · cases h
      · cases h
    obtain ⟨hw, n, hbuf⟩ := key
    subst hw
    exact ⟨rfl, rfl, rfl, rfl, fun _ => hb.keeps (Keeps.advanceBy c _), fun _ => hb⟩

/-- the setting in which the buffer is transparent: inner delimiters are outer delimiters, or there is only one
kind of scan because there are neither keywords nor numerals, or only a single duration is parsed -/
def Coherent (mode : Mode) (env : Env) : Prop :=
  (∀ b, env.cfg.innerDelimiter b = true → env.cfg.outerDelimiter b = true) ∨
    (env.keywords = none ∧ env.numerals = none) ∨ mode = .single

/-- the buffer of the cursor does no harm; in single mode there is none -/
def Ready (mode : Mode) (cfg : Config) (c : Cursor) : Prop :=
  match mode with
  | .single => c.buffer = none
  | .multiple => BufOk cfg c

theorem Ready.keeps {mode : Mode} {c c1 c2 : Cursor} (h : Ready mode cfg c) (hk : Keeps c c1 c2) :
    Ready mode cfg c1 := by
  cases mode with
  | single => exact hk.buffer.trans h
  | multiple => exact BufOk.keeps h hk

theorem unitEnd_eq (h : ∀ b, cfg.innerDelimiter b = true → cfg.outerDelimiter b = true) :
    unitEnd cfg = wordEnd cfg := by
  unfold unitEnd
  split
  · funext b
    have := h b
    unfold wordEndAgo wordEnd
    cases h1 : cfg.innerDelimiter b <;> simp_all
  · rfl

theorem pos_of_cur {c : Cursor} (h : c.cur.isSome = true) : c.pos ≤ c.input.length := by
  obtain ⟨b, hb⟩ := Option.isSome_iff_exists.mp h
  exact Nat.le_of_lt (Cursor.pos_lt_of_cur hb)

end

section
variable {env : Env}

/-- the parser without the buffer -/
def Env.unbuffered (env : Env) : Env := { env with scan := fun d c => c.advanceTo d }
/-- the parser with the buffer -/
def Env.buffered (env : Env) : Env := { env with scan := fun d c => c.bufferedAdvanceTo d }

/-- results of looking for a word: the same value, cursors equal up to the buffer, which does no harm; if there is no
value the position is the one before -/
structure WordSim {α} (mode : Mode) (cfg : Config) (c : Cursor) (o o' : Option α × Cursor) : Prop where
  value : o.1 = o'.1
  erase : o'.2 = o.2.erase
  ready : Ready mode cfg o.2
  input : o.2.input = c.input
  pos : o.1 = none → o.2.pos = c.pos

theorem isEmpty_iff_nil {w : Bytes} : w.isEmpty = true ↔ w = [] := by cases w <;> simp

theorem lookupRemainder_sim (units : TimeUnitsLike) (mode : Mode) (c : Cursor) (hs : c.cur.isSome = true)
    (hr : Ready mode env.cfg c) :
    Sim (WordSim mode env.cfg c) (lookupRemainder units c) (lookupRemainder units c.erase) := by
  simp only [lookupRemainder, getRemainderStrUnchecked_erase]
  refine Sim.bind_same (fun w _ => ?_)
  cases units.get w with
  | none => exact ⟨rfl, rfl, hr, rfl, fun _ => rfl⟩
  | some u =>
    have hp := pos_of_cur hs
    refine ⟨rfl, rfl, ?_, rfl, fun h => by cases h⟩
    exact hr.keeps (c2 := c.finish.erase) ⟨rfl, rfl, hp, rfl⟩

theorem parseKeyword_sim (mode : Mode) (hco : Coherent mode env) (c : Cursor) (hs : c.cur.isSome = true)
    (hc : Ready mode env.cfg c) :
    Sim (WordSim mode env.cfg c) (parseKeyword mode env.buffered c) (parseKeyword mode env.unbuffered c.erase) := by
  cases hk : env.keywords with
  | none =>
    simp only [parseKeyword, Env.buffered, Env.unbuffered, hk]
    exact ⟨rfl, rfl, hc, rfl, fun _ => rfl⟩
  | some k =>
    simp only [parseKeyword, Env.buffered, Env.unbuffered, hk]
    cases mode with
    | single => exact lookupRemainder_sim k .single c hs hc
    | multiple =>
      have hin : ∀ b, env.cfg.innerDelimiter b = true → env.cfg.outerDelimiter b = true := by
        rcases hco with hco | hco | hco
        · exact hco
        · rw [hk] at hco; cases hco.1
        · cases hco
      simp only [parseKeywordMultiple]
      refine (scan_sim (cfg := env.cfg) c (pos_of_cur hs)
        (Or.inr ⟨by rw [unitEnd_eq hin]; exact fun _ h => h, hc⟩)).bind ?_
      rintro ⟨w, c1⟩ ⟨w', c2⟩ h
      obtain ⟨h1, h2, h3, h6, h4', h5'⟩ := h
      have h4 := h4' (Or.inr (unitEnd_eq hin).symm)
      have h5 := h5' (unitEnd_eq hin).symm
      clear h4' h5'
      simp only at h1 h2 h3 h4 h5 h6 ⊢
      subst h1
      subst h2
      by_cases hw : w.isEmpty = true
      · rw [if_pos hw, if_pos hw]
        rw [isEmpty_iff_nil] at hw
        subst hw
        exact ⟨rfl, rfl, h4, h6, fun _ => h3⟩
      · rw [if_neg hw, if_neg hw]
        refine Sim.bind_same (fun w' hw' => ?_)
        cases hg : k.get w' with
        | none => exact ⟨rfl, rfl, h5, h6, fun _ => rfl⟩
        | some u =>
          simp only [keywordFound]
          refine (consumeConnectionIfAny_sim c1).bind ?_
          intro c3 c4 hk'
          exact ⟨rfl, hk'.1, h4.keeps hk', hk'.input.trans h6, fun h => by cases h⟩

theorem agoSingle_sim (start : Cursor) (u : Unit') (c : Cursor) :
    Sim (fun o o' => o.1 = o'.1 ∧ o'.2 = o.2.erase ∧ o.2.buffer = c.buffer ∧ o.2.input = c.input ∧
        (o.1 = none → o.2.pos = start.pos))
      (agoSingle env.cfg start u c) (agoSingle env.cfg start.erase u c.erase) := by
  unfold agoSingle
  rw [cur_erase]
  cases c.cur with
  | none => exact ⟨rfl, rfl, rfl, rfl, fun h => by cases h⟩
  | some b =>
    simp only
    refine (tryConsumeDelimiter_sim _ c).bind ?_
    rintro c1 c2 h
    obtain rfl := h.1
    rw [nextIs_erase]
    split
    · exact ⟨rfl, rfl, h.buffer, h.input, fun h => by cases h⟩
    · exact ⟨rfl, rfl, h.buffer, h.input, fun _ => rfl⟩

theorem afterAgo_sim (start : Cursor) (u : Unit') (c : Cursor) (hsc : start.pos ≤ c.pos) (hb : c.buffer = start.buffer)
    (hi : c.input = start.input) :
    (afterAgo env.cfg start u c).1 = (afterAgo env.cfg start.erase u c.erase).1 ∧
      Keeps start (afterAgo env.cfg start u c).2 (afterAgo env.cfg start.erase u c.erase).2 := by
  unfold afterAgo
  rw [cur_erase]
  cases c.cur with
  | none => exact ⟨rfl, rfl, hb, hsc, hi⟩
  | some b =>
    simp only
    split
    · exact ⟨rfl, rfl, hb, hsc, hi⟩
    · exact ⟨rfl, rfl, hb, Nat.le_refl _, hi⟩

theorem agoMultiple_sim (u : Unit') (c : Cursor) :
    Sim (fun o o' => o.1 = o'.1 ∧ Keeps c o.2 o'.2) (agoMultiple env.cfg u c) (agoMultiple env.cfg u c.erase) := by
  unfold agoMultiple
  rw [cur_erase]
  cases c.cur with
  | none => exact ⟨rfl, Keeps.refl c⟩
  | some b =>
    simp only
    split
    · refine (tryConsumeDelimiter_sim _ c).bind ?_
      rintro c1 c2 h
      obtain rfl := h.1
      rw [nextIs_erase]
      split
      · exact afterAgo_sim c u (c1.advanceBy 3) (Nat.le_trans h.pos (Nat.le_add_right _ _)) h.buffer h.input
      · exact ⟨rfl, rfl, h.buffer, Nat.le_refl _, h.input⟩
    · exact ⟨rfl, Keeps.refl c⟩

theorem parseTimeUnitAgo_sim (c : Cursor) (hs : c.cur.isSome = true) (hr : Ready .single env.cfg c) :
    Sim (WordSim .single env.cfg c) (parseTimeUnitAgo env.buffered c) (parseTimeUnitAgo env.unbuffered c.erase) := by
  have hp := pos_of_cur hs
  unfold parseTimeUnitAgo
  rw [Cursor.advanceTo_eq _ c hp, Cursor.advanceTo_eq _ c.erase hp]
  simp only [ok_bind]
  refine Sim.bind_same (x := utf8Unchecked (c.word env.cfg.innerDelimiter)) (fun w hw => ?_)
  have hw' : w = c.word env.cfg.innerDelimiter := by
    unfold utf8Unchecked at hw
    split at hw
    · cases hw; rfl
    · cases hw
  by_cases he : w.isEmpty = true
  · rw [if_pos he, if_pos he]
    rw [isEmpty_iff_nil] at he
    refine ⟨rfl, rfl, hr, rfl, fun _ => ?_⟩
    show c.pos + (c.word env.cfg.innerDelimiter).length = c.pos
    rw [← hw', he]; rfl
  · rw [if_neg he, if_neg he]
    show Sim _ (unitFoundSingle env.cfg c _ (env.units.get w)) (unitFoundSingle env.cfg c.erase _ (env.units.get w))
    unfold unitFoundSingle
    cases env.units.get w with
    | none => exact ⟨rfl, rfl, hr, rfl, fun _ => rfl⟩
    | some u =>
      refine (agoSingle_sim (env := env) c u (c.advanceBy _)).mono ?_
      rintro o o' ⟨h1, h2, h3, h4, h5⟩
      exact ⟨h1, h2, h3.trans hr, h4, h5⟩

theorem parseTimeUnitSingle_sim (c : Cursor) (hs : c.cur.isSome = true) (hr : Ready .single env.cfg c) :
    Sim (WordSim .single env.cfg c) (parseTimeUnitSingle env.buffered c) (parseTimeUnitSingle env.unbuffered c.erase) := by
  unfold parseTimeUnitSingle
  refine Sim.bind_same (x := assertSome c) (fun _ _ => ?_)
  show Sim _ (if env.cfg.allowAgo = true then _ else lookupRemainder env.units _)
    (if env.cfg.allowAgo = true then _ else lookupRemainder env.units _)
  by_cases ha : env.cfg.allowAgo = true
  · rw [if_pos ha, if_pos ha]
    exact parseTimeUnitAgo_sim c hs hr
  · rw [if_neg ha, if_neg ha]
    exact lookupRemainder_sim env.units .single c hs hr

theorem parseTimeUnitMultiple_sim (c : Cursor) (hs : c.cur.isSome = true) (hr : Ready .multiple env.cfg c) :
    Sim (WordSim .multiple env.cfg c) (parseTimeUnitMultiple env.buffered c)
      (parseTimeUnitMultiple env.unbuffered c.erase) := by
  have hp := pos_of_cur hs
  unfold parseTimeUnitMultiple
  refine Sim.bind_same (x := assertSome c) (fun _ _ => ?_)
  simp only [Env.buffered, Env.unbuffered]
  refine (scan_sim (cfg := env.cfg) c hp (Or.inr ⟨fun _ h => h, hr⟩)).bind ?_
  rintro ⟨w, c1⟩ ⟨w', c2⟩ h
  obtain ⟨h1, h2, h3, h6, h4', h5'⟩ := h
  have h4 := h4' (Or.inr rfl)
  have h5 := h5' rfl
  clear h4' h5'
  simp only at h1 h2 h3 h4 h5 h6 ⊢
  subst h1
  subst h2
  by_cases hw : w.isEmpty = true
  · rw [if_pos hw, if_pos hw]
    rw [isEmpty_iff_nil] at hw
    subst hw
    exact ⟨rfl, rfl, h4, h6, fun _ => h3⟩
  · rw [if_neg hw, if_neg hw]
    refine Sim.bind_same (fun w' hw' => ?_)
    unfold unitFoundMultiple
    cases hg : env.units.get w' with
    | none => exact ⟨rfl, rfl, h5, h6, fun _ => rfl⟩
    | some u =>
      simp only
      refine (agoMultiple_sim (env := env) u c1).bind ?_
      rintro ⟨u1, c3⟩ ⟨u2, c4⟩ ⟨g1, g2⟩
      simp only at g1 g2 ⊢
      subst g1
      obtain rfl := g2.1
      refine (consumeConnectionIfAny_sim c3).bind ?_
      intro c5 c6 hk
      exact ⟨rfl, hk.1, h4.keeps (g2.trans hk), (g2.trans hk).input.trans h6, (fun h => by cases h)⟩

theorem parseTimeUnit_sim (mode : Mode) (c : Cursor) (hs : c.cur.isSome = true)
    (hr : Ready mode env.cfg c) :
    Sim (WordSim mode env.cfg c) (parseTimeUnit mode env.buffered c) (parseTimeUnit mode env.unbuffered c.erase) := by
  cases mode with
  | single => exact parseTimeUnitSingle_sim c hs hr
  | multiple => exact parseTimeUnitMultiple_sim c hs hr

/-- in single mode the buffer is not used any more after a numeral -/
theorem parseTimeUnit_sim' (mode : Mode) (c : Cursor) (hs : c.cur.isSome = true)
    (hr : mode = .multiple → BufOk env.cfg c) :
    Sim (fun o o' => o.1 = o'.1 ∧ o'.2 = o.2.erase ∧ (mode = .multiple → BufOk env.cfg o.2))
      (parseTimeUnit mode env.buffered c) (parseTimeUnit mode env.unbuffered c.erase) := by
  cases mode with
  | multiple => exact (parseTimeUnitMultiple_sim c hs (hr rfl)).mono (fun _ _ h => ⟨h.value, h.erase, fun _ => h.ready⟩)
  | single =>
    have key : parseTimeUnitSingle env.unbuffered c.erase = parseTimeUnitSingle env.unbuffered c.erase := rfl
    unfold parseTimeUnit parseTimeUnitSingle
    refine Sim.bind_same (x := assertSome c) (fun _ _ => ?_)
    show Sim _ (if env.cfg.allowAgo = true then _ else lookupRemainder env.units _)
      (if env.cfg.allowAgo = true then _ else lookupRemainder env.units _)
    have hp := pos_of_cur hs
    by_cases ha : env.cfg.allowAgo = true
    · rw [if_pos ha, if_pos ha]
      unfold parseTimeUnitAgo
      rw [Cursor.advanceTo_eq _ c hp, Cursor.advanceTo_eq _ c.erase hp]
      simp only [ok_bind]
      refine Sim.bind_same (x := utf8Unchecked (c.word env.cfg.innerDelimiter)) (fun w hw => ?_)
      by_cases he : w.isEmpty = true
      · rw [if_pos he, if_pos he]
        exact ⟨rfl, rfl, fun h => by cases h⟩
      · rw [if_neg he, if_neg he]
        show Sim _ (unitFoundSingle env.cfg c _ (env.units.get w)) (unitFoundSingle env.cfg c.erase _ (env.units.get w))
        unfold unitFoundSingle
        cases env.units.get w with
        | none => exact ⟨rfl, rfl, fun h => by cases h⟩
        | some u =>
          refine (agoSingle_sim (env := env) c u (c.advanceBy _)).mono ?_
          rintro o o' ⟨h1, h2, -⟩
          exact ⟨h1, h2, fun h => by cases h⟩
    · rw [if_neg ha, if_neg ha]
      simp only [lookupRemainder, getRemainderStrUnchecked_erase]
      refine Sim.bind_same (fun w _ => ?_)
      cases env.units.get w with
      | none => exact ⟨rfl, rfl, fun h => by cases h⟩
      | some u => exact ⟨rfl, rfl, fun h => by cases h⟩

theorem tryConsumeDelimiter_cur {d : Delimiter} {c c' : Cursor} (h : c.tryConsumeDelimiter d = .ok c') :
    c'.cur.isSome = true := by
  unfold tryConsumeDelimiter at h
  cases ha : assertDelimiter d c with
  | error e => rw [ha] at h; cases h
  | ok x =>
    rw [ha, ok_bind] at h
    split at h
    · cases h
    · cases hk : skipTo (fun b => !d b) c.input.length c.advance with
      | error e => rw [hk] at h; cases h
      | ok c1 =>
        rw [hk, ok_bind] at h
        cases hc : c1.cur with
        | none => rw [hc] at h; cases h
        | some b => rw [hc] at h; cases h; rw [hc]; rfl

/-- strengthens a simulation with what is known about the first result -/
theorem Sim.and {α β} {Q : α → β → Prop} {P : α → Prop} {x : R α} {y : R β} (h : Sim Q x y)
    (hp : ∀ a, x = .ok a → P a) : Sim (fun a b => Q a b ∧ P a) x y := by
  match x, y, h with
  | .ok a, .ok b, h => exact ⟨h, hp a rfl⟩
  | .error e, .error f, h => exact h

theorem parseNumeral_sim (mode : Mode) (hco : Coherent mode env) (c : Cursor) (hs : c.cur.isSome = true)
    (hr : Ready mode env.cfg c) :
    Sim (fun o o' => o.1 = o'.1 ∧ o'.2 = o.2.erase ∧ (o.1.isSome = true → o.2.cur.isSome = true ∧
        (mode = .multiple → BufOk env.cfg o.2)))
      (parseNumeral env.buffered c) (parseNumeral env.unbuffered c.erase) := by
  unfold parseNumeral
  cases hn : env.numerals with
  | none =>
    simp only [Env.buffered, Env.unbuffered, hn]
    exact ⟨rfl, rfl, fun h => by cases h⟩
  | some n =>
    simp only [Env.buffered, Env.unbuffered, hn]
    have hscan : c.buffer = none ∨ ((∀ b, env.cfg.innerDelimiter b = true → unitEnd env.cfg b = true) ∧ BufOk env.cfg c) := by
      cases mode with
      | single => exact Or.inl hr
      | multiple =>
        rcases hco with hco | hco | hco
        · exact Or.inr ⟨fun b hb => by rw [unitEnd_eq hco]; simp [wordEnd, hco b hb], hr⟩
        · rw [hn] at hco; cases hco.2
        · cases hco
    refine (scan_sim (cfg := env.cfg) c (pos_of_cur hs) hscan).bind ?_
    rintro ⟨w, c1⟩ ⟨w', c2⟩ h
    obtain ⟨h1, h2, h3, h6, h4, h5⟩ := h
    simp only at h1 h2 h3 h4 h5 h6 ⊢
    subst h1
    subst h2
    by_cases hw : w.isEmpty = true
    · rw [if_pos hw, if_pos hw]
      exact ⟨rfl, rfl, fun h => by cases h⟩
    · rw [if_neg hw, if_neg hw]
      refine Sim.bind_same (fun w' hw' => ?_)
      unfold numeralFound
      have ho := h4 (Or.inl (by rw [isEmpty_iff_nil] at hw; exact hw))
      cases hg : n w' with
      | none => exact ⟨rfl, rfl, fun h => by cases h⟩
      | some m =>
        simp only [cur_erase]
        cases hb : c1.cur with
        | none => exact ⟨rfl, rfl, fun h => by cases h⟩
        | some b =>
          simp only
          by_cases hi : env.cfg.innerDelimiter b = true
          · rw [if_pos hi, if_pos hi]
            refine ((tryConsumeDelimiter_sim env.cfg.innerDelimiter c1).and
              (fun _ h => tryConsumeDelimiter_cur h)).bind ?_
            rintro c3 c4 ⟨hk, hcur⟩
            exact ⟨rfl, hk.1, fun _ => ⟨hcur, fun _ => ho.keeps hk⟩⟩
          · rw [if_neg hi, if_neg hi]
            exact ⟨rfl, rfl, fun h => by cases h⟩

/-! ## Numbers -/

theorem parseSignIsNegative_sim (c : Cursor) :
    Sim (fun o o' => o.1 = o'.1 ∧ Keeps c o.2 o'.2) (parseSignIsNegative c) (parseSignIsNegative c.erase) := by
  unfold parseSignIsNegative
  rw [cur_erase]
  cases c.cur with
  | none => exact Sim.fail _
  | some b =>
    simp only
    split
    · exact ⟨rfl, Keeps.advanceBy c 1⟩
    · split
      · exact ⟨rfl, Keeps.advanceBy c 1⟩
      · exact ⟨rfl, Keeps.refl c⟩

theorem parseNumberSign_sim (c : Cursor) :
    Sim (fun o o' => o.1 = o'.1 ∧ Keeps c o.2 o'.2) (parseNumberSign env.cfg c) (parseNumberSign env.cfg c.erase) := by
  unfold parseNumberSign
  refine (parseSignIsNegative_sim c).bind ?_
  rintro ⟨s, c1⟩ ⟨s', c2⟩ ⟨h1, h2⟩
  simp only at h1 h2 ⊢
  subst h1
  obtain rfl := h2.1
  cases s with
  | none => exact ⟨rfl, h2⟩
  | some neg =>
    unfold afterSign
    simp only [cur_erase]
    cases c1.cur with
    | none => exact Sim.fail _
    | some b =>
      simp only
      split
      · refine (tryConsumeDelimiter_sim _ c1).bind ?_
        intro c3 c4 h
        exact ⟨rfl, h2.trans h⟩
      · exact ⟨rfl, h2⟩

theorem digits_erase (c : Cursor) : c.erase.digits = c.digits := rfl

theorem parseDigits_sim (c : Cursor) {b : UInt8} (hb : c.cur = some b) (hd : isDigit b = true) :
    Sim (fun o o' => o.1 = o'.1 ∧ Keeps c o.2 o'.2) c.parseDigits c.erase.parseDigits := by
  have hp := Nat.le_of_lt (Cursor.pos_lt_of_cur hb)
  rw [Cursor.parseDigits_eq c hp b hb hd, Cursor.parseDigits_eq c.erase hp b hb hd]
  exact ⟨rfl, Keeps.advanceBy c _⟩

theorem fractionDigits_sim (whole : Option Range) (c : Cursor) :
    Sim (fun o o' => o.1 = o'.1 ∧ o.2.1 = o'.2.1 ∧ Keeps c o.2.2 o'.2.2) (fractionDigits whole c)
      (fractionDigits whole c.erase) := by
  unfold fractionDigits
  rw [cur_erase]
  cases hb : c.cur with
  | none =>
    simp only
    split
    · exact Sim.bind_same (x := liftP (subUsize c.pos 1)) (fun _ _ => Sim.fail _)
    · exact ⟨rfl, rfl, Keeps.refl c⟩
  | some b =>
    simp only
    by_cases hd : isDigit b = true
    · rw [if_pos hd, if_pos hd]
      refine (parseDigits_sim c hb hd).bind ?_
      rintro ⟨r, c1⟩ ⟨r', c2⟩ ⟨h1, h2⟩
      simp only at h1 h2 ⊢
      exact ⟨rfl, congrArg some h1, h2⟩
    · rw [if_neg hd, if_neg hd]
      split
      · exact Sim.bind_same (x := liftP (subUsize c.pos 1)) (fun _ _ => Sim.fail _)
      · exact ⟨rfl, rfl, Keeps.refl c⟩

theorem parseNumberFraction_sim (whole : Option Range) (dis : Bool) (c : Cursor) :
    Sim (fun o o' => o.1 = o'.1 ∧ o.2.1 = o'.2.1 ∧ Keeps c o.2.2 o'.2.2) (parseNumberFraction whole dis c)
      (parseNumberFraction whole dis c.erase) := by
  unfold parseNumberFraction
  rw [cur_erase]
  cases hb : c.cur with
  | none => exact ⟨rfl, rfl, Keeps.refl c⟩
  | some b =>
    simp only
    split
    · cases dis with
      | true => exact Sim.fail _
      | false =>
        simp only [Bool.false_eq_true, if_false]
        exact (fractionDigits_sim whole c.advance).mono
          (fun _ _ h => ⟨h.1, h.2.1, (Keeps.advanceBy c 1).trans h.2.2⟩)
    · exact ⟨rfl, rfl, Keeps.refl c⟩

theorem parseExponent_sim (c : Cursor) :
    Sim (fun o o' => o.1 = o'.1 ∧ Keeps c o.2 o'.2) (parseExponent c) (parseExponent c.erase) := by
  unfold parseExponent
  refine (parseSignIsNegative_sim c).bind ?_
  rintro ⟨s, c1⟩ ⟨s', c2⟩ ⟨h1, h2⟩
  simp only at h1 h2 ⊢
  subst h1
  obtain rfl := h2.1
  have e1 := exponentLoop_eq (s.getD false) c1.input.length 0 c1 (by rw [Cursor.rest_length]; omega)
    (by rw [signed_zero]; decide)
  have e2 := exponentLoop_eq (s.getD false) c1.erase.input.length 0 c1.erase
    (by rw [Cursor.rest_length]; omega) (by rw [signed_zero]; decide)
  rw [signed_zero] at e1 e2
  rw [e1, e2, digits_erase]
  split
  · simp only [ok_bind]
    refine Sim.bind_same (x := liftP (subUsize (c1.advanceBy c1.digits.length).pos c1.pos)) (fun k _ => ?_)
    show Sim _ (if 0 < k then _ else if (c1.advanceBy c1.digits.length).cur.isNone = true then _ else _)
      (if 0 < k then _ else if (c1.advanceBy c1.digits.length).cur.isNone = true then _ else _)
    split
    · exact ⟨rfl, h2.trans (Keeps.advanceBy c1 _)⟩
    · split
      · exact Sim.fail _
      · exact Sim.fail _
  · cases s.getD false <;> exact rfl

theorem parseNumberExponent_sim (dis : Bool) (c : Cursor) :
    Sim (fun o o' => o.1 = o'.1 ∧ o.2.1 = o'.2.1 ∧ Keeps c o.2.2 o'.2.2) (parseNumberExponent dis c)
      (parseNumberExponent dis c.erase) := by
  unfold parseNumberExponent
  rw [cur_erase]
  cases hb : c.cur with
  | none => exact ⟨rfl, rfl, Keeps.refl c⟩
  | some b =>
    simp only
    split
    · cases dis with
      | true => exact Sim.fail _
      | false =>
        simp only [Bool.false_eq_true, if_false]
        refine (parseExponent_sim c.advance).bind ?_
        rintro ⟨e, c1⟩ ⟨e', c2⟩ ⟨h1, h2⟩
        exact ⟨rfl, h1, (Keeps.advanceBy c 1).trans h2⟩
    · exact ⟨rfl, rfl, Keeps.refl c⟩

theorem parseNumberDelimiter_sim (d : Option Delimiter) (c : Cursor) :
    Sim (fun o o' => o.1 = o'.1 ∧ Keeps c o.2 o'.2) (parseNumberDelimiter d c) (parseNumberDelimiter d c.erase) := by
  unfold parseNumberDelimiter
  rw [cur_erase]
  cases hb : c.cur with
  | none => exact ⟨rfl, Keeps.refl c⟩
  | some b =>
    cases d with
    | none => exact ⟨rfl, Keeps.refl c⟩
    | some d =>
      simp only
      split
      · refine (tryConsumeDelimiter_sim _ c).bind ?_
        intro c3 c4 h
        exact ⟨rfl, h⟩
      · exact ⟨rfl, Keeps.refl c⟩


theorem parseDigitsStripZeros_sim (c : Cursor) {b : UInt8} (hb : c.cur = some b) (hd : isDigit b = true) :
    Sim (fun o o' => o.1 = o'.1 ∧ Keeps c o.2 o'.2) c.parseDigitsStripZeros c.erase.parseDigitsStripZeros := by
  have hp := Nat.le_of_lt (Cursor.pos_lt_of_cur hb)
  rw [Cursor.parseDigitsStripZeros_eq c hp b hb hd, Cursor.parseDigitsStripZeros_eq c.erase hp b hb hd]
  exact ⟨rfl, Keeps.advanceBy c _⟩

/-! ## Template -/

/-- outputs of the template which agree up to the buffer, which does no harm -/
def Same (mode : Mode) (cfg : Config) (o o' : Output) : Prop :=
  o.1 = o'.1 ∧ match o.2, o'.2 with
    | none, none => True
    | some c1, some c2 => c2 = c1.erase ∧ (mode = .multiple → BufOk cfg c1)
    | _, _ => False

theorem OutSim.same {mode : Mode} {cfg : Config} {c : Cursor} (h : mode = .multiple → BufOk cfg c) {o o' : Output}
    (ho : OutSim c o o') : Same mode cfg o o' := by
  refine ⟨ho.1, ?_⟩
  obtain ⟨r, n⟩ := o
  obtain ⟨r', n'⟩ := o'
  match n, n', ho.2 with
  | none, none, _ => trivial
  | some c1, some c2, h' => exact ⟨h'.erase, fun hm => (h hm).keeps h'⟩

theorem Ready.bufOk {mode : Mode} {cfg : Config} {c : Cursor} (h : Ready mode cfg c) :
    mode = .multiple → BufOk cfg c := by
  rintro rfl; exact h

theorem unitOrError_sim (mode : Mode) (c : Cursor) (u : Option Unit') (hr : Ready mode env.cfg c) :
    Sim (fun o o' => o.1 = o'.1 ∧ o.2.1 = o'.2.1 ∧ o'.2.2 = o.2.2.erase ∧ Ready mode env.cfg o.2.2)
      (unitOrError c u) (unitOrError c.erase u) := by
  cases u with
  | none => exact Sim.bind_same (x := c.getRemainderStr) (fun _ _ => Sim.fail _)
  | some u => exact ⟨rfl, rfl, rfl, hr⟩

theorem parseNumberTimeUnit_sim (mode : Mode) (c : Cursor) (hr : Ready mode env.cfg c) :
    Sim (fun o o' => o.1 = o'.1 ∧ o.2.1 = o'.2.1 ∧ o'.2.2 = o.2.2.erase ∧ Ready mode env.cfg o.2.2)
      (parseNumberTimeUnit mode env.buffered c) (parseNumberTimeUnit mode env.unbuffered c.erase) := by
  unfold parseNumberTimeUnit
  rw [cur_erase]
  cases hc : c.cur with
  | none => exact ⟨rfl, rfl, rfl, hr⟩
  | some b =>
    have hs : c.cur.isSome = true := by rw [hc]; rfl
    have hu := parseTimeUnit_sim mode c hs hr
    cases mode with
    | single =>
      simp only [numberTimeUnitSingle]
      show Sim _ (if (!env.units.isEmpty) = true then _ else _) (if (!env.units.isEmpty) = true then _ else _)
      split
      · refine hu.bind ?_
        rintro ⟨u, c1⟩ ⟨u', c2⟩ h
        obtain rfl := h.value
        obtain rfl := h.erase
        exact unitOrError_sim .single c1 u h.ready
      · exact Sim.bind_same (x := c.getRemainderStrUnchecked) (fun _ _ => Sim.fail _)
    | multiple =>
      simp only [numberTimeUnitMultiple]
      show Sim _ (if (!env.units.isEmpty) = true then _ else _) (if (!env.units.isEmpty) = true then _ else _)
      split
      · refine hu.bind ?_
        rintro ⟨u, c1⟩ ⟨u', c2⟩ h
        exact ⟨rfl, h.value, h.erase, h.ready⟩
      · exact ⟨rfl, rfl, rfl, hr⟩

theorem parseUnitPart_sim (mode : Mode) (r : DurationRepr) (c : Cursor) (hr : Ready mode env.cfg c) :
    Sim (Same mode env.cfg) (parseUnitPart mode env.buffered r c) (parseUnitPart mode env.unbuffered r c.erase) := by
  unfold parseUnitPart
  refine (parseNumberTimeUnit_sim mode c hr).bind ?_
  rintro ⟨go, u, c1⟩ ⟨go', u', c2⟩ ⟨h1, h2, h3, h4⟩
  simp only at h1 h2 h3 h4 ⊢
  subst h1; subst h2; subst h3
  split
  · exact (makeOutput_sim mode r c1).same h4.bufOk
  · exact (finalize_sim mode _ c1).mono (fun _ _ h => h.same h4.bufOk)

theorem parseDelimiterPart_sim (mode : Mode) (r : DurationRepr) (c : Cursor) (hr : Ready mode env.cfg c) :
    Sim (Same mode env.cfg) (parseDelimiterPart mode env.buffered r c) (parseDelimiterPart mode env.unbuffered r c.erase) := by
  unfold parseDelimiterPart
  refine (parseNumberDelimiter_sim (if env.cfg.allowTimeUnitDelimiter then some env.cfg.innerDelimiter else none) c).bind ?_
  rintro ⟨go, c1⟩ ⟨go', c2⟩ ⟨h1, h2⟩
  simp only at h1 h2 ⊢
  subst h1
  obtain rfl := h2.erase
  split
  · exact (makeOutput_sim mode r c1).same (hr.keeps h2).bufOk
  · exact parseUnitPart_sim mode r c1 (hr.keeps h2)

theorem parseExponentPart_sim (mode : Mode) (r : DurationRepr) (c : Cursor) (hr : Ready mode env.cfg c) :
    Sim (Same mode env.cfg) (parseExponentPart mode env.buffered r c) (parseExponentPart mode env.unbuffered r c.erase) := by
  unfold parseExponentPart
  refine (parseNumberExponent_sim env.cfg.disableExponent c).bind ?_
  rintro ⟨go, e, c1⟩ ⟨go', e', c2⟩ ⟨h1, h2, h3⟩
  simp only at h1 h2 h3 ⊢
  subst h1; subst h2
  obtain rfl := h3.erase
  split
  · exact (makeOutput_sim mode _ c1).same (hr.keeps h3).bufOk
  · exact parseDelimiterPart_sim mode _ c1 (hr.keeps h3)

theorem parseAfterWhole_sim (mode : Mode) (r : DurationRepr) (c : Cursor) (hr : Ready mode env.cfg c) :
    Sim (Same mode env.cfg) (parseAfterWhole mode env.buffered r c) (parseAfterWhole mode env.unbuffered r c.erase) := by
  unfold parseAfterWhole
  refine (parseNumberFraction_sim r.whole env.cfg.disableFraction c).bind ?_
  rintro ⟨go, e, c1⟩ ⟨go', e', c2⟩ ⟨h1, h2, h3⟩
  simp only at h1 h2 h3 ⊢
  subst h1; subst h2
  obtain rfl := h3.erase
  split
  · exact (makeOutput_sim mode _ c1).same (hr.keeps h3).bufOk
  · exact parseExponentPart_sim mode _ c1 (hr.keeps h3)

theorem afterNumeral_sim (mode : Mode) (r : DurationRepr) (c : Cursor) (n : Option (Bytes × Multiplier))
    (hs : n.isSome = true → c.cur.isSome = true ∧ (mode = .multiple → BufOk env.cfg c)) :
    Sim (Same mode env.cfg) (afterNumeral mode env.buffered r c n) (afterNumeral mode env.unbuffered r c.erase n) := by
  cases n with
  | none => exact Sim.bind_same (x := c.getRemainderStr) (fun _ _ => Sim.fail _)
  | some n =>
    obtain ⟨id, m⟩ := n
    simp only [afterNumeral]
    obtain ⟨hs, hb⟩ := hs rfl
    refine (parseTimeUnit_sim' mode c hs hb).bind ?_
    rintro ⟨u, c1⟩ ⟨u', c2⟩ ⟨h1, h2, h3⟩
    simp only at h1 h2 h3 ⊢
    subst h1; subst h2
    cases u with
    | none =>
      simp only [numeralUnit]
      show Sim _ (if env.units.isEmpty = true then _ else _) (if env.units.isEmpty = true then _ else _)
      split
      · exact Sim.fail _
      · exact Sim.fail _
    | some u => exact (finalize_sim mode _ c1).mono (fun _ _ h => h.same h3)

theorem parseNumeralWord_sim (mode : Mode) (hco : Coherent mode env) (r : DurationRepr) (c : Cursor)
    (hs : c.cur.isSome = true) (hr : Ready mode env.cfg c) :
    Sim (Same mode env.cfg) (parseNumeralWord mode env.buffered r c) (parseNumeralWord mode env.unbuffered r c.erase) := by
  unfold parseNumeralWord
  refine (parseNumeral_sim mode hco c hs hr).bind ?_
  rintro ⟨n, c1⟩ ⟨n', c2⟩ ⟨h1, h2, h3⟩
  simp only at h1 h2 h3 ⊢
  subst h1; subst h2
  exact afterNumeral_sim mode r c1 n h3

theorem cur_congr {c c1 : Cursor} (hp : c1.pos = c.pos) (hi : c1.input = c.input) : c1.cur = c.cur := by
  unfold Cursor.cur; rw [hp, hi]

theorem parseUnitWord_sim (mode : Mode) (hco : Coherent mode env) (r : DurationRepr) (c : Cursor)
    (hs : c.cur.isSome = true) (hr : Ready mode env.cfg c) :
    Sim (Same mode env.cfg) (parseUnitWord mode env.buffered r c) (parseUnitWord mode env.unbuffered r c.erase) := by
  unfold parseUnitWord
  show Sim _ (if env.cfg.numberIsOptional = true then _ else _) (if env.cfg.numberIsOptional = true then _ else _)
  split
  · refine (parseTimeUnit_sim mode c hs hr).bind ?_
    rintro ⟨u, c1⟩ ⟨u', c2⟩ h
    obtain rfl := h.value
    obtain rfl := h.erase
    cases u with
    | none =>
      have hp := h.pos rfl
      simp only at hp
      have e : c1.reset c.pos = c1 := by rw [← hp]; rfl
      simp only [afterUnitWord]
      show Sim _ (parseNumeralWord mode env.buffered r (c1.reset c.pos))
        (parseNumeralWord mode env.unbuffered r (c1.reset c.pos).erase)
      rw [e]
      refine parseNumeralWord_sim mode hco r c1 ?_ h.ready
      rw [cur_congr hp h.input]; exact hs
    | some u => exact (finalize_sim mode _ c1).mono (fun _ _ h' => h'.same h.ready.bufOk)
  · exact parseNumeralWord_sim mode hco r c hs hr

theorem parseWord_sim (mode : Mode) (hco : Coherent mode env) (r : DurationRepr) (c : Cursor)
    (hs : c.cur.isSome = true) (hr : Ready mode env.cfg c) :
    Sim (Same mode env.cfg) (parseWord mode env.buffered r c) (parseWord mode env.unbuffered r c.erase) := by
  unfold parseWord
  refine (parseKeyword_sim mode hco c hs hr).bind ?_
  rintro ⟨u, c1⟩ ⟨u', c2⟩ h
  obtain rfl := h.value
  obtain rfl := h.erase
  cases u with
  | none =>
    refine parseUnitWord_sim mode hco r c1 ?_ h.ready
    rw [cur_congr (h.pos rfl) h.input]; exact hs
  | some u => exact (finalize_sim mode _ c1).mono (fun _ _ h' => h'.same h.ready.bufOk)

theorem parseBody_sim (mode : Mode) (hco : Coherent mode env) (r : DurationRepr) (c : Cursor)
    (hr : Ready mode env.cfg c) :
    Sim (Same mode env.cfg) (parseBody mode env.buffered r c) (parseBody mode env.unbuffered r c.erase) := by
  unfold parseBody
  rw [cur_erase]
  cases hb : c.cur with
  | none => exact Sim.fail _
  | some b =>
    have hs : c.cur.isSome = true := by rw [hb]; rfl
    simp only
    by_cases hd : isDigit b = true
    · rw [if_pos hd, if_pos hd]
      unfold parseWhole
      refine (parseDigitsStripZeros_sim c hb hd).bind ?_
      rintro ⟨w, c1⟩ ⟨w', c2⟩ ⟨h1, h2⟩
      simp only at h1 h2 ⊢
      subst h1
      obtain rfl := h2.erase
      exact parseAfterWhole_sim mode _ c1 (hr.keeps h2)
    · rw [if_neg hd, if_neg hd]
      by_cases hdot : b = 46
      · rw [if_pos hdot, if_pos hdot]
        exact parseAfterWhole_sim mode _ c hr
      · rw [if_neg hdot, if_neg hdot]
        show Sim _ (if (!env.cfg.disableInfinity && c.nextIs (b! "inf")) = true then _ else _)
          (if (!env.cfg.disableInfinity && c.nextIs (b! "inf")) = true then _ else _)
        split
        · exact (parseInfinityRemainder_sim mode r (c.advanceBy 3)).mono
            (fun _ _ h => h.same (hr.keeps (Keeps.advanceBy c 3)).bufOk)
        · exact parseWord_sim mode hco r c hs hr

theorem templateParse_sim (mode : Mode) (hco : Coherent mode env) (c : Cursor) (hr : Ready mode env.cfg c) :
    Sim (Same mode env.cfg) (templateParse mode env.buffered c) (templateParse mode env.unbuffered c.erase) := by
  unfold templateParse
  rw [cur_erase]
  cases hb : c.cur with
  | none => exact Sim.fail _
  | some b =>
    simp only
    refine (parseNumberSign_sim (env := env) c).bind ?_
    rintro ⟨s, c1⟩ ⟨s', c2⟩ ⟨h1, h2⟩
    simp only at h1 h2 ⊢
    subst h1
    obtain rfl := h2.erase
    exact parseBody_sim mode hco _ c1 (hr.keeps h2)

theorem parseMultipleLoop_sim (hco : Coherent .multiple env) (n : Nat) (d : Duration) (c : Cursor)
    (hr : BufOk env.cfg c) :
    parseMultipleLoop env.buffered n d c = parseMultipleLoop env.unbuffered n d c.erase := by
  apply Sim.eq
  induction n generalizing d c with
  | zero => exact Sim.panic _
  | succ n ih =>
    unfold parseMultipleLoop
    refine (templateParse_sim .multiple hco c hr).bind ?_
    rintro ⟨r, nx⟩ ⟨r', nx'⟩ ⟨h1, h2⟩
    simp only at h1 h2 ⊢
    subst h1
    refine Sim.bind_same (x := parseRepr env.cfg r) (fun parsed _ => ?_)
    refine Sim.bind_same (fun d' _ => ?_)
    match nx, nx', h2 with
    | none, none, _ => exact rfl
    | some c1, some c2, h' =>
      obtain ⟨rfl, h'⟩ := h'
      exact ih d' c1 (h' trivial)

/-- the mode in which a configured parser runs -/
def Config.mode (cfg : Config) : Mode := if cfg.allowMultiple then .multiple else .single

theorem parseWith_sim (hco : Coherent env.cfg.mode env) (s : Bytes) :
    parseWith env.buffered s = parseWith env.unbuffered s := by
  unfold parseWith
  show (if env.cfg.allowMultiple = true then _ else _) = (if env.cfg.allowMultiple = true then _ else _)
  by_cases hm : env.cfg.allowMultiple = true
  · rw [if_pos hm, if_pos hm]
    simp only [Config.mode, hm, if_true] at hco
    exact parseMultipleLoop_sim hco _ _ (Cursor.new s) (fun p w n h => by cases h)
  · rw [if_neg hm, if_neg hm]
    simp only [Config.mode, hm] at hco
    apply Sim.eq
    unfold parseSingle
    refine (templateParse_sim .single hco (Cursor.new s) rfl).bind ?_
    rintro ⟨r, nx⟩ ⟨r', nx'⟩ ⟨h1, -⟩
    simp only at h1
    subst h1
    exact Sim.refl (parseRepr env.cfg r)

end
end Fundu
