import Verif.Proofs.ListBody
/-! # The parser on texts accepts the language of the grammar -/
namespace Fundu
open Spec

variable {cfg : Config} {env : Env} {s rest : Bytes}

theorem startsWith_iff {p : UInt8 → Prop} {q : UInt8 → Bool} (h : ∀ b, p b ↔ q b = true) (s : Bytes) :
    StartsWith p s ↔ L.headIs q s = true := by
  cases s with
  | nil => exact ⟨(fun ⟨_, _, h, _⟩ => by cases h), (fun h => by cases h)⟩
  | cons b l =>
    constructor
    · rintro ⟨_, _, h1, h2⟩; cases h1; exact (h _).mp h2
    · intro h1; exact ⟨b, l, rfl, (h b).mpr h1⟩

theorem not_startsWith_iff {p : UInt8 → Prop} {q : UInt8 → Bool} (h : ∀ b, p b ↔ q b = true) (s : Bytes) :
    ¬ StartsWith p s ↔ L.headIs q s = false := by
  rw [startsWith_iff h]; simp

theorem split_iff {p : UInt8 → Prop} {q : UInt8 → Bool} (h : ∀ b, p b ↔ q b = true) (s run rest : Bytes) :
    Split p s run rest ↔ run = s.takeWhile q ∧ rest = s.dropWhile q := by
  unfold Split
  rw [not_startsWith_iff h]
  constructor
  · rintro ⟨h1, h2, h3⟩
    subst h1
    have h2' : ∀ b ∈ run, q b = true := fun b hb => (h b).mp (h2 b hb)
    rw [List.takeWhile_append_of_pos h2', List.dropWhile_append_of_pos h2']
    cases rest with
    | nil => simp
    | cons b l =>
      have h3' : q b = false := h3
      simp [List.takeWhile_cons, List.dropWhile_cons, h3']
  · rintro ⟨rfl, rfl⟩
    refine ⟨(List.takeWhile_append_dropWhile ..).symm, ?_, headIs_dropWhile q s⟩
    intro b hb
    exact (h b).mpr (takeWhile_mem hb)

theorem digit_iff (b : UInt8) : IsDigit b ↔ isDigit b = true := (isDigit_iff b).symm

theorem notDelim_iff (d : Delimiter) (b : UInt8) : ¬ d b = true ↔ (!d b) = true := by simp

theorem delim_iff (d : Delimiter) (b : UInt8) : d b = true ↔ d b = true := Iff.rfl

theorem splitWord_iff (d : Delimiter) (s w r : Bytes) :
    Split (¬ d · = true) s w r ↔ w = L.word d s ∧ r = L.afterWord d s := split_iff (notDelim_iff d) s w r

theorem splitDelim_iff (d : Delimiter) (s w r : Bytes) :
    Split (d · = true) s w r ↔ w = s.takeWhile d ∧ r = s.dropWhile d := split_iff (delim_iff d) s w r

theorem lower_eq (b : UInt8) : lower b = toLower b := by
  unfold lower toLower
  simp only [Bool.and_eq_true, decide_eq_true_eq]

theorem sameText_iff (a b : Bytes) : SameText a b ↔ eqIgnoreCase a b = true := by
  unfold SameText eqIgnoreCase
  have : lower = toLower := funext lower_eq
  rw [this, decide_eq_true_eq]

theorem afterWord_iff (w s rest : Bytes) : AfterWord w s rest ↔ L.starts w s = true ∧ rest = s.drop w.length := by
  unfold AfterWord L.starts startsWith
  rw [Bool.and_eq_true, decide_eq_true_eq]
  constructor
  · rintro ⟨x, rfl, h⟩
    rw [sameText_iff] at h
    have hl := eqIgnoreCase_length h
    rw [← hl, List.take_left, List.drop_left]
    exact ⟨⟨by simp, h⟩, rfl⟩
  · rintro ⟨⟨h1, h2⟩, rfl⟩
    exact ⟨s.take w.length, (List.take_append_drop ..).symm, (sameText_iff _ _).mpr h2⟩

theorem exists_afterWord_iff (w s : Bytes) : (∃ r, AfterWord w s r) ↔ L.starts w s = true := by
  simp only [afterWord_iff]
  exact ⟨fun ⟨_, h, _⟩ => h, fun h => ⟨_, h, rfl⟩⟩

theorem skipDelims_iff (d : Delimiter) (s t : Bytes) : L.skipDelims d s = some t ↔ t = s.dropWhile d ∧ t ≠ [] := by
  unfold L.skipDelims
  split
  · rename_i h
    constructor
    · intro h; cases h
    · rintro ⟨rfl, h2⟩; exact absurd h h2
  · rename_i h
    constructor
    · intro h'; cases h'; exact ⟨rfl, h⟩
    · rintro ⟨rfl, _⟩; rfl

theorem dropWhile_of_head {d : Delimiter} (h : L.headIs d s = false) : s.dropWhile d = s := by
  cases s with
  | nil => rfl
  | cons b l => have h' : d b = false := h; simp [List.dropWhile_cons, h']

theorem takeWhile_of_head {d : UInt8 → Bool} (h : L.headIs d s = false) : s.takeWhile d = [] := by
  cases s with
  | nil => rfl
  | cons b l => have h' : d b = false := h; simp [List.takeWhile_cons, h']

theorem takeWhile_ne_of_head {d : UInt8 → Bool} (h : L.headIs d s = true) : s.takeWhile d ≠ [] := by
  cases s with
  | nil => cases h
  | cons b l => have h' : d b = true := h; simp [List.takeWhile_cons, h']

theorem takeWhile_nil_iff {d : UInt8 → Bool} : s.takeWhile d = [] ↔ L.headIs d s = false := by
  cases h : L.headIs d s with
  | true => simp [takeWhile_ne_of_head h]
  | false => simp [takeWhile_of_head h]

theorem afterDelims_iff (allowed : Bool) (d : Delimiter) (s t : Bytes) :
    AfterDelims allowed d s t ↔ t = if allowed then s.dropWhile d else s := by
  unfold AfterDelims
  cases allowed with
  | false => simp
  | true =>
    simp only [if_true, splitDelim_iff]
    exact ⟨fun ⟨_, _, h⟩ => h, fun h => ⟨_, rfl, h⟩⟩

/-! ## Signs and numbers -/

theorem signRest_iff (neg : Bool) (r t : Bytes) (o : Option Bool) :
    L.signRest cfg neg r = some (o, t) ↔
      o = some neg ∧ AfterDelims cfg.allowSignDelimiter cfg.innerDelimiter r t ∧ t ≠ [] := by
  unfold L.signRest
  rw [afterDelims_iff]
  by_cases hr : r = []
  · subst hr
    simp only [if_true, List.dropWhile_nil, ite_self]
    constructor
    · intro h; cases h
    · rintro ⟨_, rfl, h⟩; exact absurd rfl h
  · rw [if_neg hr]
    cases ha : cfg.allowSignDelimiter with
    | false =>
      simp only [Bool.false_and, Bool.false_eq_true, if_false, Option.some.injEq, Prod.mk.injEq]
      constructor
      · rintro ⟨rfl, rfl⟩; exact ⟨rfl, rfl, hr⟩
      · rintro ⟨rfl, rfl, _⟩; exact ⟨rfl, rfl⟩
    | true =>
      simp only [Bool.true_and, if_true]
      cases hh : L.headIs cfg.innerDelimiter r with
      | true =>
        simp only [if_true, Option.map_eq_some_iff, skipDelims_iff]
        constructor
        · rintro ⟨x, ⟨h1, h2⟩, h3⟩; cases h3; exact ⟨rfl, h1, h2⟩
        · rintro ⟨rfl, h1, h2⟩; exact ⟨t, ⟨h1, h2⟩, rfl⟩
      | false =>
        simp only [Bool.false_eq_true, if_false, dropWhile_of_head hh, Option.some.injEq, Prod.mk.injEq]
        constructor
        · rintro ⟨rfl, rfl⟩; exact ⟨rfl, rfl, hr⟩
        · rintro ⟨rfl, rfl, _⟩; exact ⟨rfl, rfl⟩

theorem sign_head_iff (b : UInt8) : (b = 43 ∨ b = 45) ↔ (decide (b = 43) || decide (b = 45)) = true := by simp

theorem sign_iff (neg : Bool) : SignPart cfg s neg rest ↔ ∃ o, L.sign cfg s = some (o, rest) ∧ o.getD false = neg := by
  unfold L.sign
  constructor
  · intro h
    cases h with
    | absent h1 h2 =>
      rw [not_startsWith_iff sign_head_iff] at h2
      cases s with
      | nil => exact absurd rfl h1
      | cons b l =>
        simp only [L.headIs, Bool.or_eq_false_iff, decide_eq_false_iff_not] at h2
        simp only [if_neg h2.1, if_neg h2.2]
        exact ⟨none, rfl, rfl⟩
    | plus h1 h2 =>
      exact ⟨some false, (signRest_iff ..).mpr ⟨rfl, h1, h2⟩, rfl⟩
    | minus h1 h2 =>
      exact ⟨some true, (signRest_iff ..).mpr ⟨rfl, h1, h2⟩, rfl⟩
  · rintro ⟨o, h, rfl⟩
    cases s with
    | nil => cases h
    | cons b l =>
      simp only at h
      split at h
      · rename_i hb; subst hb
        obtain ⟨rfl, h1, h2⟩ := (signRest_iff ..).mp h
        exact .plus h1 h2
      · split at h
        · rename_i hb; subst hb
          obtain ⟨rfl, h1, h2⟩ := (signRest_iff ..).mp h
          exact .minus h1 h2
        · rename_i h1 h2
          cases h
          refine .absent (by simp) ?_
          rw [not_startsWith_iff sign_head_iff]
          simp [L.headIs, h1, h2]

theorem splitDigit_iff (s w r : Bytes) :
    Split IsDigit s w r ↔ w = s.takeWhile isDigit ∧ r = s.dropWhile isDigit := split_iff digit_iff s w r

theorem point_iff (b : UInt8) : b = 46 ↔ (fun b : UInt8 => decide (b = 46)) b = true := by simp

theorem fract_iff (W F : Bytes) : FractionPart cfg W s F rest ↔
    (W ≠ [] ∨ L.headIs (fun b => b = 46) s = true) ∧ L.fract cfg W s = some (F, rest) := by
  unfold L.fract
  constructor
  · intro h
    cases h with
    | absent h1 h2 =>
      refine ⟨Or.inl h1, ?_⟩
      cases s with
      | nil => rfl
      | cons b l =>
        rw [not_startsWith_iff point_iff] at h2
        simp only [L.headIs, decide_eq_false_iff_not] at h2
        simp only [if_neg h2]
    | @present r _ _ h1 h2 h3 =>
      refine ⟨Or.inr rfl, ?_⟩
      rw [splitDigit_iff] at h2
      obtain ⟨rfl, rfl⟩ := h2
      simp only [if_true, h1, Bool.false_eq_true, if_false]
      unfold L.fractDigits
      rw [if_neg (by rintro ⟨h4, h5⟩; rcases h3 with h3 | h3; exact h3 h4; exact h3 h5)]
  · rintro ⟨h1, h2⟩
    cases s with
    | nil =>
      cases h2
      rcases h1 with h1 | h1
      · exact .absent h1 (fun ⟨_, _, h, _⟩ => by cases h)
      · cases h1
    | cons b l =>
      simp only at h2
      split at h2
      · rename_i hb; subst hb
        cases hd : cfg.disableFraction with
        | true => rw [hd] at h2; cases h2
        | false =>
          rw [hd] at h2
          simp only [Bool.false_eq_true, if_false] at h2
          unfold L.fractDigits at h2
          split at h2
          · cases h2
          · rename_i h3
            cases h2
            refine .present hd ((splitDigit_iff ..).mpr ⟨rfl, rfl⟩) ?_
            by_cases hw : W = []
            · exact Or.inr (fun h4 => h3 ⟨hw, h4⟩)
            · exact Or.inl hw
      · rename_i hb
        cases h2
        rcases h1 with h1 | h1
        · refine .absent h1 ?_
          rw [not_startsWith_iff point_iff]
          simp [L.headIs, hb]
        · simp only [L.headIs, decide_eq_true_eq] at h1
          exact absurd h1 hb

theorem expSign_iff (neg : Bool) : ExponentSign s neg rest ↔ L.expSign s = (neg, rest) := by
  unfold L.expSign
  constructor
  · intro h
    cases h with
    | absent h1 =>
      rw [not_startsWith_iff sign_head_iff] at h1
      cases s with
      | nil => rfl
      | cons b l =>
        simp only [L.headIs, Bool.or_eq_false_iff, decide_eq_false_iff_not] at h1
        simp only [if_neg h1.1, if_neg h1.2]
    | plus => rfl
    | minus => rfl
  · intro h
    cases s with
    | nil => cases h; exact .absent (fun ⟨_, _, h, _⟩ => by cases h)
    | cons b l =>
      simp only at h
      split at h
      · rename_i hb; subst hb; cases h; exact .plus
      · split at h
        · rename_i hb; subst hb; cases h; exact .minus
        · rename_i h1 h2
          cases h
          refine .absent ?_
          rw [not_startsWith_iff sign_head_iff]
          simp [L.headIs, h1, h2]

theorem signed_eq (neg : Bool) (n : Nat) : signed neg n = if neg then -(n : Int) else n := rfl

theorem exp_iff (e : Int) : ExponentPart cfg s e rest ↔ L.exp cfg s = some (e, rest) := by
  have hx (b : UInt8) : (b = 101 ∨ b = 69) ↔ (decide (b = 101) || decide (b = 69)) = true := by simp
  unfold L.exp
  constructor
  · intro h
    cases h with
    | absent h1 =>
      rw [not_startsWith_iff hx] at h1
      cases s with
      | nil => rfl
      | cons b l =>
        simp only [L.headIs] at h1
        simp only [h1, Bool.false_eq_true, if_false]
    | @present x r neg r' E _ h1 h2 h3 h4 h5 h6 =>
      rw [hx] at h1
      simp only [if_pos h1, h2, Bool.false_eq_true, if_false]
      rw [expSign_iff] at h3
      rw [splitDigit_iff] at h4
      obtain ⟨rfl, rfl⟩ := h4
      rw [h3]
      unfold L.expDigits
      rw [← signed_eq] at h6
      rw [if_neg h5, if_pos h6]
      rfl
  · intro h
    cases s with
    | nil => cases h; exact .absent (fun ⟨_, _, h, _⟩ => by cases h)
    | cons b l =>
      simp only at h
      split at h
      · rename_i hb
        cases hd : cfg.disableExponent with
        | true => rw [hd] at h; cases h
        | false =>
          rw [hd] at h
          simp only [Bool.false_eq_true, if_false] at h
          unfold L.expDigits at h
          split at h
          · cases h
          · rename_i h1
            split at h
            · rename_i h2
              cases h
              exact .present ((hx b).mpr hb) hd ((expSign_iff _).mpr rfl) ((splitDigit_iff ..).mpr ⟨rfl, rfl⟩) h1 h2
            · cases h
      · rename_i hb
        cases h
        refine .absent ?_
        rw [not_startsWith_iff hx]
        simpa [L.headIs] using hb

/-- the number at the start of a text -/
theorem numberText_iff (W F : Bytes) (e : Int) : NumberText cfg s W F e rest ↔
    (L.headIs isDigit s = true ∨ L.headIs (fun b => b = 46) s = true) ∧ W = s.takeWhile isDigit ∧
      ∃ r, L.fract cfg W (s.dropWhile isDigit) = some (F, r) ∧ L.exp cfg r = some (e, rest) := by
  unfold NumberText
  simp only [splitDigit_iff, fract_iff, exp_iff]
  constructor
  · rintro ⟨r1, r2, ⟨rfl, rfl⟩, ⟨h3, h4⟩, h5⟩
    refine ⟨?_, rfl, r2, h4, h5⟩
    cases hd : L.headIs isDigit s with
    | true => exact Or.inl rfl
    | false =>
      rw [takeWhile_of_head hd, dropWhile_of_head hd] at h3
      exact Or.inr (h3.resolve_left (fun h => h rfl))
  · rintro ⟨h1, rfl, r, h3, h4⟩
    refine ⟨_, r, ⟨rfl, rfl⟩, ⟨?_, h3⟩, h4⟩
    cases hd : L.headIs isDigit s with
    | true => exact Or.inl (takeWhile_ne_of_head hd)
    | false =>
      rw [dropWhile_of_head hd]
      rw [hd] at h1
      exact Or.inr (h1.resolve_left (fun h => by cases h))

/-! ## Connections -/

theorem nextDuration_iff (b : UInt8) : NextDuration b ↔ isNextDuration b = true := by
  unfold NextDuration isNextDuration
  rw [digit_iff]
  simp [or_assoc]

theorem afterConj_iff (d : Delimiter) (s t : Bytes) : L.afterConj d s = some t ↔
    ∃ ds, Split (d · = true) s ds t ∧ t ≠ [] ∧ (ds = [] → StartsWith NextDuration t) := by
  simp only [splitDelim_iff, startsWith_iff nextDuration_iff]
  unfold L.afterConj
  by_cases hs : s = []
  · subst hs
    simp only [if_true, List.takeWhile_nil, List.dropWhile_nil]
    constructor
    · intro h; cases h
    · rintro ⟨_, ⟨_, rfl⟩, h, _⟩; exact absurd rfl h
  · rw [if_neg hs]
    cases hd : L.headIs d s with
    | true =>
      simp only [if_true, skipDelims_iff]
      constructor
      · rintro ⟨h1, h2⟩; exact ⟨_, ⟨rfl, h1⟩, h2, fun h => absurd h (takeWhile_ne_of_head hd)⟩
      · rintro ⟨_, ⟨_, h1⟩, h2, _⟩; exact ⟨h1, h2⟩
    | false =>
      simp only [Bool.false_eq_true, if_false, takeWhile_of_head hd, dropWhile_of_head hd]
      cases hn : L.headIs isNextDuration s with
      | true =>
        simp only [if_true, Option.some.injEq]
        constructor
        · rintro rfl; exact ⟨[], ⟨rfl, rfl⟩, hs, fun _ => hn⟩
        · rintro ⟨_, ⟨_, rfl⟩, _⟩; rfl
      | false =>
        simp only [Bool.false_eq_true, if_false]
        constructor
        · intro h; cases h
        · rintro ⟨_, ⟨rfl, rfl⟩, _, h⟩; rw [hn] at h; cases h rfl

theorem conj_iff (d : Delimiter) (r t : Bytes) (ws : List Bytes) : L.conj d r ws = some t ↔
    ((∀ w ∈ ws, ¬ L.starts w r = true) ∧ t = r) ∨
      ∃ before w after, ws = before ++ w :: after ∧ (∀ v ∈ before, ¬ L.starts v r = true) ∧ L.starts w r = true ∧
        L.afterConj d (r.drop w.length) = some t := by
  induction ws with
  | nil =>
    simp only [L.conj, List.not_mem_nil, false_implies, implies_true, true_and, Option.some.injEq]
    constructor
    · rintro rfl; exact Or.inl rfl
    · rintro (h | ⟨before, w, after, h, _⟩)
      · exact h.symm
      · exact absurd h (by simp)
  | cons w ws ih =>
    simp only [L.conj]
    by_cases hw : L.starts w r = true
    · rw [if_pos hw]
      constructor
      · intro h
        exact Or.inr ⟨[], w, ws, rfl, (fun v hv => by cases hv), hw, h⟩
      · rintro (h | ⟨before, v, after, h1, h2, h3, h4⟩)
        · exact absurd hw (h.1 w (by simp))
        · cases before with
          | nil => cases h1; exact h4
          | cons x xs => cases h1; exact absurd hw (h2 w (by simp))
    · rw [if_neg hw, ih]
      constructor
      · rintro (h | ⟨before, v, after, h1, h2, h3, h4⟩)
        · refine Or.inl ⟨?_, h.2⟩
          intro v hv
          rcases List.mem_cons.mp hv with rfl | hv
          · exact hw
          · exact h.1 v hv
        · refine Or.inr ⟨w :: before, v, after, by rw [h1]; rfl, ?_, h3, h4⟩
          intro v hv
          rcases List.mem_cons.mp hv with rfl | hv
          · exact hw
          · exact h2 v hv
      · rintro (h | ⟨before, v, after, h1, h2, h3, h4⟩)
        · exact Or.inl ⟨fun v hv => h.1 v (by simp [hv]), h.2⟩
        · cases before with
          | nil => cases h1; exact absurd h3 hw
          | cons x xs => cases h1; exact Or.inr ⟨xs, v, after, rfl, fun y hy => h2 y (by simp [hy]), h3, h4⟩

theorem conn_iff : Connection cfg s rest ↔ L.conn cfg s = some rest := by
  unfold L.conn
  constructor
  · intro h
    cases h with
    | absent h1 =>
      rw [not_startsWith_iff (delim_iff _)] at h1
      rw [h1]; rfl
    | @delims ds _ h1 h2 h3 h4 =>
      rw [splitDelim_iff] at h1
      obtain ⟨rfl, rfl⟩ := h1
      have hh : L.headIs cfg.outerDelimiter s = true := by
        by_contra hc
        exact h2 (takeWhile_of_head (by simpa using hc))
      rw [if_pos hh, Option.bind_eq_some_iff]
      refine ⟨_, (skipDelims_iff ..).mpr ⟨rfl, h3⟩, ?_⟩
      rw [conj_iff]
      refine Or.inl ⟨?_, rfl⟩
      intro w hw hs
      exact h4 w hw ((exists_afterWord_iff w _).mpr hs)
    | @conjunction ds r before w after r' ds' _ h1 h2 h3 h4 h5 h6 h7 h8 =>
      rw [splitDelim_iff] at h1
      obtain ⟨rfl, rfl⟩ := h1
      have hh : L.headIs cfg.outerDelimiter s = true := by
        by_contra hc
        exact h2 (takeWhile_of_head (by simpa using hc))
      rw [afterWord_iff] at h5
      obtain ⟨h5, rfl⟩ := h5
      have ha := (afterConj_iff cfg.outerDelimiter _ rest).mpr ⟨ds', h6, h7, h8⟩
      rw [if_pos hh, Option.bind_eq_some_iff]
      refine ⟨_, (skipDelims_iff ..).mpr ⟨rfl, ?_⟩, ?_⟩
      · intro hn
        rw [hn, List.drop_nil] at ha
        cases ha
      · rw [conj_iff]
        exact Or.inr ⟨before, w, after, h3, fun v hv hs => h4 v hv ((exists_afterWord_iff v _).mpr hs), h5, ha⟩
  · intro h
    split at h
    · rename_i hh
      rw [Option.bind_eq_some_iff] at h
      obtain ⟨r, h1, h2⟩ := h
      rw [skipDelims_iff] at h1
      obtain ⟨rfl, h1⟩ := h1
      rw [conj_iff] at h2
      rcases h2 with ⟨h2, rfl⟩ | ⟨before, w, after, h2, h3, h4, h5⟩
      · exact .delims ((splitDelim_iff ..).mpr ⟨rfl, rfl⟩) (takeWhile_ne_of_head hh) h1
          (fun w hw hs => h2 w hw ((exists_afterWord_iff w _).mp hs))
      · obtain ⟨ds', h6, h7, h8⟩ := (afterConj_iff ..).mp h5
        exact .conjunction ((splitDelim_iff ..).mpr ⟨rfl, rfl⟩) (takeWhile_ne_of_head hh) h2
          (fun v hv hs => h3 v hv ((exists_afterWord_iff v _).mp hs)) ((afterWord_iff ..).mpr ⟨h4, rfl⟩) h6 h7 h8
    · rename_i hh
      cases h
      exact .absent (by rw [not_startsWith_iff (delim_iff _)]; simpa using hh)

end Fundu
