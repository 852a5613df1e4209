import Verif.Proofs.ListGrammarWords
/-! # The parser on texts accepts the language of the grammar: whole durations -/
namespace Fundu
open Spec

variable {cfg : Config} {env : Env} {s rest : Bytes}

theorem final_single_iff (x t : Bytes) : L.final .single cfg x = some t ↔ x = [] ∧ t = [] := by
  unfold L.final
  simp only
  split
  · rename_i h; subst h
    simp only [Option.some.injEq, true_and]; exact eq_comm
  · rename_i h
    simp [h]

theorem numDelim_iff (t : Bytes) : L.numDelim cfg s = some t ↔
    AfterDelims cfg.allowTimeUnitDelimiter cfg.innerDelimiter s t ∧ (t = [] → s = []) := by
  unfold L.numDelim
  rw [afterDelims_iff]
  cases ha : cfg.allowTimeUnitDelimiter with
  | false =>
    simp only [Bool.false_and, Bool.false_eq_true, if_false, Option.some.injEq]
    constructor
    · rintro rfl; exact ⟨rfl, id⟩
    · rintro ⟨rfl, _⟩; rfl
  | true =>
    simp only [Bool.true_and, if_true]
    cases hh : L.headIs cfg.innerDelimiter s with
    | true =>
      have hs : s ≠ [] := by rintro rfl; cases hh
      simp only [if_true, skipDelims_iff]
      constructor
      · rintro ⟨h1, h2⟩; exact ⟨h1, fun h => absurd h h2⟩
      · rintro ⟨h1, h2⟩; exact ⟨h1, fun h => hs (h2 h)⟩
    | false =>
      simp only [Bool.false_eq_true, if_false, dropWhile_of_head hh, Option.some.injEq]
      constructor
      · rintro rfl; exact ⟨rfl, id⟩
      · rintro ⟨rfl, _⟩; rfl

/-- the start of a number -/
def numHead (s : Bytes) : Prop := L.headIs isDigit s = true ∨ L.headIs (fun b => b = 46) s = true

theorem afterWhole_iff (mode : Mode) (item : Item) (h : numHead s) :
    L.afterWhole mode env (s.takeWhile isDigit) (s.dropWhile isDigit) = some (item, rest) ↔
      ∃ W F e r, NumberText env.cfg s W F e r ∧ ∃ r' u x, L.numDelim env.cfg r = some r' ∧
        L.numUnit mode env r' = some (u, x) ∧ L.final mode env.cfg x = some rest ∧ item = .number W F e u := by
  unfold L.afterWhole
  simp only [numberText_iff, Option.bind_eq_some_iff, Option.map_eq_some_iff]
  constructor
  · rintro ⟨⟨F, r2⟩, h1, ⟨e, r⟩, h2, r', h3, ⟨u, x⟩, h4, t, h5, h6⟩
    cases h6
    exact ⟨_, F, e, r, ⟨h, rfl, r2, h1, h2⟩, r', u, x, h3, h4, h5, rfl⟩
  · rintro ⟨W, F, e, r, ⟨_, rfl, r2, h1, h2⟩, r', u, x, h3, h4, h5, rfl⟩
    exact ⟨(F, r2), h1, (e, r), h2, r', h3, (u, x), h4, rest, h5, rfl⟩

theorem body_number (mode : Mode) (h : numHead s) :
    L.body mode env s = L.afterWhole mode env (s.takeWhile isDigit) (s.dropWhile isDigit) := by
  unfold L.body
  have hs : s ≠ [] := by rintro rfl; rcases h with h | h <;> cases h
  rw [if_neg hs]
  cases hd : L.headIs isDigit s with
  | true => rfl
  | false =>
    have h' := h.resolve_left (by rw [hd]; simp)
    rw [if_neg (by simp), if_pos h', takeWhile_of_head hd, dropWhile_of_head hd]

theorem wordStart_iff : WordStart cfg s ↔ s ≠ [] ∧ ¬ numHead s ∧
    (!cfg.disableInfinity && L.starts (b! "inf") s) = false := by
  unfold WordStart numHead
  rw [startsWith_iff digit_iff, startsWith_iff point_iff, exists_afterWord_iff]
  constructor
  · rintro ⟨h1, h2, h3, h4⟩
    refine ⟨h1, by rintro (h | h); exact h2 h; exact h3 h, ?_⟩
    cases hd : cfg.disableInfinity with
    | true => rfl
    | false => simpa using h4 hd
  · rintro ⟨h1, h2, h3⟩
    refine ⟨h1, fun h => h2 (Or.inl h), fun h => h2 (Or.inr h), ?_⟩
    intro hd
    rw [hd] at h3
    simpa using h3

theorem body_word (mode : Mode) (h : WordStart env.cfg s) : L.body mode env s = L.anyWord mode env s := by
  obtain ⟨h1, h2, h3⟩ := wordStart_iff.mp h
  unfold L.body
  rw [if_neg h1, if_neg (fun h => h2 (Or.inl h)), if_neg (fun h => h2 (Or.inr h)), h3]
  rfl

theorem body_infinity (mode : Mode) (h1 : s ≠ []) (h2 : ¬ numHead s)
    (h3 : (!env.cfg.disableInfinity && L.starts (b! "inf") s) = true) :
    L.body mode env s = (L.afterInf mode env.cfg (s.drop 3)).map fun t => (.infinity, t) := by
  unfold L.body
  rw [if_neg h1, if_neg (fun h => h2 (Or.inl h)), if_neg (fun h => h2 (Or.inr h)), h3]
  rfl

theorem starts_inf_head (h : L.starts (b! "inf") s = true) : s ≠ [] ∧ ¬ numHead s := by
  cases s with
  | nil => cases h
  | cons b l =>
    refine ⟨by simp, ?_⟩
    have h' : toLower b = toLower 105 := by
      rw [starts_cons, Bool.and_eq_true, decide_eq_true_eq] at h
      exact h.1
    rintro (hd | hd)
    · simp only [L.headIs] at hd
      have := (isDigit_iff b).mp hd
      unfold IsDigit at this
      unfold toLower at h'
      simp only [Bool.and_eq_true, decide_eq_true_eq] at h'
      rw [if_neg (by omega), if_neg (by decide)] at h'
      subst h'
      simp at this
    · simp only [L.headIs, decide_eq_true_eq] at hd
      subst hd
      exact absurd h' (by decide)

theorem numberText_head {W F : Bytes} {e : Int} (h : NumberText cfg s W F e rest) : numHead s :=
  ((numberText_iff W F e).mp h).1

theorem sameText_append (a b : Bytes) : SameText s (a ++ b) ↔ L.starts a s = true ∧ eqIgnoreCase (s.drop a.length) b = true := by
  rw [sameText_iff]
  unfold L.starts startsWith eqIgnoreCase
  simp only [Bool.and_eq_true, decide_eq_true_eq, List.map_append]
  constructor
  · intro h
    have hl : s.length = a.length + b.length := by
      have := congrArg List.length h
      simpa using this
    have h1 := congrArg (List.take a.length) h
    have h2 := congrArg (List.drop a.length) h
    rw [← List.map_take] at h1
    rw [← List.map_drop] at h2
    rw [List.take_left' (by simp)] at h1
    rw [List.drop_left' (by simp)] at h2
    exact ⟨⟨by omega, h1⟩, h2⟩
  · rintro ⟨⟨_, h1⟩, h2⟩
    rw [← h1, ← h2, ← List.map_append, List.take_append_drop]

/-! ## Single -/

theorem numeralWord_single_iff (item : Item) (t : Bytes) : L.numeralWord .single env s = some (item, t) ↔
    t = [] ∧ ∃ n w r1 q ds r2 u, item = .numeral q u ∧ env.numerals = some n ∧
      Split (¬ env.cfg.innerDelimiter · = true) s w r1 ∧ w ≠ [] ∧ n w = some q ∧
      Split (env.cfg.innerDelimiter · = true) r1 ds r2 ∧ r2 ≠ [] ∧ UnitSingle env.cfg env.units r2 u [] := by
  unfold L.numeralWord
  simp only [Option.bind_eq_some_iff]
  constructor
  · rintro ⟨⟨q, r2⟩, h1, h2⟩
    cases q with
    | none => cases h2
    | some q =>
      simp only [Option.bind_eq_some_iff, L.numeralUnit] at h2
      obtain ⟨⟨u, x⟩, h3, h4⟩ := h2
      cases u with
      | none => cases h4
      | some u =>
        simp only [Option.map_eq_some_iff, final_single_iff] at h4
        obtain ⟨y, ⟨rfl, rfl⟩, h5⟩ := h4
        cases h5
        obtain ⟨n, hn, w, r1, ds, g1, g2, g3, g4, g5⟩ := (numeral_iff ..).mp h1
        exact ⟨rfl, n, w, r1, q, ds, r2, u, rfl, hn, g1, g2, g3, g4, g5, (unitSingle_iff ..).mpr h3⟩
  · rintro ⟨rfl, n, w, r1, q, ds, r2, u, rfl, hn, g1, g2, g3, g4, g5, g6⟩
    refine ⟨(some q, r2), (numeral_iff ..).mpr ⟨n, hn, w, r1, ds, g1, g2, g3, g4, g5⟩, ?_⟩
    simp only [Option.bind_eq_some_iff]
    refine ⟨(some u, []), (unitSingle_iff ..).mp g6, ?_⟩
    simp only [L.numeralUnit, final_nil, Option.map_some]

theorem lookup_iff (k : TimeUnitsLike) (u : Unit') (t : Bytes) : L.lookup k s = some (some u, t) ↔ k.get s = some u ∧ t = [] := by
  unfold L.lookup
  cases hg : k.get s with
  | none => simp [L.unitFound]
  | some x => simp only [L.unitFound, Option.some.injEq, Prod.mk.injEq]; exact and_congr Iff.rfl eq_comm

theorem unitSingle_rest {units : TimeUnitsLike} {x : Bytes} (h : L.unitSingle cfg units s = some (none, x)) :
    ¬ ∃ u r, UnitSingle cfg units s u r := by
  rintro ⟨u, r, hu⟩
  rw [unitSingle_iff, h] at hu
  cases hu

theorem single_iff (item : Item) (t : Bytes) : L.body .single env s = some (item, t) ↔
    t = [] ∧ SingleText env.cfg env.units env.keywords env.numerals s item := by
  constructor
  · intro h
    by_cases hn : numHead s
    · rw [body_number _ hn, afterWhole_iff _ _ hn] at h
      obtain ⟨W, F, e, r, h1, r', u, x, h2, h3, h4, rfl⟩ := h
      rw [final_single_iff] at h4
      obtain ⟨rfl, rfl⟩ := h4
      refine ⟨rfl, .number h1 ?_⟩
      obtain ⟨g1, g2⟩ := (numDelim_iff _).mp h2
      unfold L.numUnit at h3
      split at h3
      · rename_i hr
        subst hr
        have hr := g2 rfl
        subst hr
        cases h3
        exact .absent
      · rename_i hr
        split at h3
        · cases h3
        · rename_i he
          simp only [Option.bind_eq_some_iff, L.needUnit, L.unit] at h3
          obtain ⟨o, h5, h6⟩ := h3
          split at h6
          · cases h6
          · rename_i ho
            cases h6
            cases u with
            | none => exact absurd rfl ho
            | some u => exact .present g1 hr (by simpa using he) ((unitSingle_iff ..).mpr h5)
    · by_cases hs : s = []
      · subst hs; cases h
      · cases hi : (!env.cfg.disableInfinity && L.starts (b! "inf") s) with
        | true =>
          rw [body_infinity _ hs hn hi, Option.map_eq_some_iff] at h
          obtain ⟨x, h1, h2⟩ := h
          cases h2
          simp only [L.afterInf] at h1
          rw [Bool.and_eq_true] at hi
          have hd : env.cfg.disableInfinity = false := by simpa using hi.1
          split at h1
          · rename_i hx
            cases h1
            refine ⟨rfl, .infinity hd ?_⟩
            rcases hx with hx | hx
            · left
              have := (sameText_append (s := s) (b! "inf") []).mpr ⟨hi.2, by
                show eqIgnoreCase (s.drop 3) [] = true
                rw [hx]; rfl⟩
              simpa using this
            · right
              exact (sameText_append (s := s) (b! "inf") (b! "inity")).mpr ⟨hi.2, hx⟩
          · cases h1
        | false =>
          have hw : WordStart env.cfg s := wordStart_iff.mpr ⟨hs, hn, hi⟩
          rw [body_word _ hw] at h
          unfold L.anyWord at h
          rw [Option.bind_eq_some_iff] at h
          obtain ⟨⟨k, x⟩, h1, h2⟩ := h
          cases k with
          | some u =>
            simp only [Option.map_eq_some_iff, final_single_iff] at h2
            obtain ⟨y, ⟨rfl, rfl⟩, h3⟩ := h2
            cases h3
            unfold L.keyword at h1
            cases hk : env.keywords with
            | none => rw [hk] at h1; cases h1
            | some k =>
              rw [hk] at h1
              exact ⟨rfl, .keyword hw rfl ((lookup_iff ..).mp h1).1⟩
          | none =>
            simp only at h2
            have hk : ∀ k, env.keywords = some k → k.get s = none := by
              intro k hk
              rw [hk] at h1
              simp only [L.keyword, L.lookup] at h1
              cases hg : k.get s with
              | none => rfl
              | some u => rw [hg] at h1; cases h1
            unfold L.unitWord at h2
            split at h2
            · rename_i ho
              rw [Option.bind_eq_some_iff] at h2
              obtain ⟨⟨u, x⟩, h3, h4⟩ := h2
              cases u with
              | some u =>
                simp only [Option.map_eq_some_iff, final_single_iff] at h4
                obtain ⟨y, ⟨rfl, rfl⟩, h5⟩ := h4
                cases h5
                exact ⟨rfl, .unit hw hk ho ((unitSingle_iff ..).mpr h3)⟩
              | none =>
                simp only at h4
                obtain ⟨rfl, n, w, r1, q, ds, r2, u, rfl, hn, g1, g2, g3, g4, g5, g6⟩ := (numeralWord_single_iff ..).mp h4
                exact ⟨rfl, .numeral hw hk (fun _ => unitSingle_rest h3) hn g1 g2 g3 g4 g5 g6⟩
            · rename_i ho
              obtain ⟨rfl, n, w, r1, q, ds, r2, u, rfl, hn, g1, g2, g3, g4, g5, g6⟩ := (numeralWord_single_iff ..).mp h2
              exact ⟨rfl, .numeral hw hk (fun hh => absurd hh ho) hn g1 g2 g3 g4 g5 g6⟩
  · rintro ⟨rfl, h⟩
    cases h with
    | @number W F e r u h1 h2 =>
      have hn := numberText_head h1
      rw [body_number _ hn, afterWhole_iff _ _ hn]
      cases h2 with
      | absent =>
        exact ⟨W, F, e, [], h1, [], none, [], numDelim_nil, rfl, final_nil _, rfl⟩
      | @present _ r' u g1 g2 g3 g4 =>
        refine ⟨W, F, e, r, h1, r', some u, [], (numDelim_iff _).mpr ⟨g1, fun h => absurd h g2⟩, ?_, final_nil _, rfl⟩
        unfold L.numUnit
        rw [if_neg g2, g3]
        simp only [Bool.false_eq_true, if_false, Option.bind_eq_some_iff]
        exact ⟨_, (unitSingle_iff ..).mp g4, rfl⟩
    | infinity h1 h2 =>
      have hst : L.starts (b! "inf") s = true ∧ (s.drop 3 = [] ∨ eqIgnoreCase (s.drop 3) (b! "inity") = true) := by
        rcases h2 with h2 | h2
        · obtain ⟨g1, g2⟩ := (sameText_append (s := s) (b! "inf") []).mp (by simpa using h2)
          refine ⟨g1, Or.inl ?_⟩
          have := eqIgnoreCase_length g2
          exact List.length_eq_zero_iff.mp this
        · obtain ⟨g1, g2⟩ := (sameText_append (s := s) (b! "inf") (b! "inity")).mp h2
          exact ⟨g1, Or.inr g2⟩
      obtain ⟨g1, g2⟩ := starts_inf_head hst.1
      rw [body_infinity _ g1 g2 (by rw [h1, hst.1]; rfl)]
      simp only [L.afterInf, if_pos hst.2, Option.map_some]
    | @keyword k u hw h1 h2 =>
      rw [body_word _ hw]
      unfold L.anyWord
      rw [h1, Option.bind_eq_some_iff]
      refine ⟨(some u, []), (lookup_iff ..).mpr ⟨h2, rfl⟩, ?_⟩
      simp only [final_nil, Option.map_some]
    | @unit u hw h1 h2 h3 =>
      rw [body_word _ hw]
      unfold L.anyWord
      rw [Option.bind_eq_some_iff]
      refine ⟨(none, s), ?_, ?_⟩
      · unfold L.keyword
        cases hk : env.keywords with
        | none => rfl
        | some k => simp only [L.lookup, h1 k hk, L.unitFound]
      · simp only [L.unitWord, h2, if_true, Option.bind_eq_some_iff]
        refine ⟨(some u, []), (unitSingle_iff ..).mp h3, ?_⟩
        simp only [final_nil, Option.map_some]
    | @numeral n w r1 q ds r2 u hw h1 h2 hn g1 g2 g3 g4 g5 g6 =>
      rw [body_word _ hw]
      unfold L.anyWord
      rw [Option.bind_eq_some_iff]
      have hnw : L.numeralWord .single env s = some (.numeral q u, []) :=
        (numeralWord_single_iff ..).mpr ⟨rfl, n, w, r1, q, ds, r2, u, rfl, hn, g1, g2, g3, g4, g5, g6⟩
      refine ⟨(none, s), ?_, ?_⟩
      · unfold L.keyword
        cases hk : env.keywords with
        | none => rfl
        | some k => simp only [L.lookup, h1 k hk, L.unitFound]
      · simp only [L.unitWord]
        split
        · rename_i ho
          rw [Option.bind_eq_some_iff]
          cases hu : L.unitSingle env.cfg env.units s with
          | none =>
            have := unitSingle_none _ hu
            rw [splitWord_iff] at g1
            rw [splitDelim_iff] at g4
            obtain ⟨rfl, rfl⟩ := g1
            obtain ⟨_, rfl⟩ := g4
            exact absurd this g5
          | some o =>
            obtain ⟨v, x⟩ := o
            cases v with
            | some v => exact absurd ⟨v, x, (unitSingle_iff ..).mpr hu⟩ (h2 ho)
            | none => exact ⟨(none, x), hu, hnw⟩
        · exact hnw

/-! ## Multiple -/

theorem numeralWord_multiple_iff (item : Item) : L.numeralWord .multiple env s = some (item, rest) ↔
    ∃ n w r1 q ds r2 u, item = .numeral q u ∧ env.numerals = some n ∧
      Split (¬ env.cfg.innerDelimiter · = true) s w r1 ∧ w ≠ [] ∧ n w = some q ∧
      Split (env.cfg.innerDelimiter · = true) r1 ds r2 ∧ r2 ≠ [] ∧ UnitMulti env.cfg env.units r2 u rest := by
  unfold L.numeralWord
  simp only [Option.bind_eq_some_iff]
  constructor
  · rintro ⟨⟨q, r2⟩, h1, h2⟩
    cases q with
    | none => cases h2
    | some q =>
      simp only [Option.bind_eq_some_iff, L.numeralUnit] at h2
      obtain ⟨⟨u, x⟩, h3, h4⟩ := h2
      cases u with
      | none => cases h4
      | some u =>
        simp only [Option.map_eq_some_iff, L.final] at h4
        obtain ⟨y, h6, h5⟩ := h4
        cases h5
        rw [unitMultiple_conn h3] at h6
        cases h6
        obtain ⟨n, hn, w, r1, ds, g1, g2, g3, g4, g5⟩ := (numeral_iff ..).mp h1
        exact ⟨n, w, r1, q, ds, r2, u, rfl, hn, g1, g2, g3, g4, g5, (unitMulti_iff ..).mpr h3⟩
  · rintro ⟨n, w, r1, q, ds, r2, u, rfl, hn, g1, g2, g3, g4, g5, g6⟩
    refine ⟨(some q, r2), (numeral_iff ..).mpr ⟨n, hn, w, r1, ds, g1, g2, g3, g4, g5⟩, ?_⟩
    simp only [Option.bind_eq_some_iff]
    have g7 := (unitMulti_iff ..).mp g6
    refine ⟨(some u, rest), g7, ?_⟩
    simp only [L.numeralUnit, L.final, unitMultiple_conn g7, Option.map_some]

theorem unitMulti_wordIn {units : TimeUnitsLike} {u : Unit'} (h : UnitMulti cfg units s u rest) :
    ∃ u t, WordIn (UnitEnd cfg) units s u t := by
  obtain ⟨h1, _, _⟩ := h
  exact ⟨_, _, h1⟩

theorem unitMulti_ne {units : TimeUnitsLike} {u : Unit'} (h : UnitMulti cfg units s u rest) : s ≠ [] := by
  obtain ⟨⟨w, h1, h2, _⟩, _, _⟩ := h
  rintro rfl
  have := h1.1
  simp at this
  exact h2 this.1

theorem conn_nil : L.conn cfg [] = some [] := rfl

theorem multi_iff (item : Item) : L.body .multiple env s = some (item, rest) ↔
    MultiText env.cfg env.units env.keywords env.numerals s item rest := by
  constructor
  · intro h
    by_cases hn : numHead s
    · rw [body_number _ hn, afterWhole_iff _ _ hn] at h
      obtain ⟨W, F, e, r, h1, r', u, x, h2, h3, h4, rfl⟩ := h
      simp only [L.final] at h4
      obtain ⟨g1, g2⟩ := (numDelim_iff _).mp h2
      unfold L.numUnit at h3
      split at h3
      · rename_i hr
        subst hr
        have hr := g2 rfl
        subst hr
        cases h3
        cases h4
        exact .numberEnd h1
      · rename_i hr
        split at h3
        · rename_i he
          cases h3
          exact .number h1 g1 hr (fun hh => by rw [he] at hh; cases hh) (conn_iff.mpr h4)
        · rename_i he
          simp only [Option.bind_eq_some_iff, L.needUnit, L.unit] at h3
          obtain ⟨o, h5, h6⟩ := h3
          cases h6
          cases u with
          | none =>
            obtain ⟨rfl, h7⟩ := unitMultiple_none h5
            exact .number h1 g1 hr (fun _ => h7) (conn_iff.mpr h4)
          | some u =>
            rw [unitMultiple_conn h5] at h4
            cases h4
            exact .numberUnit h1 g1 (by simpa using he) ((unitMulti_iff ..).mpr h5)
    · by_cases hs : s = []
      · subst hs; cases h
      · cases hi : (!env.cfg.disableInfinity && L.starts (b! "inf") s) with
        | true =>
          rw [body_infinity _ hs hn hi, Option.map_eq_some_iff] at h
          obtain ⟨x, h1, h2⟩ := h
          cases h2
          simp only [L.afterInf] at h1
          rw [Bool.and_eq_true] at hi
          have hd : env.cfg.disableInfinity = false := by simpa using hi.1
          have ha : AfterWord (b! "inf") s (s.drop 3) := (afterWord_iff ..).mpr ⟨hi.2, rfl⟩
          generalize s.drop 3 = r at h1 ha
          split at h1
          · rename_i hx
            cases h1
            exact .inf hd ha (Or.inl hx) (by rw [hx]; exact conn_iff.mpr rfl)
          · split at h1
            · rename_i hx
              exact .inf hd ha (Or.inr ((startsWith_iff (delim_iff _) _).mpr hx)) (conn_iff.mpr h1)
            · rename_i hx
              split at h1
              · rename_i hst
                split at h1
                · rename_i hy
                  refine .infinity hd ha ?_ ((afterWord_iff ..).mpr ⟨hst, rfl⟩) ?_ (conn_iff.mpr h1)
                  · rw [not_startsWith_iff (delim_iff _)]; simpa using hx
                  · rw [startsWith_iff (delim_iff _)]; exact hy
                · cases h1
              · cases h1
        | false =>
          have hw : WordStart env.cfg s := wordStart_iff.mpr ⟨hs, hn, hi⟩
          rw [body_word _ hw] at h
          unfold L.anyWord at h
          rw [Option.bind_eq_some_iff] at h
          obtain ⟨⟨k, x⟩, h1, h2⟩ := h
          cases k with
          | some u =>
            simp only [Option.map_eq_some_iff, L.final] at h2
            obtain ⟨y, h4, h3⟩ := h2
            cases h3
            unfold L.keyword at h1
            cases hk : env.keywords with
            | none => rw [hk] at h1; cases h1
            | some k =>
              rw [hk] at h1
              obtain ⟨r, g1, g2⟩ := (keywordMultiple_iff ..).mp h1
              rw [conn_conn (conn_iff.mp g2)] at h4
              cases h4
              exact .keyword hw rfl g1 g2
          | none =>
            simp only at h2
            have hk : ∀ k, env.keywords = some k → ¬ ∃ u r, WordIn (KeywordEnd env.cfg) k s u r := by
              intro k hk
              rw [hk] at h1
              exact (keywordMultiple_none h1).2
            unfold L.unitWord at h2
            split at h2
            · rename_i ho
              rw [Option.bind_eq_some_iff] at h2
              obtain ⟨⟨u, x⟩, h3, h4⟩ := h2
              cases u with
              | some u =>
                simp only [Option.map_eq_some_iff, L.final] at h4
                obtain ⟨y, h6, h5⟩ := h4
                cases h5
                rw [unitMultiple_conn h3] at h6
                cases h6
                exact .unit hw hk ho ((unitMulti_iff ..).mpr h3)
              | none =>
                simp only at h4
                obtain ⟨n, w, r1, q, ds, r2, u, rfl, hn, g1, g2, g3, g4, g5, g6⟩ := (numeralWord_multiple_iff ..).mp h4
                exact .numeral hw hk (fun _ => (unitMultiple_none h3).2) hn g1 g2 g3 g4 g5 g6
            · rename_i ho
              obtain ⟨n, w, r1, q, ds, r2, u, rfl, hn, g1, g2, g3, g4, g5, g6⟩ := (numeralWord_multiple_iff ..).mp h2
              exact .numeral hw hk (fun hh => absurd hh ho) hn g1 g2 g3 g4 g5 g6
  · intro h
    cases h with
    | @numberEnd W F e h1 =>
      have hn := numberText_head h1
      rw [body_number _ hn, afterWhole_iff _ _ hn]
      exact ⟨W, F, e, [], h1, [], none, [], numDelim_nil, rfl, rfl, rfl⟩
    | @numberUnit W F e r r' u _ h1 h2 h3 h4 =>
      have hn := numberText_head h1
      have hr := unitMulti_ne h4
      have h5 := (unitMulti_iff ..).mp h4
      rw [body_number _ hn, afterWhole_iff _ _ hn]
      refine ⟨W, F, e, r, h1, r', some u, rest, (numDelim_iff _).mpr ⟨h2, fun h => absurd h hr⟩, ?_, unitMultiple_conn h5, rfl⟩
      unfold L.numUnit
      rw [if_neg hr, h3]
      simp only [Bool.false_eq_true, if_false, Option.bind_eq_some_iff]
      exact ⟨_, h5, rfl⟩
    | @number W F e r r' _ h1 h2 h3 h4 h5 =>
      have hn := numberText_head h1
      rw [body_number _ hn, afterWhole_iff _ _ hn]
      refine ⟨W, F, e, r, h1, r', none, r', (numDelim_iff _).mpr ⟨h2, fun h => absurd h h3⟩, ?_, conn_iff.mp h5, rfl⟩
      unfold L.numUnit
      rw [if_neg h3]
      cases he : env.units.isEmpty with
      | true => rfl
      | false =>
        simp only [Bool.false_eq_true, if_false, Option.bind_eq_some_iff]
        exact ⟨_, unitMultiple_of_not (h4 he), rfl⟩
    | @inf r _ h1 h2 h3 h4 =>
      obtain ⟨g0, rfl⟩ := (afterWord_iff ..).mp h2
      obtain ⟨g1, g2⟩ := starts_inf_head g0
      rw [body_infinity _ g1 g2 (by rw [h1, g0]; rfl)]
      rw [startsWith_iff (delim_iff _)] at h3
      have h5 := conn_iff.mp h4
      show Option.map _ (L.afterInf .multiple env.cfg (s.drop (b! "inf" : Bytes).length)) = _
      generalize s.drop (b! "inf" : Bytes).length = r at h3 h5
      simp only [L.afterInf]
      by_cases hr : r = []
      · subst hr
        cases h5
        rfl
      · rw [if_neg hr, if_pos (h3.resolve_left hr), h5]
        rfl
    | @infinity r' r _ h1 h2 h3 h4 h5 h6 =>
      obtain ⟨g0, rfl⟩ := (afterWord_iff ..).mp h2
      obtain ⟨g1, g2⟩ := starts_inf_head g0
      rw [body_infinity _ g1 g2 (by rw [h1, g0]; rfl)]
      rw [not_startsWith_iff (delim_iff _)] at h3
      rw [startsWith_iff (delim_iff _)] at h5
      have h7 := conn_iff.mp h6
      show Option.map _ (L.afterInf .multiple env.cfg (s.drop (b! "inf" : Bytes).length)) = _
      generalize s.drop (b! "inf" : Bytes).length = r' at h3 h4
      obtain ⟨g3, rfl⟩ := (afterWord_iff ..).mp h4
      have hne : r' ≠ [] := by rintro rfl; cases g3
      simp only [L.afterInf]
      have h5' : r'.drop 5 = [] ∨ L.headIs env.cfg.outerDelimiter (r'.drop 5) = true := h5
      have h7' : L.conn env.cfg (r'.drop 5) = some rest := h7
      rw [if_neg hne, if_neg (by rw [h3]; simp), if_pos g3, if_pos h5', h7']
      rfl
    | @keyword k u r _ hw h1 h2 h3 =>
      rw [body_word _ hw]
      unfold L.anyWord
      rw [h1, Option.bind_eq_some_iff]
      refine ⟨(some u, rest), (keywordMultiple_iff ..).mpr ⟨r, h2, h3⟩, ?_⟩
      simp only [L.final, conn_conn (conn_iff.mp h3), Option.map_some]
    | @unit u _ hw h1 h2 h3 =>
      rw [body_word _ hw]
      unfold L.anyWord
      rw [Option.bind_eq_some_iff]
      have h4 := (unitMulti_iff ..).mp h3
      refine ⟨(none, s), ?_, ?_⟩
      · unfold L.keyword
        cases hk : env.keywords with
        | none => rfl
        | some k => exact keywordMultiple_of_not (h1 k hk)
      · simp only [L.unitWord, h2, if_true, Option.bind_eq_some_iff]
        refine ⟨(some u, rest), h4, ?_⟩
        simp only [L.final, unitMultiple_conn h4, Option.map_some]
    | @numeral n w r1 q ds r2 u _ hw h1 h2 hn g1 g2 g3 g4 g5 g6 =>
      rw [body_word _ hw]
      unfold L.anyWord
      rw [Option.bind_eq_some_iff]
      have hnw : L.numeralWord .multiple env s = some (.numeral q u, rest) :=
        (numeralWord_multiple_iff ..).mpr ⟨n, w, r1, q, ds, r2, u, rfl, hn, g1, g2, g3, g4, g5, g6⟩
      refine ⟨(none, s), ?_, ?_⟩
      · unfold L.keyword
        cases hk : env.keywords with
        | none => rfl
        | some k => exact keywordMultiple_of_not (h1 k hk)
      · simp only [L.unitWord]
        split
        · rename_i ho
          rw [Option.bind_eq_some_iff]
          exact ⟨(none, s), unitMultiple_of_not (h2 ho), hnw⟩
        · exact hnw

/-! ## With the sign -/

theorem template_iff (mode : Mode) (neg : Bool) (item : Item) : L.template mode env s = some ((neg, item), rest) ↔
    ∃ r, SignPart env.cfg s neg r ∧ L.body mode env r = some (item, rest) := by
  unfold L.template
  simp only [Option.bind_eq_some_iff, Option.map_eq_some_iff, sign_iff]
  constructor
  · rintro ⟨⟨o, r⟩, h1, ⟨i, x⟩, h2, h3⟩
    cases h3
    exact ⟨r, ⟨o, h1, rfl⟩, h2⟩
  · rintro ⟨r, ⟨o, h1, rfl⟩, h2⟩
    exact ⟨(o, r), h1, (item, rest), h2, rfl⟩

end Fundu
