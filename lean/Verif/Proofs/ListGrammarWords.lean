import Verif.Proofs.ListGrammar
/-! # The parser on texts accepts the language of the grammar: words and whole durations -/
namespace Fundu
open Spec

variable {cfg : Config} {env : Env} {s rest : Bytes}

theorem negated_eq (m : Multiplier) : negated m = m.saturatingNeg := by
  unfold negated Multiplier.saturatingNeg saturatingNegI64
  rfl

theorem word_append (d : Delimiter) (s : Bytes) : s = L.word d s ++ L.afterWord d s :=
  (List.takeWhile_append_dropWhile ..).symm

theorem split_self_iff (d : Delimiter) : Split (¬ d · = true) s s [] ↔ L.afterWord d s = [] := by
  rw [splitWord_iff]
  constructor
  · exact fun h => h.2.symm
  · intro h
    refine ⟨?_, h.symm⟩
    conv => lhs; rw [word_append d s, h, List.append_nil]

theorem unitSingle_iff (units : TimeUnitsLike) (u : Unit') :
    UnitSingle cfg units s u rest ↔ L.unitSingle cfg units s = some (some u, rest) := by
  unfold L.unitSingle
  constructor
  · intro h
    cases h with
    | whole h1 h2 =>
      rw [h1]
      simp only [Bool.false_eq_true, if_false, L.lookup, h2, L.unitFound]
    | plain h1 h2 h3 h4 =>
      rw [split_self_iff] at h2
      have hw : L.word cfg.innerDelimiter s = s := by
        conv => rhs; rw [word_append cfg.innerDelimiter s, h2, List.append_nil]
      rw [h1, if_pos rfl, hw, if_neg h3, h4]
      simp only [L.unitFound, L.agoSingle, h2, if_true]
    | @ago w r x m ds r' _ h1 h2 h3 h4 h5 h6 =>
      rw [splitWord_iff] at h2
      obtain ⟨rfl, rfl⟩ := h2
      rw [splitDelim_iff] at h5
      obtain ⟨_, rfl⟩ := h5
      rw [afterWord_iff] at h6
      obtain ⟨h6, rfl⟩ := h6
      have hne : List.dropWhile cfg.innerDelimiter (L.afterWord cfg.innerDelimiter s) ≠ [] := by
        intro hn; rw [hn] at h6; cases h6
      have hne' : L.afterWord cfg.innerDelimiter s ≠ [] := by
        intro hn; rw [hn] at hne; exact hne rfl
      rw [h1, if_pos rfl, if_neg h3, h4]
      simp only [L.unitFound, L.agoSingle, if_neg hne', Option.bind_eq_some_iff, skipDelims_iff]
      refine ⟨_, ⟨rfl, hne⟩, ?_⟩
      rw [if_pos h6, negated_eq]
      rfl
  · intro h
    split at h
    · rename_i ha
      split at h
      · cases h
      · rename_i hw
        cases hg : units.get (L.word cfg.innerDelimiter s) with
        | none => rw [hg] at h; cases h
        | some x =>
          rw [hg] at h
          simp only [L.unitFound, L.agoSingle] at h
          split at h
          · rename_i hr
            cases h
            have hw' : L.word cfg.innerDelimiter s = s := by
              conv => rhs; rw [word_append cfg.innerDelimiter s, hr, List.append_nil]
            rw [hw'] at hg hw
            exact .plain ha ((split_self_iff _).mpr hr) hw hg
          · simp only [Option.bind_eq_some_iff, skipDelims_iff] at h
            obtain ⟨t, ⟨rfl, h2⟩, h3⟩ := h
            split at h3
            · rename_i hs
              cases h3
              rw [← negated_eq]
              exact .ago ha ((splitWord_iff ..).mpr ⟨rfl, rfl⟩) hw hg ((splitDelim_iff ..).mpr ⟨rfl, rfl⟩)
                ((afterWord_iff ..).mpr ⟨hs, rfl⟩)
            · cases h3
    · rename_i ha
      unfold L.lookup at h
      cases hg : units.get s with
      | none => rw [hg] at h; cases h
      | some x =>
        rw [hg] at h
        cases h
        exact .whole (by simpa using ha) hg

theorem unitSingle_none (units : TimeUnitsLike) (h : L.unitSingle cfg units s = none) :
    List.dropWhile cfg.innerDelimiter (L.afterWord cfg.innerDelimiter s) = [] := by
  unfold L.unitSingle at h
  split at h
  · split at h
    · cases h
    · cases hg : units.get (L.word cfg.innerDelimiter s) with
      | none => rw [hg] at h; cases h
      | some x =>
        rw [hg] at h
        simp only [L.unitFound, L.agoSingle] at h
        split at h
        · cases h
        · unfold L.skipDelims at h
          split at h
          · assumption
          · simp only [Option.bind_some] at h
            split at h <;> cases h
  · unfold L.lookup at h
    cases hg : units.get s with
    | none => rw [hg] at h; cases h
    | some x => rw [hg] at h; cases h

/-! ## Multiple -/

theorem wordIn_iff {stop : UInt8 → Prop} {q : Delimiter} (hq : ∀ b, stop b ↔ q b = true) (table : TimeUnitsLike)
    (u : Unit') : WordIn stop table s u rest ↔
      L.word q s ≠ [] ∧ table.get (L.word q s) = some u ∧ rest = L.afterWord q s := by
  unfold WordIn
  have h (w r : Bytes) : Split (¬ stop ·) s w r ↔ w = L.word q s ∧ r = L.afterWord q s :=
    split_iff (fun b => by rw [hq]; exact notDelim_iff q b) s w r
  simp only [h]
  constructor
  · rintro ⟨w, ⟨rfl, rfl⟩, h1, h2⟩; exact ⟨h1, h2, rfl⟩
  · rintro ⟨h1, h2, rfl⟩; exact ⟨_, ⟨rfl, rfl⟩, h1, h2⟩

theorem keywordEnd_iff (b : UInt8) : KeywordEnd cfg b ↔ wordEnd cfg b = true := by
  unfold KeywordEnd wordEnd
  rw [nextDuration_iff, Bool.or_eq_true]

theorem unitEnd_iff (b : UInt8) : UnitEnd cfg b ↔ unitEnd cfg b = true := by
  unfold UnitEnd unitEnd
  rw [nextDuration_iff]
  cases cfg.allowAgo with
  | true => simp [wordEndAgo, or_assoc]
  | false => simp [wordEnd]

theorem agoText_iff (t : Bytes) : AgoText cfg s t ↔
    L.starts (b! "ago") s = true ∧ t = s.drop 3 ∧ (t = [] ∨ L.headIs (wordEnd cfg) t = true) := by
  unfold AgoText
  rw [afterWord_iff, startsWith_iff keywordEnd_iff, and_assoc]
  rfl

theorem agoMultiple_iff (u : TimeUnit) (m m' : Multiplier) :
    AgoPart cfg s m m' rest ↔ L.agoMultiple cfg (u, m) s = some ((u, m'), rest) := by
  unfold L.agoMultiple
  constructor
  · intro h
    cases h with
    | absent h1 =>
      have : (cfg.allowAgo && L.headIs cfg.innerDelimiter s) = false := by
        cases ha : cfg.allowAgo with
        | false => rfl
        | true =>
          have := h1 ha
          rw [not_startsWith_iff (delim_iff _)] at this
          rw [this]; rfl
      rw [this]
      rfl
    | @other ds r h1 h2 h3 h4 h5 =>
      rw [splitDelim_iff] at h2
      obtain ⟨rfl, rfl⟩ := h2
      have hh : L.headIs cfg.innerDelimiter s = true := by
        by_contra hc
        exact h3 (takeWhile_of_head (by simpa using hc))
      rw [h1, hh]
      simp only [Bool.and_self, if_true, Option.map_eq_some_iff, skipDelims_iff]
      refine ⟨_, ⟨rfl, h4⟩, ?_⟩
      split
      · rename_i hs
        unfold L.afterAgo
        rw [if_neg (fun hh => h5 ⟨_, (agoText_iff _).mpr ⟨hs, rfl, hh⟩⟩)]
      · rfl
    | @ago ds r _ h1 h2 h3 h4 =>
      rw [splitDelim_iff] at h2
      obtain ⟨rfl, rfl⟩ := h2
      rw [agoText_iff] at h4
      obtain ⟨h4, rfl, h5⟩ := h4
      have hh : L.headIs cfg.innerDelimiter s = true := by
        by_contra hc
        exact h3 (takeWhile_of_head (by simpa using hc))
      rw [h1, hh]
      simp only [Bool.and_self, if_true, Option.map_eq_some_iff, skipDelims_iff]
      refine ⟨_, ⟨rfl, ?_⟩, ?_⟩
      · intro hn; rw [hn] at h4; cases h4
      · rw [if_pos h4]
        unfold L.afterAgo
        rw [if_pos h5, negated_eq]
  · intro h
    split at h
    · rename_i hc
      rw [Bool.and_eq_true] at hc
      simp only [Option.map_eq_some_iff, skipDelims_iff] at h
      obtain ⟨t, ⟨rfl, h1⟩, h2⟩ := h
      have hsp : Split (cfg.innerDelimiter · = true) s (s.takeWhile cfg.innerDelimiter) (s.dropWhile cfg.innerDelimiter) :=
        (splitDelim_iff ..).mpr ⟨rfl, rfl⟩
      split at h2
      · rename_i hs
        unfold L.afterAgo at h2
        split at h2
        · rename_i ht
          cases h2
          rw [← negated_eq]
          exact .ago hc.1 hsp (takeWhile_ne_of_head hc.2) ((agoText_iff _).mpr ⟨hs, rfl, ht⟩)
        · rename_i ht
          cases h2
          refine .other hc.1 hsp (takeWhile_ne_of_head hc.2) h1 ?_
          rintro ⟨x, hx⟩
          rw [agoText_iff] at hx
          obtain ⟨_, rfl, hx⟩ := hx
          exact ht hx
      · rename_i hs
        cases h2
        refine .other hc.1 hsp (takeWhile_ne_of_head hc.2) h1 ?_
        rintro ⟨x, hx⟩
        exact hs ((agoText_iff _).mp hx).1
    · rename_i hc
      cases h
      refine .absent (fun ha => ?_)
      rw [not_startsWith_iff (delim_iff _)]
      rw [ha] at hc
      simpa using hc

theorem agoMultiple_unit {u : TimeUnit} {m : Multiplier} {o : Unit' × Bytes} (h : L.agoMultiple cfg (u, m) s = some o) :
    o.1.1 = u := by
  unfold L.agoMultiple at h
  split at h
  · rw [Option.map_eq_some_iff] at h
    obtain ⟨t, _, h⟩ := h
    subst h
    split
    · unfold L.afterAgo; split <;> rfl
    · rfl
  · cases h; rfl

theorem unitMulti_iff (units : TimeUnitsLike) (u : Unit') :
    UnitMulti cfg units s u rest ↔ L.unitMultiple cfg units s = some (some u, rest) := by
  unfold L.unitMultiple
  constructor
  · rintro ⟨h1, h2, h3⟩
    rw [wordIn_iff unitEnd_iff] at h1
    obtain ⟨h1, h4, rfl⟩ := h1
    rw [if_neg h1, h4]
    simp only [L.unitFound, L.unitTail, Option.bind_eq_some_iff, Option.map_eq_some_iff]
    exact ⟨_, (agoMultiple_iff _ _ _).mp h2, _, conn_iff.mp h3, rfl⟩
  · intro h
    split at h
    · cases h
    · rename_i hw
      cases hg : units.get (L.word (unitEnd cfg) s) with
      | none => rw [hg] at h; cases h
      | some x =>
        rw [hg] at h
        simp only [L.unitFound, L.unitTail, Option.bind_eq_some_iff, Option.map_eq_some_iff] at h
        obtain ⟨o, h1, t, h2, h3⟩ := h
        cases h3
        obtain ⟨x, m⟩ := x
        have hu := agoMultiple_unit h1
        obtain ⟨⟨u', m'⟩, r'⟩ := o
        simp only at hu
        subst hu
        exact .mk ((wordIn_iff unitEnd_iff ..).mpr ⟨hw, hg, rfl⟩) ((agoMultiple_iff _ _ _).mpr h1) (conn_iff.mpr h2)

theorem unitMultiple_conn {units : TimeUnitsLike} {u : Unit'} (h : L.unitMultiple cfg units s = some (some u, rest)) :
    L.conn cfg rest = some rest := by
  obtain ⟨_, _, h3⟩ := (unitMulti_iff units u).mpr h
  exact conn_conn (conn_iff.mp h3)

theorem unitMultiple_none {units : TimeUnitsLike} {x : Bytes} (h : L.unitMultiple cfg units s = some (none, x)) :
    x = s ∧ ¬ ∃ u r, WordIn (UnitEnd cfg) units s u r := by
  unfold L.unitMultiple at h
  simp only [wordIn_iff unitEnd_iff]
  split at h
  · rename_i hw
    cases h
    exact ⟨rfl, fun ⟨_, _, h, _⟩ => h hw⟩
  · cases hg : units.get (L.word (unitEnd cfg) s) with
    | none =>
      rw [hg] at h
      cases h
      exact ⟨rfl, fun ⟨_, _, _, h, _⟩ => by cases h⟩
    | some y =>
      rw [hg] at h
      simp only [L.unitFound, L.unitTail, Option.bind_eq_some_iff, Option.map_eq_some_iff] at h
      obtain ⟨o, h1, t, h2, h3⟩ := h
      cases h3

theorem unitMultiple_of_not {units : TimeUnitsLike} (h : ¬ ∃ u r, WordIn (UnitEnd cfg) units s u r) :
    L.unitMultiple cfg units s = some (none, s) := by
  unfold L.unitMultiple
  simp only [wordIn_iff unitEnd_iff] at h
  split
  · rfl
  · rename_i hw
    cases hg : units.get (L.word (unitEnd cfg) s) with
    | none => rfl
    | some y => exact absurd ⟨y, _, hw, hg, rfl⟩ h

theorem keywordMultiple_iff (k : TimeUnitsLike) (u : Unit') :
    L.keywordMultiple cfg k s = some (some u, rest) ↔ ∃ r, WordIn (KeywordEnd cfg) k s u r ∧ Connection cfg r rest := by
  unfold L.keywordMultiple
  simp only [wordIn_iff keywordEnd_iff, conn_iff]
  constructor
  · intro h
    split at h
    · cases h
    · rename_i hw
      cases hg : k.get (L.word (wordEnd cfg) s) with
      | none => rw [hg] at h; cases h
      | some x =>
        rw [hg] at h
        simp only [L.unitFound, L.keywordTail, Option.map_eq_some_iff] at h
        obtain ⟨t, h2, h3⟩ := h
        cases h3
        exact ⟨_, ⟨hw, rfl, rfl⟩, h2⟩
  · rintro ⟨r, ⟨h1, h2, rfl⟩, h3⟩
    rw [if_neg h1, h2]
    simp only [L.unitFound, L.keywordTail, h3, Option.map_some]

theorem keywordMultiple_none {k : TimeUnitsLike} {x : Bytes} (h : L.keywordMultiple cfg k s = some (none, x)) :
    x = s ∧ ¬ ∃ u r, WordIn (KeywordEnd cfg) k s u r := by
  unfold L.keywordMultiple at h
  simp only [wordIn_iff keywordEnd_iff]
  split at h
  · rename_i hw
    cases h
    exact ⟨rfl, fun ⟨_, _, h, _⟩ => h hw⟩
  · cases hg : k.get (L.word (wordEnd cfg) s) with
    | none =>
      rw [hg] at h
      cases h
      exact ⟨rfl, fun ⟨_, _, _, h, _⟩ => by cases h⟩
    | some y =>
      rw [hg] at h
      simp only [L.unitFound, L.keywordTail, Option.map_eq_some_iff] at h
      obtain ⟨t, h2, h3⟩ := h
      cases h3

theorem keywordMultiple_of_not {k : TimeUnitsLike} (h : ¬ ∃ u r, WordIn (KeywordEnd cfg) k s u r) :
    L.keywordMultiple cfg k s = some (none, s) := by
  unfold L.keywordMultiple
  simp only [wordIn_iff keywordEnd_iff] at h
  split
  · rfl
  · rename_i hw
    cases hg : k.get (L.word (wordEnd cfg) s) with
    | none => rfl
    | some y => exact absurd ⟨y, _, hw, hg, rfl⟩ h

theorem numeral_iff (n : Option NumbersLike) (q : Multiplier) (t : Bytes) :
    L.numeral cfg n s = some (some q, t) ↔ ∃ n', n = some n' ∧ ∃ w r1 ds, Split (¬ cfg.innerDelimiter · = true) s w r1 ∧
      w ≠ [] ∧ n' w = some q ∧ Split (cfg.innerDelimiter · = true) r1 ds t ∧ t ≠ [] := by
  simp only [splitWord_iff, splitDelim_iff]
  unfold L.numeral
  cases n with
  | none => simp
  | some n =>
    simp only
    constructor
    · intro h
      split at h
      · cases h
      · rename_i hw
        cases hg : n (L.word cfg.innerDelimiter s) with
        | none => rw [hg] at h; cases h
        | some q' =>
          rw [hg] at h
          simp only [L.numeralFound] at h
          split at h
          · simp only [Option.map_eq_some_iff, skipDelims_iff] at h
            obtain ⟨x, ⟨h1, h2⟩, h3⟩ := h
            cases h3
            exact ⟨n, rfl, _, _, _, ⟨rfl, rfl⟩, hw, hg, ⟨rfl, h1⟩, h2⟩
          · cases h
    · rintro ⟨n', hn, w, r1, ds, ⟨rfl, rfl⟩, h1, h2, ⟨_, rfl⟩, h3⟩
      cases hn
      rw [if_neg h1, h2]
      simp only [L.numeralFound]
      have hne : L.afterWord cfg.innerDelimiter s ≠ [] := by intro hn; rw [hn] at h3; exact h3 rfl
      rw [if_pos (afterWord_head _ _ hne)]
      simp only [Option.map_eq_some_iff, skipDelims_iff]
      exact ⟨_, ⟨rfl, h3⟩, rfl⟩

end Fundu
