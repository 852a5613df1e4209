import Verif.Spec.Known
import Verif.Props.Usable
/-! # Parsers which read the same texts know the same words -/
namespace Fundu.Known
open Fundu Fundu.Spec Fundu.Props

variable {cfg : Config} {units : TimeUnitsLike} {keywords : Option TimeUnitsLike} {numerals : Option NumbersLike}

theorem connection_nil {r : Bytes} (h : Connection cfg [] r) : r = [] := by
  cases h with
  | absent => rfl
  | delims h1 h2 => exact absurd (List.append_eq_nil_iff.1 h1.1.symm).1 h2
  | conjunction h1 h2 => exact absurd (List.append_eq_nil_iff.1 h1.1.symm).1 h2

theorem connection_word {id r : Bytes} (hstop : ∀ b ∈ id, ¬ cfg.outerDelimiter b = true) (h : Connection cfg id r) : r = id := by
  cases h with
  | absent => rfl
  | @delims ds _ h1 h2 =>
    obtain ⟨b, l, rfl⟩ := List.exists_cons_of_ne_nil h2
    exact absurd (h1.2.1 b (by simp)) (hstop b (by rw [h1.1]; simp))
  | @conjunction ds _ _ _ _ _ _ _ h1 h2 =>
    obtain ⟨b, l, rfl⟩ := List.exists_cons_of_ne_nil h2
    exact absurd (h1.2.1 b (by simp)) (hstop b (by rw [h1.1]; simp))

theorem afterWord_nil {w r : Bytes} (hw : w ≠ []) : ¬ AfterWord w [] r := by
  rintro ⟨x, h1, h2⟩
  obtain ⟨rfl, -⟩ := List.append_eq_nil_iff.1 h1.symm
  unfold SameText at h2
  have := congrArg List.length h2
  simp only [List.length_map, List.length_nil] at this
  exact hw (List.eq_nil_of_length_eq_zero this.symm)

/-- the word is a time unit of a single duration -/
theorem single_known {id : Bytes} {p : TimeUnit × Multiplier} (h0 : cfg.allowAgo = true → ∀ b ∈ id, ¬ cfg.innerDelimiter b = true)
    (h : UnitSingle cfg units id p []) : units.get id = some p := by
  cases h with
  | whole _ h => exact h
  | plain _ _ _ h => exact h
  | ago ha h1 h2 _ h4 h5 =>
    obtain ⟨-, rfl⟩ := split_unique h1 (split_self (h0 ha))
    have h4' := h4.1
    obtain ⟨-, rfl⟩ := List.append_eq_nil_iff.1 h4'.symm
    exact absurd h5 (afterWord_nil (by decide))

theorem word_known {id r : Bytes} {p : TimeUnit × Multiplier} (h0 : ∀ b ∈ id, ¬ UnitEnd cfg b)
    (h : WordIn (UnitEnd cfg) units id p r) : units.get id = some p ∧ r = [] := by
  obtain ⟨w, h1, -, h3⟩ := h
  obtain ⟨rfl, rfl⟩ := split_unique h1 (split_self h0)
  exact ⟨h3, rfl⟩

theorem multi_known {id r : Bytes} {p : TimeUnit × Multiplier} (h0 : ∀ b ∈ id, ¬ UnitEnd cfg b)
    (h : UnitMulti cfg units id p r) : units.get id = some p ∧ r = [] := by
  cases h with
  | mk h1 h2 h3 =>
    obtain ⟨g, rfl⟩ := word_known h0 h1
    cases h2 with
    | absent => exact ⟨g, connection_nil h3⟩
    | other _ k1 k2 => exact absurd (List.append_eq_nil_iff.1 k1.1.symm).1 k2
    | ago _ k1 k2 => exact absurd (List.append_eq_nil_iff.1 k1.1.symm).1 k2

theorem afterDelims_unique {a : Bool} {d : Delimiter} {s r r' : Bytes} (h : AfterDelims a d s r) (h' : AfterDelims a d s r') : r = r' := by
  unfold AfterDelims at h h'
  cases a with
  | false => rw [if_neg (by decide)] at h h'; rw [h, h']
  | true =>
    rw [if_pos rfl] at h h'
    obtain ⟨_, h⟩ := h
    obtain ⟨_, h'⟩ := h'
    exact (split_unique h h').2

/-- no duration is read behind a number, if the word is not known -/
theorem no_duration {id : Bytes} {l : List (Bool × Item)} (hstop : ∀ b ∈ id, ¬ UnitEnd cfg b) (hw : WordStart cfg id)
    (hu : ¬ ∃ p r, WordIn (UnitEnd cfg) units id p r) (h : Durations cfg units none none id l) : False := by
  have key : ∀ {r neg item rest}, SignPart cfg id neg r → MultiText cfg units none none r item rest → False := by
    intro r neg item rest hs hm
    have hr : r = id := by
      cases hs with
      | absent => rfl
      | plus => exact absurd (Or.inr (Or.inr (Or.inr (Or.inl rfl)))) (hstop 43 (by simp))
      | minus => exact absurd (Or.inr (Or.inr (Or.inr (Or.inr rfl)))) (hstop 45 (by simp))
    subst hr
    cases hm with
    | numberEnd h => exact wordStart_not_number hw h
    | numberUnit h => exact wordStart_not_number hw h
    | number h => exact wordStart_not_number hw h
    | inf h1 h2 => exact hw.2.2.2 h1 ⟨_, h2⟩
    | infinity h1 h2 => exact hw.2.2.2 h1 ⟨_, h2⟩
    | keyword _ h => cases h
    | unit _ _ _ h =>
      cases h with
      | mk h1 => exact hu ⟨_, _, h1⟩
    | numeral _ _ _ h => cases h
  cases h with
  | last h1 h2 => exact key h1 h2
  | more h1 h2 => exact key h1 h2

/-- a text which is the number 1 and a word is read only if the word is known -/
theorem known {N r id : Bytes} {x : Int} (hs : IsText (N ++ r)) (hc : CfgText cfg) (hN : NumberText cfg (N ++ r) (b! "1") [] 0 r)
    (hsign : ¬ StartsWith (fun b => b = 43 ∨ b = 45) (N ++ r)) (hdig : StartsWith IsDigit (N ++ r))
    (hr : AfterDelims cfg.allowTimeUnitDelimiter cfg.innerDelimiter r id) (hr0 : r ≠ []) (h0 : id ≠ []) (hstop : ∀ b ∈ id, ¬ UnitStop cfg b)
    (hmul : cfg.allowMultiple = true → WordStart cfg id ∧ keywords = none ∧ numerals = none)
    (hlaw : units.isEmpty = true → ∀ w, units.get w = none)
    (h : Gives (parse cfg units keywords numerals (N ++ r)) x) : ∃ p, units.get id = some p ∧ OneOf p x := by
  have hword : ¬ WordStart cfg (N ++ r) := fun h => h.2.1 hdig
  cases hm : cfg.allowMultiple with
  | false =>
    obtain ⟨d, h1, h2, h3⟩ := h
    obtain ⟨neg, s', item, g1, g2, g3⟩ := (C27_single cfg units keywords numerals (N ++ r) d hs hc hm).1 h1
    have hns : neg = false ∧ s' = N ++ r := signPart_unique g1 (.absent (by simp [hr0]) hsign)
    obtain ⟨rfl, rfl⟩ := hns
    cases g2 with
    | number k1 k2 =>
      obtain ⟨rfl, rfl, rfl, rfl⟩ := numberText_unique k1 hN
      cases k2 with
      | absent => exact absurd rfl hr0
      | present q1 q2 q3 q4 =>
        obtain rfl := afterDelims_unique q1 hr
        have hk := single_known (fun ha b hb hx => hstop b hb (by unfold UnitStop; rw [hm]; exact ⟨ha, hx⟩)) q4
        refine ⟨_, hk, d, ?_, h3⟩
        cases g3.1 with
        | numberUnit _ hv => exact hv
    | infinity k1 k2 =>
      rcases k2 with k2 | k2
      · exact (numberText_not_inf hN k2 (Or.inl rfl)).elim
      · exact (numberText_not_inf hN k2 (Or.inr rfl)).elim
    | keyword k => exact absurd k hword
    | unit k => exact absurd k hword
    | numeral k => exact absurd k hword
  | true =>
    obtain ⟨hw, rfl, rfl⟩ := hmul hm
    have hstop' : ∀ b ∈ id, ¬ UnitEnd cfg b := by
      intro b hb hx
      refine hstop b hb ?_
      unfold UnitStop
      rwa [if_pos hm]
    have hcon : ∀ {t}, Connection cfg id t → t = id := connection_word (fun b hb hx => hstop' b hb (Or.inr (Or.inl hx)))
    obtain ⟨ds, ⟨items, g1, g2⟩, g3⟩ := (C27_multiple cfg units none none (N ++ r) x hs hc hm (Or.inr ⟨rfl, rfl⟩)).1 h
    have main : ∀ {neg t item rest}, SignPart cfg (N ++ r) neg t → MultiText cfg units none none t item rest →
        neg = false ∧ ((∃ p, rest = [] ∧ item = .number (b! "1") [] 0 (some p) ∧ units.get id = some p) ∨
          (rest = id ∧ ¬ ∃ p r, WordIn (UnitEnd cfg) units id p r) ∨
          (rest = id ∧ units.isEmpty = true)) := by
      intro neg t item rest k1 k2
      have hns : neg = false ∧ t = N ++ r := signPart_unique k1 (.absent (by simp [hr0]) hsign)
      obtain ⟨rfl, rfl⟩ := hns
      refine ⟨rfl, ?_⟩
      cases k2 with
      | numberEnd q =>
        obtain ⟨-, -, -, rfl⟩ := numberText_unique q hN
        exact absurd rfl hr0
      | numberUnit q1 q2 q3 q4 =>
        obtain ⟨rfl, rfl, rfl, rfl⟩ := numberText_unique q1 hN
        obtain rfl := afterDelims_unique q2 hr
        obtain ⟨j1, j2⟩ := multi_known hstop' q4
        exact Or.inl ⟨_, j2, rfl, j1⟩
      | number q1 q2 q3 q4 q5 =>
        obtain ⟨rfl, rfl, rfl, rfl⟩ := numberText_unique q1 hN
        obtain rfl := afterDelims_unique q2 hr
        cases he : units.isEmpty with
        | false => exact Or.inr (Or.inl ⟨hcon q5, q4 he⟩)
        | true => exact Or.inr (Or.inr ⟨hcon q5, rfl⟩)
      | inf _ q2 => exact (afterInf_not_number q2 hN).elim
      | infinity _ q2 => exact (afterInf_not_number q2 hN).elim
      | keyword k => exact absurd k hword
      | unit k => exact absurd k hword
      | numeral k => exact absurd k hword
    cases g1 with
    | last k1 k2 =>
      obtain ⟨rfl, ⟨p, -, rfl, e3⟩ | ⟨e1, -⟩ | ⟨e1, -⟩⟩ := main k1 k2
      · cases g2 with
        | cons a b =>
          cases b
          cases a.1 with
          | numberUnit _ hv =>
            refine ⟨_, e3, _, hv, ?_⟩
            rw [g3, List.map_cons, List.map_nil, saturatingSum_one _ hv.1]
      · exact absurd e1.symm h0
      · exact absurd e1.symm h0
    | more k1 k2 k3 k4 =>
      obtain ⟨rfl, ⟨p, e1, -, -⟩ | ⟨rfl, e2⟩ | ⟨rfl, e2⟩⟩ := main k1 k2
      · exact absurd e1 k3
      · exact (no_duration hstop' hw e2 k4).elim
      · refine (no_duration hstop' hw ?_ k4).elim
        rintro ⟨q, _, w, -, -, j⟩
        rw [hlaw e2 w] at j
        cases j

end Fundu.Known
