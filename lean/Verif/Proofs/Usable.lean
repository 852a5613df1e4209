import Verif.Spec.Usable
import Verif.Proofs.OptionsMultiple
/-!
# Words which cannot be used do not occur in derivations
-/
namespace Fundu.Props
open Fundu Fundu.Spec

variable {cfg : Config} {units units' : TimeUnitsLike} {keywords keywords' : Option TimeUnitsLike}
  {numerals numerals' : Option NumbersLike}

theorem startsWith_prefix {p : UInt8 → Prop} {a b : Bytes} (h : StartsWith p a) : StartsWith p (a ++ b) := by
  obtain ⟨x, l, rfl, hx⟩ := h
  exact ⟨x, l ++ b, rfl, hx⟩

/-- a word in front of a text which starts with a word -/
theorem wordStart_prefix {w r : Bytes} (hw : w ≠ []) (h : WordStart cfg (w ++ r)) : WordStart cfg w := by
  obtain ⟨-, h2, h3, h4⟩ := h
  refine ⟨hw, fun h => h2 (startsWith_prefix h), fun h => h3 (startsWith_prefix h), fun hi => ?_⟩
  rintro ⟨r', x, hx, hs⟩
  exact h4 hi ⟨r' ++ r, x, by rw [hx, List.append_assoc], hs⟩

/-- what follows a number -/
theorem behind_number {s W F r : Bytes} {e : Int} (h : NumberText cfg s W F e r) :
    ¬ StartsWith IsDigit r ∧ (StartsWith (· = 46) r → cfg.disableFraction = false ∨ cfg.disableExponent = false) ∧
      (StartsWith (fun b => b = 101 ∨ b = 69) r → cfg.disableExponent = false) := by
  obtain ⟨r1, r2, h1, h2, h3⟩ := h
  cases h3 with
  | absent h3 =>
    refine ⟨?_, ?_, fun h => absurd h h3⟩
    · cases h2 with
      | absent _ _ => exact h1.2.2
      | present _ h _ => exact h.2.2
    · cases h2 with
      | absent _ h => exact fun h' => absurd h' h
      | present h _ _ => exact fun _ => Or.inl h
  | present _ hd _ hE _ _ => exact ⟨hE.2.2, fun _ => Or.inr hd, fun _ => hd⟩

/-- the places at which a time unit can start -/
inductive UnitPlace (cfg : Config) (numerals : Option NumbersLike) : Bytes → Prop
  | number {s W F e r r'} : NumberText cfg s W F e r → AfterDelims cfg.allowTimeUnitDelimiter cfg.innerDelimiter r r' →
      UnitPlace cfg numerals r'
  | bare {s} : cfg.numberIsOptional = true → WordStart cfg s → UnitPlace cfg numerals s
  | numeral {n w q r1 ds r} : numerals = some n → n w = some q → UsableNumeral cfg w →
      Split (cfg.innerDelimiter · = true) r1 ds r → UnitPlace cfg numerals r

theorem usable_of_place {w r : Bytes} (hw : w ≠ []) (hstop : ∀ b ∈ w, ¬ UnitStop cfg b) (h : UnitPlace cfg numerals (w ++ r)) :
    UsableUnit cfg numerals w := by
  refine ⟨hw, hstop, ?_⟩
  have key : ∀ {p : UInt8 → Prop}, ¬ StartsWith p (w ++ r) → ¬ StartsWith p w := fun h h' => h (startsWith_prefix h')
  cases h with
  | @number s W F e r0 _ h1 h2 =>
    unfold AfterDelims at h2
    by_cases ha : cfg.allowTimeUnitDelimiter = true
    · rw [if_pos ha] at h2
      obtain ⟨ds, hd⟩ := h2
      cases ds with
      | nil =>
        have e0 : r0 = w ++ r := by simpa using hd.1
        subst e0
        obtain ⟨b1, b2, b3⟩ := behind_number h1
        exact Or.inl ⟨⟨key b1, fun h => b2 (startsWith_prefix h), fun h => b3 (startsWith_prefix h)⟩, fun _ => key hd.2.2⟩
      | cons b ds =>
        have e0 : r0 = [b] ++ (ds ++ (w ++ r)) := hd.1
        subst e0
        obtain ⟨b1, b2, b3⟩ := behind_number h1
        exact Or.inr (Or.inl ⟨ha, ⟨b, hd.2.1 b (by simp), fun h => b1 (startsWith_prefix h), fun h => b2 (startsWith_prefix h),
          fun h => b3 (startsWith_prefix h)⟩, key hd.2.2⟩)
    · rw [if_neg ha] at h2
      subst h2
      obtain ⟨b1, b2, b3⟩ := behind_number h1
      exact Or.inl ⟨⟨key b1, fun h => b2 (startsWith_prefix h), fun h => b3 (startsWith_prefix h)⟩, fun h => absurd h ha⟩
  | bare h1 h2 => exact Or.inr (Or.inr (Or.inl ⟨h1, wordStart_prefix hw h2⟩))
  | numeral h1 h2 h3 h4 => exact Or.inr (Or.inr (Or.inr ⟨⟨_, _, _, h1, h2, h3⟩, key h4.2.2⟩))

theorem same_numeral_some (h : SameUsable cfg units units' keywords keywords' numerals numerals') {w : Bytes} {n : NumbersLike}
    {q : Multiplier} (hu : UsableNumeral cfg w) (hn : numerals = some n) (hq : n w = some q) :
    ∃ n', numerals' = some n' ∧ n' w = some q := by
  have := h.numerals w hu
  rw [hn] at this
  cases hn' : numerals' with
  | none => rw [hn'] at this; simp [hq] at this
  | some n' => rw [hn'] at this; exact ⟨n', rfl, by simpa [hq] using this⟩

theorem _root_.Fundu.Spec.SameUsable.symm (h : SameUsable cfg units units' keywords keywords' numerals numerals') :
    SameUsable cfg units' units keywords' keywords numerals' numerals := by
  refine ⟨h.isEmpty.symm, ?_, fun id hu => (h.keywords id hu).symm, fun w hu => (h.numerals w hu).symm⟩
  intro id ⟨h1, h2, h3⟩
  refine (h.units id ⟨h1, h2, ?_⟩).symm
  rcases h3 with h3 | h3 | h3 | ⟨⟨n, w, q, hn, hq, hu⟩, h3⟩
  · exact Or.inl h3
  · exact Or.inr (Or.inl h3)
  · exact Or.inr (Or.inr (Or.inl h3))
  · refine Or.inr (Or.inr (Or.inr ⟨?_, h3⟩))
    have := h.numerals w hu
    rw [hn] at this
    cases hn' : numerals with
    | none => rw [hn'] at this; simp [hq] at this
    | some n' => rw [hn'] at this; exact ⟨n', w, q, rfl, by simpa [hq] using this.symm, hu⟩

variable (h : SameUsable cfg units units' keywords keywords' numerals numerals')
include h

theorem same_keyword {id : Bytes} {k : TimeUnitsLike} {u : TimeUnit × Multiplier} (hu : UsableKeyword cfg id) (hk : keywords = some k)
    (hg : k.get id = some u) : ∃ k', keywords' = some k' ∧ k'.get id = some u := by
  have := h.keywords id hu
  rw [hk] at this
  cases hn' : keywords' with
  | none => rw [hn'] at this; simp [hg] at this
  | some n' => rw [hn'] at this; exact ⟨n', rfl, by simpa [hg] using this⟩

theorem same_unitSingle (hm : cfg.allowMultiple = false) {s rest : Bytes} {u : TimeUnit × Multiplier} (hp : UnitPlace cfg numerals s)
    (hs : s ≠ []) (hu : UnitSingle cfg units s u rest) : UnitSingle cfg units' s u rest := by
  have stop : ∀ {b : UInt8}, ¬ UnitStop cfg b ↔ ¬ (cfg.allowAgo = true ∧ cfg.innerDelimiter b = true) := by
    intro b; unfold UnitStop; rw [hm]; simp
  cases hu with
  | whole h1 h2 =>
    refine .whole h1 ?_
    rw [h.units s (usable_of_place (r := []) hs (fun b _ => stop.2 (fun hx => by rw [h1] at hx; cases hx.1)) (by simpa using hp))]
    exact h2
  | plain h1 h2 h3 h4 =>
    refine .plain h1 h2 h3 ?_
    rw [h.units s (usable_of_place (r := []) hs (fun b hb => stop.2 (fun hx => h2.2.1 b hb hx.2)) (by simpa using hp))]
    exact h4
  | ago h1 h2 h3 h4 h5 h6 =>
    refine .ago h1 h2 h3 ?_ h5 h6
    rw [h.units _ (usable_of_place h3 (fun b hb => stop.2 (fun hx => h2.2.1 b hb hx.2)) (by rw [← h2.1]; exact hp))]
    exact h4

theorem same_wordIn (hm : cfg.allowMultiple = true) {s rest : Bytes} {u : TimeUnit × Multiplier} (hp : UnitPlace cfg numerals s)
    (hu : WordIn (UnitEnd cfg) units s u rest) : WordIn (UnitEnd cfg) units' s u rest := by
  obtain ⟨w, h1, h2, h3⟩ := hu
  refine ⟨w, h1, h2, ?_⟩
  rw [h.units w (usable_of_place h2 (fun b hb => ?_) (by rw [← h1.1]; exact hp))]
  · exact h3
  · unfold UnitStop; rw [if_pos hm]; exact h1.2.1 b hb

theorem same_keywordIn {s rest : Bytes} {u : TimeUnit × Multiplier} {k : TimeUnitsLike}
    (hs : WordStart cfg s) (hk : keywords = some k) (hu : WordIn (KeywordEnd cfg) k s u rest) :
    ∃ k', keywords' = some k' ∧ WordIn (KeywordEnd cfg) k' s u rest := by
  obtain ⟨w, h1, h2, h3⟩ := hu
  obtain ⟨k', e1, e2⟩ := same_keyword h (id := w) ⟨wordStart_prefix h2 (by rw [← h1.1]; exact hs), fun b hb hx => h1.2.1 b hb hx.2⟩ hk h3
  exact ⟨k', e1, w, h1, h2, e2⟩

omit h in
theorem usableNumeral_of {s w r1 ds r2 : Bytes} (hs : WordStart cfg s) (h1 : Split (¬ cfg.innerDelimiter · = true) s w r1)
    (hw : w ≠ []) (h2 : Split (cfg.innerDelimiter · = true) r1 ds r2) (hr : r2 ≠ []) : UsableNumeral cfg w := by
  refine ⟨wordStart_prefix hw (by rw [← h1.1]; exact hs), h1.2.1, ?_⟩
  cases ds with
  | nil =>
    have : r1 = r2 := by simpa using h2.1
    subst this
    cases r1 with
    | nil => exact absurd rfl hr
    | cons b l => by_contra hx; exact h1.2.2 ⟨b, l, rfl, fun hb => hx ⟨b, hb⟩⟩
  | cons b ds => exact ⟨b, h2.2.1 b (by simp)⟩

theorem same_single (hm : cfg.allowMultiple = false) {s : Bytes} {item : Item} (ht : SingleText cfg units keywords numerals s item) :
    SingleText cfg units' keywords' numerals' s item := by
  have noKey : ∀ {s : Bytes}, WordStart cfg s → (∀ k, keywords = some k → k.get s = none) → ∀ k, keywords' = some k → k.get s = none := by
    intro s hs hk k hk'
    cases hg : k.get s with
    | none => rfl
    | some u =>
      obtain ⟨k', e1, e2⟩ := same_keyword h.symm ⟨hs, fun b _ hx => by have := hx.1; rw [hm] at this; cases this⟩ hk' hg
      rw [hk k' e1] at e2; cases e2
  cases ht with
  | number h1 h2 =>
    refine .number h1 ?_
    cases h2 with
    | absent => exact .absent
    | present g1 g2 g3 g4 => exact .present g1 g2 (h.isEmpty.trans g3) (same_unitSingle h hm (.number h1 g1) g2 g4)
  | infinity h1 h2 => exact .infinity h1 h2
  | keyword h1 h2 h3 =>
    obtain ⟨k', e1, e2⟩ := same_keyword h ⟨h1, fun b _ hx => by have := hx.1; rw [hm] at this; cases this⟩ h2 h3
    exact .keyword h1 e1 e2
  | unit h1 h2 h3 h4 => exact .unit h1 (noKey h1 h2) h3 (same_unitSingle h hm (.bare h3 h1) h1.1 h4)
  | numeral h1 h2 h3 h4 h5 h6 h7 h8 h9 h10 =>
    have hun := usableNumeral_of h1 h5 h6 h8 h9
    obtain ⟨n', e1, e2⟩ := same_numeral_some h hun h4 h7
    refine .numeral h1 (noKey h1 h2) ?_ e1 h5 h6 e2 h8 h9 (same_unitSingle h hm (.numeral h4 h7 hun h8) h9 h10)
    rintro ho ⟨u, rest, hu⟩
    exact h3 ho ⟨u, rest, same_unitSingle h.symm hm (.bare ho h1) h1.1 hu⟩

theorem same_unitMulti (hm : cfg.allowMultiple = true) {s rest : Bytes} {u : TimeUnit × Multiplier} (hp : UnitPlace cfg numerals s)
    (hu : UnitMulti cfg units s u rest) : UnitMulti cfg units' s u rest := by
  cases hu with
  | mk h1 h2 h3 => exact .mk (same_wordIn h hm hp h1) h2 h3

theorem same_multi (hm : cfg.allowMultiple = true) {s rest : Bytes} {item : Item} (ht : MultiText cfg units keywords numerals s item rest) :
    MultiText cfg units' keywords' numerals' s item rest := by
  have noKey : ∀ {s : Bytes}, WordStart cfg s → (∀ k, keywords = some k → ¬ ∃ u r, WordIn (KeywordEnd cfg) k s u r) →
      ∀ k, keywords' = some k → ¬ ∃ u r, WordIn (KeywordEnd cfg) k s u r := by
    rintro s hs hk k hk' ⟨u, r, hw⟩
    obtain ⟨k', e1, e2⟩ := same_keywordIn h.symm hs hk' hw
    exact hk k' e1 ⟨u, r, e2⟩
  cases ht with
  | numberEnd h1 => exact .numberEnd h1
  | numberUnit h1 h2 h3 h4 => exact .numberUnit h1 h2 (h.isEmpty.trans h3) (same_unitMulti h hm (.number h1 h2) h4)
  | number h1 h2 h3 h4 h5 =>
    refine .number h1 h2 h3 ?_ h5
    rintro he ⟨u, t, hw⟩
    exact h4 (h.isEmpty.symm.trans he) ⟨u, t, same_wordIn h.symm hm (.number h1 h2) hw⟩
  | inf h1 h2 h3 h4 => exact .inf h1 h2 h3 h4
  | infinity h1 h2 h3 h4 h5 h6 => exact .infinity h1 h2 h3 h4 h5 h6
  | keyword h1 h2 h3 h4 =>
    obtain ⟨k', e1, e2⟩ := same_keywordIn h h1 h2 h3
    exact .keyword h1 e1 e2 h4
  | unit h1 h2 h3 h4 => exact .unit h1 (noKey h1 h2) h3 (same_unitMulti h hm (.bare h3 h1) h4)
  | numeral h1 h2 h3 h4 h5 h6 h7 h8 h9 h10 =>
    have hun := usableNumeral_of h1 h5 h6 h8 h9
    obtain ⟨n', e1, e2⟩ := same_numeral_some h hun h4 h7
    refine .numeral h1 (noKey h1 h2) ?_ e1 h5 h6 e2 h8 h9 (same_unitMulti h hm (.numeral h4 h7 hun h8) h10)
    rintro ho ⟨u, r, hw⟩
    exact h3 ho ⟨u, r, same_wordIn h.symm hm (.bare ho h1) hw⟩

theorem same_durations (hm : cfg.allowMultiple = true) {s : Bytes} {l : List (Bool × Item)} (ht : Durations cfg units keywords numerals s l) :
    Durations cfg units' keywords' numerals' s l := by
  induction ht with
  | last h1 h2 => exact .last h1 (same_multi h hm h2)
  | more h1 h2 h3 _ ih => exact .more h1 (same_multi h hm h2) h3 ih

end Fundu.Props
