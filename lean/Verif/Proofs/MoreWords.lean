import Verif.Spec.MoreWords
import Verif.Proofs.OptionsMultiple
/-!
# Derivations with more keywords and numerals
-/
namespace Fundu.Props
open Fundu Fundu.Spec

variable {cfg : Config} {units : TimeUnitsLike} {keywords keywords' : Option TimeUnitsLike} {numerals numerals' : Option NumbersLike}

theorem words_identifier (hk : KeywordsMore keywords keywords') (hn : NumeralsMore numerals numerals') {id : Bytes}
    (h : IsIdentifier units keywords numerals id) : IsIdentifier units keywords' numerals' id := by
  rcases h with h | ⟨k, u, h, h'⟩ | ⟨n, q, h, h'⟩
  · exact Or.inl h
  · obtain ⟨k', h1, h2⟩ := hk k h id u h'
    exact Or.inr (Or.inl ⟨k', u, h1, h2⟩)
  · obtain ⟨n', h1, h2⟩ := hn n h id q h'
    exact Or.inr (Or.inr ⟨n', q, h1, h2⟩)

theorem words_orderly (hk : KeywordsMore keywords keywords') (hn : NumeralsMore numerals numerals')
    (ho : Orderly cfg units keywords' numerals') : Orderly cfg units keywords numerals := by
  have key := fun id => words_identifier (units := units) hk hn (id := id)
  refine ⟨ho.delimiters, fun id h => ho.nonempty id (key id h), fun id h => ho.plain id (key id h),
    fun id h => ho.point id (key id h), fun id h => ho.inf id (key id h), fun id h => ho.ago id (key id h), ?_, ?_, ?_⟩
  · intro k h id u hu
    cases hg : k.get id with
    | none => rfl
    | some v =>
      obtain ⟨k', h1, h2⟩ := hk k h id v hg
      rw [ho.unitsKeywords k' h1 id u hu] at h2
      cases h2
  · intro n h id u hu
    cases hg : n id with
    | none => rfl
    | some v =>
      obtain ⟨n', h1, h2⟩ := hn n h id v hg
      rw [ho.unitsNumerals n' h1 id u hu] at h2
      cases h2
  · intro k n h h' id u hu
    cases hg : n id with
    | none => rfl
    | some v =>
      obtain ⟨n', h1, h2⟩ := hn n h' id v hg
      obtain ⟨k', h3, h4⟩ := hk k h id u hu
      rw [ho.keywordsNumerals k' n' h3 h1 id u h4] at h2
      cases h2

/-- a text with a delimiter in it is no keyword -/
theorem delimiter_not_keyword (ho : Orderly cfg units keywords numerals) {k : TimeUnitsLike} (h : keywords = some k) {s : Bytes} {b : UInt8}
    (hb : b ∈ s) (hd : IsDelimiter cfg b) : k.get s = none := by
  cases hg : k.get s with
  | none => rfl
  | some u => exact absurd hd (ho.plain s (Or.inr (Or.inl ⟨k, u, h, hg⟩)) b hb).1

theorem words_single (hk : KeywordsMore keywords keywords') (hn : NumeralsMore numerals numerals')
    (ho : Orderly cfg units keywords' numerals') {s : Bytes} {item : Item} (h : SingleText cfg units keywords numerals s item) :
    SingleText cfg units keywords' numerals' s item := by
  cases h with
  | number h1 h2 => exact .number h1 h2
  | infinity h1 h2 => exact .infinity h1 h2
  | keyword h1 h2 h3 =>
    obtain ⟨k', h4, h5⟩ := hk _ h2 _ _ h3
    exact .keyword h1 h4 h5
  | unit h1 h2 h3 h4 =>
    refine .unit h1 (fun k' hk' => ?_) h3 h4
    cases h4 with
    | whole _ g => exact ho.unitsKeywords k' hk' _ _ g
    | plain _ _ _ g => exact ho.unitsKeywords k' hk' _ _ g
    | ago _ g1 _ _ g4 g5 =>
      rcases not_startsWith_not g1.2.2 with rfl | ⟨b, l, rfl, hb⟩
      · obtain ⟨e, -, -⟩ := g4
        obtain ⟨x, e', hx⟩ := g5
        rw [(List.append_eq_nil_iff.1 e.symm).2] at e'
        rw [(List.append_eq_nil_iff.1 e'.symm).1] at hx
        cases hx
      · exact delimiter_not_keyword ho hk' (b := b) (by rw [g1.1]; simp) (Or.inl hb)
  | numeral h1 h2 h3 h4 h5 h6 h7 h8 h9 h10 =>
    obtain ⟨n', g1, g2⟩ := hn _ h4 _ _ h7
    refine .numeral h1 (fun k' hk' => ?_) h3 g1 h5 h6 g2 h8 h9 h10
    rcases not_startsWith_not h5.2.2 with rfl | ⟨b, l, rfl, hb⟩
    · obtain ⟨e, -, -⟩ := h8
      exact absurd (List.append_eq_nil_iff.1 e.symm).2 h9
    · exact delimiter_not_keyword ho hk' (b := b) (by rw [h5.1]; simp) (Or.inl hb)

theorem words_multi (hd : ∀ b, cfg.innerDelimiter b = true → cfg.outerDelimiter b = true) (hk : KeywordsMore keywords keywords')
    (hn : NumeralsMore numerals numerals') (ho : Orderly cfg units keywords' numerals') {s rest : Bytes} {item : Item}
    (h : MultiText cfg units keywords numerals s item rest) : MultiText cfg units keywords' numerals' s item rest := by
  cases h with
  | numberEnd h => exact .numberEnd h
  | numberUnit h1 h2 h3 h4 => exact .numberUnit h1 h2 h3 h4
  | number h1 h2 h3 h4 h5 => exact .number h1 h2 h3 h4 h5
  | inf h1 h2 h3 h4 => exact .inf h1 h2 h3 h4
  | infinity h1 h2 h3 h4 h5 h6 => exact .infinity h1 h2 h3 h4 h5 h6
  | keyword h1 h2 h3 h4 =>
    obtain ⟨w, g1, g2, g3⟩ := h3
    obtain ⟨k', h5, h6⟩ := hk _ h2 _ _ g3
    exact .keyword h1 h5 ⟨w, g1, g2, h6⟩ h4
  | unit h1 h2 h3 h4 =>
    refine .unit h1 ?_ h3 h4
    rintro k' hk' ⟨v, r, hw⟩
    obtain ⟨w, g1, g2, g3⟩ := wordIn_congr (keywordEnd_iff hd) hw
    cases h4 with
    | mk h5 _ _ =>
      obtain ⟨w', g4, g5, g6⟩ := wordIn_congr (unitEnd_iff hd) h5
      obtain ⟨rfl, -⟩ := split_unique g1 g4
      rw [ho.unitsKeywords k' hk' _ _ g6] at g3
      cases g3
  | numeral h1 h2 h3 h4 h5 h6 h7 h8 h9 h10 =>
    obtain ⟨n', g1, g2⟩ := hn _ h4 _ _ h7
    refine .numeral h1 ?_ h3 g1 h5 h6 g2 h8 h9 h10
    rintro k' hk' ⟨v, r, hw⟩
    obtain ⟨w', k1, k2, k3⟩ := wordIn_congr (keywordEnd_iff hd) hw
    rw [h5.1] at k1
    obtain ⟨rfl, -⟩ := word_unique (p := EndByte cfg)
      (fun b hb => by
        have := ho.plain _ (Or.inr (Or.inr ⟨_, _, g1, g2⟩)) b hb
        rintro (k | k)
        · exact this.1 k
        · exact this.2 k)
      ((not_startsWith_not h5.2.2).imp id (startsWith_mono fun b hb => Or.inl (Or.inl hb))) k1
    rw [ho.keywordsNumerals k' n' hk' g1 _ _ k3] at g2
    cases g2

theorem words_denotesSingle (hk : KeywordsMore keywords keywords') (hn : NumeralsMore numerals numerals')
    (ho : Orderly cfg units keywords' numerals') {s : Bytes} {d : Duration} (h : DenotesSingle cfg units keywords numerals s d) :
    DenotesSingle cfg units keywords' numerals' s d := by
  obtain ⟨neg, r, item, h1, h2, h3⟩ := h
  exact ⟨neg, r, item, h1, words_single hk hn ho h2, h3⟩

theorem words_denotesMultiple (hd : ∀ b, cfg.innerDelimiter b = true → cfg.outerDelimiter b = true) (hk : KeywordsMore keywords keywords')
    (hn : NumeralsMore numerals numerals') (ho : Orderly cfg units keywords' numerals') {s : Bytes} {ds : List Duration}
    (h : DenotesMultiple cfg units keywords numerals s ds) : DenotesMultiple cfg units keywords' numerals' s ds := by
  obtain ⟨items, h1, h2⟩ := h
  refine ⟨items, ?_, h2⟩
  clear h2
  induction h1 with
  | last h1 h2 => exact .last h1 (words_multi hd hk hn ho h2)
  | more h1 h2 h3 h4 ih => exact .more h1 (words_multi hd hk hn ho h2) h3 ih

end Fundu.Props
