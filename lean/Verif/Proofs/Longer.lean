import Verif.Spec.Longer
import Verif.Proofs.Lengths
import Verif.Props.Literal
/-!
# The same text with longer units

The items of a text with the tables `units`, ... correspond to its items with the tables `units'`, ...
-/
namespace Fundu.Longer
open Fundu Fundu.Spec Fundu.Props Fundu.Lengths

variable {cfg : Config} {v : TimeUnit} {units units' : TimeUnitsLike} {keywords keywords' : Option TimeUnitsLike}
  {numerals numerals' : Option NumbersLike} {s r : Bytes}

/-- a time unit with its multiplier is not longer than another -/
def Le (a b : TimeUnit × Multiplier) : Prop := Shorter (product a.1.multiplier a.2) (product b.1.multiplier b.2)

/-- corresponding items -/
inductive LeItem : Item → Item → Prop
  | number {W F e} : LeItem (.number W F e none) (.number W F e none)
  | numberUnit {W F e u u'} : Le u u' → LeItem (.number W F e (some u)) (.number W F e (some u'))
  | infinity : LeItem .infinity .infinity
  | word {u u'} : Le u u' → LeItem (.word u) (.word u')
  | numeral {q q' u u'} : Shorter q q' → Le u u' → LeItem (.numeral q u) (.numeral q' u')

theorem same_keywords (h : Option.Rel ShorterTable keywords keywords') : SameKeywords keywords keywords' := by
  cases h with
  | some h => exact .some h.words
  | none => exact .none

theorem same_numerals (h : Option.Rel ShorterNumbers numerals numerals') : SameNumerals numerals numerals' := by
  cases h with
  | some h => exact .some h.1
  | none => exact .none

theorem get (h : ShorterTable units units') {w : Bytes} {u} (hw : units.get w = some u) :
    ∃ u', units'.get w = some u' ∧ Le u u' ∧ u'.2.coefficient ≠ -2 ^ 63 := by
  obtain ⟨⟨u', m'⟩, h1⟩ := get_other h.words hw
  exact ⟨_, h1, h.shorter _ _ _ _ _ hw h1, h.ago _ _ _ h1⟩

theorem wordIn' {stop : UInt8 → Prop} (h : ShorterTable units units') {u} (hw : WordIn stop units s u r) :
    ∃ u', WordIn stop units' s u' r ∧ Le u u' ∧ u'.2.coefficient ≠ -2 ^ 63 := by
  obtain ⟨w, h1, h2, h3⟩ := hw
  obtain ⟨u', h4, h5⟩ := get h h3
  exact ⟨u', ⟨w, h1, h2, h4⟩, h5⟩

theorem le_negated {u u' : TimeUnit} {m m' : Multiplier} (h : Le (u, m) (u', m')) (hm : m'.coefficient ≠ -2 ^ 63) :
    Le (u, negated m) (u', negated m') := by
  obtain ⟨h1, h2⟩ := h
  refine ⟨?_, h2⟩
  simp only [product, negated, if_neg hm, abs_mul, abs_neg] at h1 ⊢
  refine le_trans (mul_le_mul_of_nonneg_left ?_ (abs_nonneg _)) h1
  split
  · next e => rw [e]; decide
  · rw [abs_neg]

theorem ago' {u u' : TimeUnit} {m m' m1 : Multiplier} (h : AgoPart cfg s m m' r) (hl : Le (u, m) (u', m1))
    (hm : m1.coefficient ≠ -2 ^ 63) : ∃ m1', AgoPart (other cfg v) s m1 m1' r ∧ Le (u, m') (u', m1') := by
  cases h with
  | absent a => exact ⟨_, .absent a, hl⟩
  | other a b c d e => exact ⟨_, .other a b c d e, hl⟩
  | ago a b c d => exact ⟨_, .ago a b c d, le_negated hl hm⟩

theorem unitMulti' (hu : ShorterTable units units') {u} (h : UnitMulti cfg units s u r) :
    ∃ u', UnitMulti (other cfg v) units' s u' r ∧ Le u u' := by
  obtain ⟨h1, h2, h3⟩ := h
  obtain ⟨⟨u', m1⟩, h1, hl, hm⟩ := wordIn' hu h1
  obtain ⟨m', h2, hl⟩ := ago' (v := v) h2 hl hm
  exact ⟨(u', m'), ⟨h1, h2, connection h3⟩, hl⟩

theorem multi' (hu : ShorterTable units units') (hk : Option.Rel ShorterTable keywords keywords')
    (hn : Option.Rel ShorterNumbers numerals numerals') {item : Item} (h : MultiText cfg units keywords numerals s item r) :
    ∃ item', MultiText (other cfg v) units' keywords' numerals' s item' r ∧ LeItem item item' := by
  have hw := hu.words
  have hk0 := same_keywords hk
  cases h with
  | numberEnd a => exact ⟨_, .numberEnd (number a), .number⟩
  | numberUnit a b c d =>
    obtain ⟨u', d, l⟩ := unitMulti' (v := v) hu d
    exact ⟨_, .numberUnit (number a) b (hw.empty.trans c) d, .numberUnit l⟩
  | number a b c d e =>
    exact ⟨_, .number (number a) b c (fun g => no_wordIn hw (d (hw.empty.symm.trans g))) (connection e), .number⟩
  | inf a b c d => exact ⟨_, .inf a b c (connection d), .infinity⟩
  | infinity a b c d e f => exact ⟨_, .infinity a b c d e (connection f), .infinity⟩
  | keyword a b c d =>
    subst b
    cases hk with
    | some hk =>
      obtain ⟨u', c, l, -⟩ := wordIn' hk c
      exact ⟨_, .keyword a rfl c (connection d), .word l⟩
  | unit a b c d =>
    obtain ⟨u', d, l⟩ := unitMulti' (v := v) hu d
    exact ⟨_, .unit a (no_keyword hk0 b) c d, .word l⟩
  | @numeral n w _ _ _ _ _ _ a b c d e f g i j k =>
    subst d
    cases hn with
    | some hn =>
      obtain ⟨q', g'⟩ : ∃ q', _ = some q' := by rw [← Option.isSome_iff_exists, hn.1 w, g]; rfl
      obtain ⟨u', k, l⟩ := unitMulti' (v := v) hu k
      exact ⟨_, .numeral a (no_keyword hk0 b) (fun x => no_wordIn hw (c x)) rfl e f g' i j k, .numeral (hn.2 _ _ _ g g') l⟩

theorem unitSingle' (hu : ShorterTable units units') {u} (h : UnitSingle cfg units s u r) :
    ∃ u', UnitSingle (other cfg v) units' s u' r ∧ Le u u' := by
  cases h with
  | whole a b => obtain ⟨u', b, l, -⟩ := get hu b; exact ⟨_, .whole a b, l⟩
  | plain a b c d => obtain ⟨u', d, l, -⟩ := get hu d; exact ⟨_, .plain a b c d, l⟩
  | ago a b c d e f => obtain ⟨⟨u', m'⟩, d, l, hm⟩ := get hu d; exact ⟨_, .ago a b c d e f, le_negated l hm⟩

theorem single' (hu : ShorterTable units units') (hk : Option.Rel ShorterTable keywords keywords')
    (hn : Option.Rel ShorterNumbers numerals numerals') {item : Item} (h : SingleText cfg units keywords numerals s item) :
    ∃ item', SingleText (other cfg v) units' keywords' numerals' s item' ∧ LeItem item item' := by
  have hw := hu.words
  have hk0 := same_keywords hk
  cases h with
  | number a b =>
    cases b with
    | absent => exact ⟨_, .number (number a) .absent, .number⟩
    | present b c d e =>
      obtain ⟨u', e, l⟩ := unitSingle' (v := v) hu e
      exact ⟨_, .number (number a) (.present b c (hw.empty.trans d) e), .numberUnit l⟩
  | infinity a b => exact ⟨_, .infinity a b, .infinity⟩
  | keyword a b c =>
    subst b
    cases hk with
    | some hk =>
      obtain ⟨u', c, l, -⟩ := get hk c
      exact ⟨_, .keyword a rfl c, .word l⟩
  | unit a b c d =>
    obtain ⟨u', d, l⟩ := unitSingle' (v := v) hu d
    exact ⟨_, .unit a (no_whole_keyword hk0 b) c d, .word l⟩
  | @numeral n w _ _ _ _ _ a b c d e f g i j k =>
    subst d
    cases hn with
    | some hn =>
      obtain ⟨q', g'⟩ : ∃ q', _ = some q' := by rw [← Option.isSome_iff_exists, hn.1 w, g]; rfl
      obtain ⟨u', k, l⟩ := unitSingle' (v := v) hu k
      refine ⟨_, .numeral a (no_whole_keyword hk0 b) (fun x => ?_) rfl e f g' i j k, .numeral (hn.2 _ _ _ g g') l⟩
      rintro ⟨u, rest, y⟩
      obtain ⟨u', y⟩ := unitSingle (cfg := other cfg v) (v := cfg.defaultUnit) (words_symm hw) y
      exact c x ⟨u', rest, y⟩

theorem durations' (hu : ShorterTable units units') (hk : Option.Rel ShorterTable keywords keywords')
    (hn : Option.Rel ShorterNumbers numerals numerals') {l : List (Bool × Item)} (h : Durations cfg units keywords numerals s l) :
    ∃ l', Durations (other cfg v) units' keywords' numerals' s l' ∧ List.Forall₂ (fun i i' => LeItem i.2 i'.2) l l' := by
  induction h with
  | last a b =>
    obtain ⟨i, b, l⟩ := multi' (v := v) hu hk hn b
    exact ⟨_, .last (sign a) b, .cons l .nil⟩
  | more a b c _ ih =>
    obtain ⟨i, b, l⟩ := multi' (v := v) hu hk hn b
    obtain ⟨l', d, g⟩ := ih
    exact ⟨_, .more (sign a) b c d, .cons l g⟩

/-! ## Values -/

theorem truncated_mono {x y : ℚ} (hx : 0 ≤ x) (h : x ≤ y) {c c' : ℤ} (hc : |c| ≤ |c'|) : truncatedNanos x c ≤ truncatedNanos y c' := by
  refine (truncatedNanos_mono h c).trans ?_
  unfold truncatedNanos
  apply Int.floor_le_floor
  apply div_le_div_of_nonneg_right _ (by norm_num)
  have := Int.mul_le_mul_of_nonneg_left hc (attos_nonneg (hx.trans h))
  exact_mod_cast this

theorem value_mono {neg neg' : Bool} {W F : Bytes} {e : Int} {m m' : Multiplier} {d d' : Duration} (h : Value neg W F e m d)
    (h' : Value neg' W F e m' d') (hm : Shorter m m') : |nanos d| ≤ |nanos d'| := by
  have hsg : ∀ (n : Bool) (c : ℤ), |literalSign n c| = 1 := by
    intro n c; unfold literalSign; cases n <;> by_cases k : c < 0 <;> simp [k]
  have hl : ∀ k : ℤ, 0 ≤ literalValue W F k := literalValue_nonneg W F
  have hv : literalValue W F (e + m.exponent) ≤ literalValue W F (e + m'.exponent) := by
    unfold literalValue
    refine mul_le_mul_of_nonneg_left (zpow_le_zpow_right₀ (by norm_num) (by have := hm.2; omega)) ?_
    have := hl 0
    unfold literalValue at this
    simpa using this
  have k := truncated_mono (hl _) hv hm.1
  have k0 := truncatedNanos_nonneg (hl (e + m.exponent)) m.coefficient
  rw [h.2.1, h'.2.1, abs_mul, abs_mul, hsg, hsg, one_mul, one_mul]
  have hp : (0 : ℤ) ≤ maxNanos := by decide
  rw [abs_of_nonneg (by omega), abs_of_nonneg (by omega)]
  omega

theorem shorter_mul {a a' b b' : Multiplier} (h : Shorter a a') (h' : Shorter b b') : Shorter (product a b) (product a' b') := by
  refine ⟨?_, ?_⟩
  · simp only [product, abs_mul]
    exact mul_le_mul h.1 h'.1 (abs_nonneg _) (abs_nonneg _)
  · have h1 := h.2
    have h2 := h'.2
    simp only [product]
    omega

theorem product_assoc (a b c : Multiplier) : product (product a b) c = product a (product b c) := by
  simp only [product, mul_assoc, add_assoc]

theorem denotes_mono {neg neg' : Bool} {i i' : Item} {d d' : Duration} (hl : LeItem i i') (hv : Shorter cfg.defaultUnit.multiplier v.multiplier)
    (h : Denotes cfg neg i d) (h' : Denotes (other cfg v) neg' i' d') : |nanos d| ≤ |nanos d'| := by
  cases hl with
  | number =>
    cases h with
    | number h =>
      cases h' with
      | number h' => exact value_mono h h' hv
  | @numberUnit W F e u u' l =>
    obtain ⟨u, m⟩ := u
    obtain ⟨u', m'⟩ := u'
    cases h with
    | numberUnit _ h =>
      cases h' with
      | numberUnit _ h' => exact value_mono h h' l
  | infinity =>
    cases h with
    | infinity _ h =>
      cases h' with
      | infinity _ h' =>
        rw [h, h']
        cases neg <;> cases neg' <;> simp
  | @word u u' l =>
    obtain ⟨u, m⟩ := u
    obtain ⟨u', m'⟩ := u'
    cases h with
    | word _ h =>
      cases h' with
      | word _ h' => exact value_mono h h' l
  | @numeral q q' u u' lq l =>
    obtain ⟨u, m⟩ := u
    obtain ⟨u', m'⟩ := u'
    cases h with
    | numeral _ _ h =>
      cases h' with
      | numeral _ _ h' =>
        refine value_mono h h' ?_
        rw [product_assoc, product_assoc]
        exact shorter_mul lq l

end Fundu.Longer
