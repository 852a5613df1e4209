import Verif.Proofs.Sentences
import Verif.Proofs.SystemdSpans
import Verif.Spec.Documented
/-!
# Texts of the documented format are durations of the grammar
-/
namespace Fundu.Props.Documented
open Fundu Fundu.Spec Fundu.Props

/-! ## Values -/

theorem docNanos_nonneg (W F : Bytes) (e : Int) (len : Nat) : 0 ≤ docNanos W F e len := by
  unfold docNanos
  refine Int.floor_nonneg.2 (mul_nonneg (div_nonneg ?_ (by norm_num)) (Nat.cast_nonneg _))
  exact_mod_cast Int.floor_nonneg.2 (mul_nonneg (literalValue_nonneg W F e) (by norm_num))

theorem truncated_eq (v : ℚ) {p : Multiplier} {len : Nat} (h : Length p len) (h9 : p.exponent ≤ 9) :
    truncatedNanos (v * 10 ^ p.exponent) p.coefficient = ⌊(⌊v * 10 ^ 18⌋ : ℚ) / 10 ^ 18 * len⌋ := by
  obtain ⟨hpos, h2, -, -, h3⟩ := h
  obtain ⟨c, e⟩ := p
  dsimp only at *
  rcases h2 with rfl | rfl
  · rw [zpow_zero, one_mul] at h3
    unfold truncatedNanos attos
    rw [abs_of_pos hpos, ← h3, zpow_zero, mul_one]
    congr 1
    field_simp
  · have hj : 0 ≤ e + 9 := by
      by_contra hlt
      have h1 : (10 : ℚ) ^ e * 10 ^ 9 < 1 := by
        rw [show ((10 : ℚ) ^ 9) = 10 ^ (9 : ℤ) by norm_num, ← zpow_add₀ (by norm_num)]
        exact zpow_lt_one_of_neg₀ (by norm_num) (by omega)
      have h2 : (0 : ℚ) < (10 : ℚ) ^ e * 10 ^ 9 := by
        have : (0 : ℚ) < 10 ^ e := zpow_pos (by norm_num) _
        linarith
      rw [Int.cast_one, mul_one] at h3
      rw [h3] at h1 h2
      have h1' : len < 1 := by exact_mod_cast h1
      have h2' : 0 < len := by exact_mod_cast h2
      omega
    obtain ⟨j, hj⟩ := Int.eq_ofNat_of_zero_le hj
    have he : e = (j : ℤ) - 9 := by omega
    subst he
    have hj18 : j ≤ 18 := by omega
    have hlen : (len : ℚ) = 10 ^ j := by
      rw [← h3, Int.cast_one, mul_one, show ((10 : ℚ) ^ 9) = 10 ^ (9 : ℤ) by norm_num, ← zpow_add₀ (by norm_num),
        show (j : ℤ) - 9 + 9 = (j : ℤ) by ring, zpow_natCast]
    have e1 : (10 : ℚ) ^ 18 = 10 ^ j * 10 ^ (18 - j) := by rw [← pow_add]; congr 1; omega
    rw [C17_exact _ _ (Or.inr (Or.inl rfl))]
    have e2 : (⌊v * 10 ^ 18⌋ : ℚ) / 10 ^ 18 * (len : ℚ) = ((⌊v * 10 ^ 18⌋ : ℤ) : ℚ) / ((10 ^ (18 - j) : ℕ) : ℚ) := by
      push_cast
      rw [hlen]
      generalize (⌊v * 10 ^ 18⌋ : ℚ) = w
      rw [e1]
      field_simp
    have e3 : v * 10 ^ ((j : ℤ) - 9) * ((|1| : ℤ) : ℚ) * 10 ^ 9 = v * 10 ^ 18 / ((10 ^ (18 - j) : ℕ) : ℚ) := by
      push_cast
      rw [abs_one, mul_one, mul_assoc, show ((10 : ℚ) ^ 9) = 10 ^ (9 : ℤ) by norm_num, ← zpow_add₀ (by norm_num),
        show (j : ℤ) - 9 + 9 = (j : ℤ) by ring, zpow_natCast, e1]
      field_simp
    rw [e2, Rat.floor_intCast_div_natCast, e3, Int.floor_div_natCast]

theorem doc_value {p : Multiplier} {len : Nat} (h : Length p len) (h9 : p.exponent ≤ 9) {neg : Bool} {W F : Bytes} {e : Int}
    {d : Duration} (hd : Value neg W F e p d) : nanos d = (if neg then -1 else 1) * min maxNanos (docNanos W F e len) := by
  rw [hd.2.1]
  have hs : literalSign neg p.coefficient = if neg then -1 else 1 := by
    unfold literalSign
    rw [if_neg (show ¬ p.coefficient < 0 by have := h.1; omega), mul_one]
  have hl : literalValue W F (e + p.exponent) = literalValue W F e * 10 ^ p.exponent := by
    unfold literalValue; rw [zpow_add₀ (by norm_num), mul_assoc]
  rw [hs, hl, truncated_eq _ h h9]
  rfl

theorem doc_signed {u : TimeUnit} {m : Multiplier} {len : Nat} (h : Length (product u.multiplier m) len)
    (h9 : (product u.multiplier m).exponent ≤ 9) {neg ago : Bool}
    {W F : Bytes} {e : Int} {d : Duration} (hd : Value neg W F e (product u.multiplier (agoMultiplier ago m)) d) :
    nanos d = (if neg ^^ ago then -1 else 1) * min maxNanos (docNanos W F e len) ∧
      ((neg ^^ ago) = false → d.isNegative = false) := by
  cases ago with
  | false =>
    refine ⟨by rw [doc_value h h9 hd]; simp, ?_⟩
    intro hn
    rw [Bool.xor_false] at hn
    subst hn
    exact length_negative h hd
  | true =>
    replace hd : Value neg W F e (product u.multiplier (negated m)) d := hd
    rw [product_negated _ _ (length_coefficient h)] at hd
    obtain ⟨d0, hd0⟩ := value_exists neg W F e (product u.multiplier m)
    refine ⟨?_, ?_⟩
    · rw [value_negated hd0 hd, doc_value h h9 hd0]
      cases neg <;> simp
    · intro hn
      have : neg = true := by cases neg <;> simp_all
      subst this
      cases hs : d.isNegative with
      | false => rfl
      | true =>
        have := (hd.2.2.1 hs).2.2
        unfold literalSign at this
        have hp := h.1
        simp only [if_true] at this
        rw [if_pos (by show -(product u.multiplier m).coefficient < 0; omega)] at this
        revert this
        decide

/-! ## Texts -/

/-- what is needed of a parser to read the documented format, in addition to `StyleOk` -/
structure DocOk (cfg : Config) (units : TimeUnitsLike) (f : Style) (exponents : Prop) : Prop where
  exponents : exponents → cfg.disableExponent = false
  gaps : cfg.allowTimeUnitDelimiter = true → f.gaps
  points : ∀ w ∈ f.words, w.head? ≠ some 46
  pointUnits : ∀ w : Bytes, w.head? = some 46 → units.get w = none
  lengths : ∀ id len, f.ids id len → ∀ u m, units.get id = some (u, m) → (product u.multiplier m).exponent ≤ 9
  default : cfg.defaultUnit.multiplier.exponent ≤ 9

variable {cfg : Config} {units : TimeUnitsLike} {keywords : Option TimeUnitsLike} {numerals : Option NumbersLike} {f : Style}
  {ex : Prop}

theorem exp_part (hd : DocOk cfg units f ex) {x X : Bytes} {e : Int} (h : DocExp ex x e) (h1 : ¬ StartsWith IsDigit X)
    (h3 : ¬ StartsWith (fun b => b = 101 ∨ b = 69) X) : ExponentPart cfg (x ++ X) e X := by
  cases h with
  | absent => exact .absent h3
  | present k1 k2 k3 k4 k5 k6 k7 k8 =>
    rename_i c sign D neg
    subst k6
    have e : c :: (sign ++ D) ++ X = c :: (sign ++ (D ++ X)) := by simp
    rw [e]
    refine .present k2 (hd.exponents k1) ?_ (split_of k4 h1) k5 ⟨k7, k8⟩
    rcases k3 with ⟨rfl, rfl⟩ | ⟨rfl, rfl⟩ | ⟨rfl, rfl⟩
    · refine .absent ?_
      cases D with
      | nil => exact absurd rfl k5
      | cons b D =>
        show ¬ StartsWith _ (b :: (D ++ X))
        rw [startsWith_cons]
        have := k4 b (by simp)
        rintro (rfl | rfl) <;> revert this <;> decide
    · exact .plus
    · exact .minus

/-- what may follow a number so that it ends there -/
def Ends (X : Bytes) : Prop := ¬ StartsWith IsDigit X ∧ ¬ StartsWith (· = 46) X ∧ ¬ StartsWith (fun b => b = 101 ∨ b = 69) X

theorem ends_cons {b : UInt8} {l : Bytes} (h1 : ¬ IsDigit b) (h2 : b ≠ 46) (h3 : b ≠ 101) (h4 : b ≠ 69) : Ends (b :: l) := by
  refine ⟨?_, ?_, ?_⟩ <;> rw [startsWith_cons]
  · exact h1
  · exact h2
  · rintro (h | h) <;> contradiction

theorem ends_nil : Ends [] := ⟨not_startsWith_nil, not_startsWith_nil, not_startsWith_nil⟩

theorem exp_ends {x X : Bytes} {e : Int} (h : DocExp ex x e) (hX : Ends X) : ¬ StartsWith IsDigit (x ++ X) ∧ ¬ StartsWith (· = 46) (x ++ X) := by
  cases h with
  | absent => exact ⟨hX.1, hX.2.1⟩
  | present k1 k2 =>
    rename_i c _ _ _ _
    rw [List.cons_append]
    refine ⟨?_, ?_⟩ <;> rw [startsWith_cons]
    · rcases k2 with rfl | rfl <;> decide
    · rcases k2 with rfl | rfl <;> decide

theorem number_text (hf : StyleOk cfg units keywords numerals f) (hd : DocOk cfg units f ex) {t W F X : Bytes} {e : Int} (h : DocNumber f ex t W F e) (hX : Ends X) : NumberText cfg (t ++ X) W F e X := by
  obtain ⟨g, x, rfl, h1, h2⟩ := h
  have k := exp_part hd h2 hX.1 hX.2.2
  obtain ⟨k1, k2⟩ := exp_ends h2 hX
  have hp : ∀ {r : Bytes}, ¬ StartsWith IsDigit (46 :: r) := by intro r; rw [startsWith_cons]; decide
  cases h1 with
  | whole a1 a2 =>
    rw [List.append_assoc]
    exact ⟨x ++ X, x ++ X, split_of a1 k1, .absent a2 k2, k⟩
  | point a0 a1 a2 a3 =>
    have e : W ++ 46 :: F ++ x ++ X = W ++ 46 :: (F ++ (x ++ X)) := by simp
    rw [e]
    exact ⟨46 :: (F ++ (x ++ X)), x ++ X, split_of a1 hp, .present (hf.format.fraction a0) (split_of a3 k1) (Or.inl a2), k⟩
  | fraction a0 a1 a2 a3 =>
    have e : W ++ 46 :: F ++ x ++ X = W ++ 46 :: (F ++ (x ++ X)) := by simp
    rw [e]
    exact ⟨46 :: (F ++ (x ++ X)), x ++ X, split_of a1 hp, .present (hf.format.fraction a0) (split_of a2 k1) (Or.inr a3), k⟩

/-- a number starts with a digit or a point -/
theorem number_first {t W F : Bytes} {e : Int} (h : DocNumber f ex t W F e) : ∃ b l, t = b :: l ∧ (IsDigit b ∨ b = 46) := by
  obtain ⟨g, x, rfl, h1, -⟩ := h
  have key : ∀ {W r : Bytes}, AllDigits W → ∃ b l, W ++ 46 :: r = b :: l ∧ (IsDigit b ∨ b = 46) := by
    intro W r h
    cases W with
    | nil => exact ⟨46, r, rfl, Or.inr rfl⟩
    | cons b l => exact ⟨b, l ++ 46 :: r, rfl, Or.inl (h b (by simp))⟩
  cases h1 with
  | whole a1 a2 =>
    cases W with
    | nil => exact absurd rfl a2
    | cons b l => exact ⟨b, l ++ x, rfl, Or.inl (a1 b (by simp))⟩
  | point _ a1 => rw [List.append_assoc]; exact key a1
  | fraction _ a1 => rw [List.append_assoc]; exact key a1

theorem number_start (hf : StyleOk cfg units keywords numerals f) (hd : DocOk cfg units f ex) {t W F r : Bytes} {e : Int}
    (h : DocNumber f ex t W F e) : Start cfg f (t ++ r) := by
  obtain ⟨b, l, rfl, hb⟩ := number_first h
  rw [List.cons_append]
  rcases hb with hb | rfl
  · exact start_next hf (Or.inl hb)
  · refine start_head hf (fun hs => (hf.format.spaces 46 hs).2.1 rfl) (by decide) ?_
    intro w hw hh
    cases w with
    | nil => cases hh
    | cons c w =>
      have e1 : lower c = lower 46 := Option.some.inj hh
      have := lower_nonletter e1 (by unfold IsLetter; decide)
      subst this
      exact hd.points _ hw rfl

theorem number_head {t W F r : Bytes} {e : Int} (h : DocNumber f ex t W F e) : ¬ StartsWith (fun b => b = 43 ∨ b = 45) (t ++ r) := by
  obtain ⟨b, l, rfl, hb⟩ := number_first h
  rw [List.cons_append, startsWith_cons]
  rcases hb with hb | rfl
  · rintro (rfl | rfl) <;> revert hb <;> decide
  · decide

/-- the amounts which are amounts of the phrases, or numbers with a unit -/
theorem amount_cases {t : Bytes} {ago : Bool} {x : Int} (h : DocAmount f ex t ago x) :
    Amount f t ago x ∨ ∃ n W F e gap id len z, DocNumber f ex n W F e ∧ f.Gap gap ∧ (gap = [] ∨ f.gaps) ∧ f.ids id len ∧
      t = n ++ (gap ++ (id ++ z)) ∧ x = docNanos W F e len ∧
      ((ago = false ∧ z = []) ∨ (ago = true ∧ f.ago ∧ ∃ gap' a, z = gap' ++ a ∧ f.Gap gap' ∧ gap' ≠ [] ∧ SameText a (b! "ago"))) := by
  cases h with
  | keyword h => exact Or.inl (.keyword h)
  | number h1 h2 h3 h4 =>
    rename_i n gap id W F e len
    exact Or.inr ⟨n, W, F, e, gap, id, len, [], h1, h2, h3, h4, by simp, rfl, Or.inl ⟨rfl, rfl⟩⟩
  | numberAgo h0 h1 h2 h3 h4 h5 h6 h7 =>
    rename_i n gap id gap' a W F e len
    exact Or.inr ⟨n, W, F, e, gap, id, len, gap' ++ a, h1, h2, h3, h4, rfl, rfl, Or.inr ⟨rfl, h0, gap', a, rfl, h5, h6, h7⟩⟩
  | unit h1 h2 => exact Or.inl (.plain (.unit h1 h2))
  | unitAgo h0 h1 h2 h3 h4 h5 => exact Or.inl (.ago h0 (.unit h1 h2) h3 h4 h5)

theorem doc_start (hf : StyleOk cfg units keywords numerals f) (hd : DocOk cfg units f ex) {t r : Bytes} {ago : Bool} {x : Int}
    (h : DocAmount f ex t ago x) (hr : r = [] ∨ StartsWith (Stop f) r) : Start cfg f (t ++ r) := by
  rcases amount_cases h with h | ⟨n, W, F, e, gap, id, len, z, h1, -, -, -, rfl, -⟩
  · exact amount_start hf h hr
  · rw [List.append_assoc]; exact number_start hf hd h1

theorem doc_head (hf : StyleOk cfg units keywords numerals f) {t r : Bytes} {ago : Bool} {x : Int}
    (h : DocAmount f ex t ago x) : ¬ StartsWith (fun b => b = 43 ∨ b = 45) (t ++ r) := by
  rcases amount_cases h with h | ⟨n, W, F, e, gap, id, len, z, h1, -, -, -, rfl, -⟩
  · exact amount_head hf h
  · rw [List.append_assoc]; exact number_head h1

/-- a number with a unit -/
theorem number_item (hf : StyleOk cfg units keywords numerals f) (hd : DocOk cfg units f ex) {n W F gap id X rest : Bytes} {e : Int}
    {len : Nat} (neg ago : Bool) (h1 : DocNumber f ex n W F e) (h3 : f.Gap gap) (h4 : gap = [] ∨ f.gaps) (h5 : f.ids id len)
    (hX : ∀ u m, units.get id = some (u, m) → UnitMulti cfg units (id ++ X) (u, agoMultiplier ago m) rest) :
    ∃ item, MultiText cfg units keywords numerals (n ++ (gap ++ (id ++ X))) item rest ∧
      ItemIsSigned cfg (neg, item) (neg ^^ ago, docNanos W F e len) := by
  obtain ⟨u, m, k1, k2, k3⟩ := hf.format.ids _ _ h5
  obtain ⟨b, r, e', g1, g2, g3, g4⟩ := gap_id hf.format (x := X) h3 h5
  refine ⟨.number W F e (some (u, agoMultiplier ago m)), .numberUnit (r := gap ++ (id ++ X)) ?_ (after_gap hf.format h3 h4 h5)
    hf.format.nonempty (hX _ _ k1), ?_⟩
  · refine number_text hf hd h1 ?_
    rw [e']
    exact ends_cons (fun h => g1 (Or.inl h)) g2 g3 g4
  · obtain ⟨d, hv⟩ := value_exists neg W F e (product u.multiplier (agoMultiplier ago m))
    obtain ⟨q1, q2⟩ := doc_signed k3 (hd.lengths _ _ h5 _ _ k1) hv
    exact ⟨d, .numberUnit (ago_fits k3 k2 ago) hv, q1, docNanos_nonneg .., q2⟩

theorem doc_item (hf : StyleOk cfg units keywords numerals f) (hd : DocOk cfg units f ex) {t x rest : Bytes} {ago : Bool} {y : Int}
    (neg : Bool) (ht : DocAmount f ex t ago y) (h : Follow cfg f x rest) :
    ∃ item, MultiText cfg units keywords numerals (t ++ x) item rest ∧ ItemIsSigned cfg (neg, item) (neg ^^ ago, y) := by
  rcases amount_cases ht with ht | ⟨n, W, F, e, gap, id, len, z, h1, h2, h3, h4, rfl, rfl, h5⟩
  · exact amount_item hf neg ht h
  · rcases h5 with ⟨rfl, rfl⟩ | ⟨rfl, ha, gap', a, rfl, k1, k2, k3⟩
    · have e : n ++ (gap ++ (id ++ [])) ++ x = n ++ (gap ++ (id ++ x)) := by simp
      rw [e]
      exact number_item hf hd neg false h1 h2 h3 h4 fun u m hu => id_unit hf h4 h hu
    · have e : n ++ (gap ++ (id ++ (gap' ++ a))) ++ x = n ++ (gap ++ (id ++ (gap' ++ (a ++ x)))) := by simp
      rw [e]
      exact number_item hf hd neg true h1 h2 h3 h4 fun u m hu => id_unit_ago hf ha h4 k1 k2 k3 h hu

/-- the value of a number without a unit -/
theorem plain_signed (hf : StyleOk cfg units keywords numerals f) (hd : DocOk cfg units f ex) (W F : Bytes) (e : Int) (neg : Bool) :
    ItemIsSigned cfg (neg, .number W F e none) (neg, docNanos W F e f.defaultLength) := by
  obtain ⟨d, hv⟩ := value_exists neg W F e cfg.defaultUnit.multiplier
  refine ⟨d, .number hv, doc_value hf.default hd.default hv, docNanos_nonneg .., ?_⟩
  intro hn
  replace hn : neg = false := hn
  subst hn
  exact length_negative hf.default hv

theorem durations_start (hf : StyleOk cfg units keywords numerals f) (hd : DocOk cfg units f ex) {s : Bytes} {l : List (Bool × Int)}
    (h : DocDurations f ex s l) : Start cfg f s := by
  have nil : ∀ {t : Bytes}, Start cfg f (t ++ []) → Start cfg f t := by intro t h; rwa [List.append_nil] at h
  cases h with
  | last h =>
    cases h with
    | amount h1 h2 => exact sign_start hf h1 (nil (doc_start hf hd h2 (Or.inl rfl)))
    | number h1 h2 => exact sign_start hf h1 (nil (number_start hf hd h2))
    | infinity h1 h2 => exact sign_start hf h1 (nil (infinity_start hf h2.1 h2.2 (Or.inl rfl)))
  | more h1 h2 h3 => exact sign_start hf h1 (doc_start hf hd h2 (Or.inr (joint_stop h3)))
  | moreNumber h1 h2 => exact sign_start hf h1 (number_start hf hd h2)
  | moreInfinity h1 h2 _ h5 => exact sign_start hf h1 (infinity_start hf h2.1 h2.2 (Or.inr (joint_stop h5)))

/-- bytes at which a unit cannot start -/
theorem no_unit (hf : StyleOk cfg units keywords numerals f) {r : Bytes} (h : StartsWith (Stop f) r) :
    ¬ ∃ u t, WordIn (UnitEnd cfg) units r u t := by
  obtain ⟨b, l, rfl, hb⟩ := h
  rintro ⟨u, r, w, hw1, hw2, -⟩
  cases w with
  | nil => exact hw2 rfl
  | cons c w =>
    have hc := hw1.2.1 c (by simp)
    have e := hw1.1
    rw [List.cons_append] at e
    injection e with e
    subst e
    exact hc ((stop_unitEnd hf).1 hb)

/-- a number without a unit and what follows it -/
theorem plain_item (hf : StyleOk cfg units keywords numerals f) (hd : DocOk cfg units f ex) {t W F joint rest : Bytes} {e : Int}
    (h : DocNumber f ex t W F e) (hj : Joint f rest joint) (hn : joint ≠ [] ∨ ¬ StartsWith IsDigit rest)
    (hg : f.gaps → f.Gap joint ∧ StartsWith (fun b => NextDuration b ∨ b = 46) rest) (hs : Start cfg f rest) :
    MultiText cfg units keywords numerals (t ++ (joint ++ rest)) (.number W F e none) rest := by
  have hstop : StartsWith (Stop f) (joint ++ rest) := joint_stop hj
  have hends : Ends (joint ++ rest) := by
    obtain ⟨b, l, e', hb⟩ := hstop
    rw [e']
    have hnd : ¬ IsDigit b := by
      intro hdig
      rcases hb with hb | hb
      · exact (hf.format.spaces b hb).1 (Or.inl hdig)
      · cases joint with
        | nil => exact hn.elim (fun h => h rfl) fun h' => h' ⟨b, l, e', hdig⟩
        | cons c joint =>
          obtain ⟨b', l', e2, hb'⟩ := joint_space hj (by simp)
          rw [e'] at e2
          cases e2
          exact (hf.format.spaces b hb').1 (Or.inl hdig)
    rcases hb with hb | hb | rfl | rfl
    · obtain ⟨-, k2, k3, k4⟩ := hf.format.spaces b hb
      exact ends_cons hnd k2 k3 k4
    · exact absurd hb hnd
    · exact ends_cons hnd (by decide) (by decide) (by decide)
    · exact ends_cons hnd (by decide) (by decide) (by decide)
  have hN : NumberText cfg (t ++ (joint ++ rest)) W F e (joint ++ rest) := number_text hf hd h hends
  by_cases ha : cfg.allowTimeUnitDelimiter = true
  · obtain ⟨k1, k2⟩ := hg (hd.gaps ha)
    refine .number (r' := rest) hN ?_ hs.ne (fun _ => ?_) (.absent (start_outer hf hs.space))
    · unfold AfterDelims
      rw [if_pos ha]
      exact ⟨joint, split_of (fun b hb => (hf.format.inner b).1 (k1 b hb)) (start_inner hf hs.space)⟩
    · obtain ⟨b, l, rfl, hb | rfl⟩ := k2
      · exact no_unit hf ⟨b, l, rfl, Or.inr hb⟩
      · rintro ⟨u, r, w, hw1, hw2, hw3⟩
        cases w with
        | nil => exact hw2 rfl
        | cons c w =>
          have e := hw1.1
          rw [List.cons_append] at e
          injection e with e
          subst e
          rw [hd.pointUnits _ rfl] at hw3
          cases hw3
  · refine .number (r' := joint ++ rest) hN ?_ ?_ (fun _ => no_unit hf hstop) (follow_connection hf (.joint hj hs))
    · unfold AfterDelims
      rw [if_neg ha]
    · obtain ⟨b, l, e', -⟩ := hstop
      rw [e']; simp

/-- documented texts are durations of the grammar with these amounts -/
theorem doc_durations (hf : StyleOk cfg units keywords numerals f) (hd : DocOk cfg units f ex) {s : Bytes} {l : List (Bool × Int)}
    (h : DocDurations f ex s l) :
    ∃ items, Durations cfg units keywords numerals s items ∧ List.Forall₂ (ItemIsSigned cfg) items l := by
  induction h with
  | last h =>
    cases h with
    | amount h1 h2 =>
      rename_i neg _ _
      obtain ⟨item, g1, g2⟩ := doc_item hf hd neg h2 .done
      have hs := phrase_sign hf h1 (doc_start (r := []) hf hd h2 (Or.inl rfl)) (doc_head hf h2)
      rw [List.append_nil] at g1 hs
      exact ⟨[(neg, item)], .last hs g1, .cons g2 .nil⟩
    | number h1 h2 =>
      rename_i neg _
      have hs := phrase_sign hf h1 (number_start (r := []) hf hd h2) (number_head h2)
      have hN := number_text hf hd h2 ends_nil
      rw [List.append_nil] at hs hN
      exact ⟨[(neg, _)], .last hs (.numberEnd hN), .cons (plain_signed hf hd ..) .nil⟩
    | infinity h1 h2 =>
      rename_i neg
      obtain ⟨item, g1, g2⟩ := infinity_item (X := []) hf neg h2.1 h2.2 (Or.inl rfl) .done
      have hs := phrase_sign hf h1 (infinity_start (r := []) hf h2.1 h2.2 (Or.inl rfl)) (infinity_head h2.2)
      rw [List.append_nil] at g1 hs
      exact ⟨[(neg, item)], .last hs g1, .cons g2 .nil⟩
  | more h1 h2 h3 h4 ih =>
    rename_i neg _ _ _
    obtain ⟨items, k1, k2⟩ := ih
    have hst := durations_start hf hd h4
    obtain ⟨item, g1, g2⟩ := doc_item hf hd neg h2 (.joint h3 hst)
    exact ⟨(neg, item) :: items, .more (phrase_sign hf h1 (doc_start hf hd h2 (Or.inr (joint_stop h3))) (doc_head hf h2)) g1 hst.ne k1, .cons g2 k2⟩
  | moreNumber h1 h2 h3 h4 h5 h6 ih =>
    rename_i W F neg _ _
    obtain ⟨items, k1, k2⟩ := ih
    have hst := durations_start hf hd h6
    exact ⟨(neg, _) :: items, .more (phrase_sign hf h1 (number_start hf hd h2) (number_head h2)) (plain_item hf hd h2 h3 h4 h5 hst) hst.ne k1,
      .cons (plain_signed hf hd ..) k2⟩
  | moreInfinity h1 h2 h4 h5 h6 ih =>
    rename_i neg _
    obtain ⟨items, k1, k2⟩ := ih
    have hst := durations_start hf hd h6
    have hX : StartsWith f.space (_ ++ _) := joint_space h5 h4
    obtain ⟨item, g1, g2⟩ := infinity_item hf neg h2.1 h2.2 (Or.inr hX) (.joint h5 hst)
    exact ⟨(neg, item) :: items, .more (phrase_sign hf h1 (infinity_start hf h2.1 h2.2 (Or.inr (joint_stop h5))) (infinity_head h2.2)) g1
      hst.ne k1, .cons g2 k2⟩

/-! ## One duration -/

theorem unit_single (hf : StyleOk cfg units keywords numerals f) {id z : Bytes} {len : Nat} {ago : Bool} {u : TimeUnit} {m : Multiplier}
    (h4 : f.ids id len) (hu : units.get id = some (u, m))
    (h5 : (ago = false ∧ z = []) ∨ (ago = true ∧ f.ago ∧ ∃ gap' a, z = gap' ++ a ∧ f.Gap gap' ∧ gap' ≠ [] ∧ SameText a (b! "ago"))) :
    UnitSingle cfg units (id ++ z) (u, agoMultiplier ago m) [] := by
  obtain ⟨g1, g2, -⟩ := hf.format.idText _ _ h4
  have hid : ∀ b ∈ id, ¬ cfg.innerDelimiter b = true := fun b hb hs => (g2 b hb).1 ((hf.format.inner b).2 hs)
  rcases h5 with ⟨rfl, rfl⟩ | ⟨rfl, ha, gap', a, rfl, k1, k2, k3⟩
  · rw [List.append_nil]
    by_cases ha : cfg.allowAgo = true
    · refine .plain ha ?_ g1 hu
      have := split_of (p := (¬ cfg.innerDelimiter · = true)) (r := []) hid not_startsWith_nil
      rwa [List.append_nil] at this
    · exact .whole (by simpa using ha) hu
  · have hag : a ≠ [] ∧ ∀ b, a.head? = some b → ¬ f.space b := by
      cases a with
      | nil => cases k3
      | cons c a =>
        refine ⟨by simp, ?_⟩
        rintro b hb
        cases hb
        intro hs
        have hl := hf.letters _ hs
        exact hl (by
          by_contra hnl
          have := lower_nonletter (sameText_cons.1 k3).1.symm hnl
          exact hnl (this ▸ (by unfold IsLetter; decide)))
    refine .ago (w := id) (r := gap' ++ a) (ds := gap') (r' := a) (rest := []) (hf.ago.1 ha) (split_of hid ?_) g1 hu (split_of (fun b hb => (hf.format.inner b).1 (k1 b hb)) ?_)
      ⟨a, by simp, k3⟩
    · cases gap' with
      | nil => exact absurd rfl k2
      | cons b gap' =>
        rw [List.cons_append, startsWith_cons]
        exact fun h => h ((hf.format.inner b).1 (k1 b (by simp)))
    · refine start_inner hf ?_
      cases a with
      | nil => exact absurd rfl hag.1
      | cons b a => rw [startsWith_cons]; exact hag.2 b rfl

/-- the value of a keyword -/
theorem keyword_signed (hf : StyleOk cfg units keywords numerals f) {w : Bytes} {x : Int} (neg : Bool) (hw : f.keywords w x) :
    ∃ k u m, keywords = some k ∧ k.get w = some (u, m) ∧ ItemIsSigned cfg (neg, .word (u, m)) (neg ^^ decide (x < 0), |x|) := by
  obtain ⟨k, K, u, m, e, hk, hfit, hlen⟩ := hf.keyword w x hw
  obtain ⟨d, hd⟩ := value_exists neg (b! "1") [] 0 (product u.multiplier m)
  obtain ⟨q1, q2⟩ := word_value (b := decide (x < 0)) hlen (by simp; omega) (by simp) hd
  refine ⟨K, u, m, e, hk, d, .word hfit ?_, q1, abs_nonneg _, q2⟩
  rw [decide_eq_true hlen.2.1, Bool.and_true]
  exact hd

/-- the value of a unit alone -/
theorem word_signed {u : TimeUnit} {m : Multiplier} {len : Nat} (neg ago : Bool) (k2 : Fits u.multiplier m)
    (k3 : Length (product u.multiplier m) len) : ItemIsSigned cfg (neg, .word (u, agoMultiplier ago m)) (neg ^^ ago, len) := by
  obtain ⟨d, hd⟩ := value_exists neg (b! "1") [] 0 (product u.multiplier (agoMultiplier ago m))
  obtain ⟨q1, q2⟩ := signed_value k3 (by simp) hd
  refine ⟨d, .word (ago_fits k3 k2 ago) ?_, ?_, by positivity, q2⟩
  · have : decide ((product u.multiplier (agoMultiplier ago m)).exponent ≤ 19) = true := by
      rw [ago_exponent]; exact decide_eq_true k3.2.2.2.1
    rw [this, Bool.and_true]
    exact hd
  · rw [q1]
    have e : literalValue (b! "1") [] 0 * (len : ℚ) = ((len : ℤ) : ℚ) := by
      unfold literalValue; simp [decimal]
    rw [e, Int.floor_intCast]

/-- a unit can stand at the start of a duration -/
theorem id_wordStart (hf : StyleOk cfg units keywords numerals f) {id z : Bytes} {len : Nat} (h : f.ids id len) :
    WordStart cfg (id ++ z) := by
  obtain ⟨g1, g2, g3⟩ := hf.format.idText _ _ h
  cases id with
  | nil => exact absurd rfl g1
  | cons b l =>
    obtain ⟨q1, -, -, q4, -⟩ := g3 b rfl
    refine ⟨by simp, ?_, ?_, ?_⟩
    · rw [List.cons_append, startsWith_cons]
      exact fun h => (g2 b (by simp)).2 (Or.inl h)
    · rw [List.cons_append, startsWith_cons]
      exact q1
    · rintro - ⟨r, y, hy, hy2⟩
      cases y with
      | nil => cases hy2
      | cons c y =>
        rw [List.cons_append, List.cons_append] at hy
        injection hy with hcb
        subst hcb
        exact q4 ((sameText_cons.1 hy2).1.trans (by decide))

/-- what follows the number in a single duration -/
abbrev AgoEnd (f : Style) (ago : Bool) (z : Bytes) : Prop :=
  (ago = false ∧ z = []) ∨ (ago = true ∧ f.ago ∧ ∃ gap' a, z = gap' ++ a ∧ f.Gap gap' ∧ gap' ≠ [] ∧ SameText a (b! "ago"))

theorem unit_alone (hf : StyleOk cfg units keywords numerals f)
    (hk : ∀ k, keywords = some k → ∀ w : Bytes, (∃ b ∈ w, f.space b) → k.get w = none) {id z : Bytes} {len : Nat} {ago : Bool} (neg : Bool)
    (hb : f.bare) (h4 : f.ids id len) (h5 : AgoEnd f ago z) :
    ∃ item, SingleText cfg units keywords numerals (id ++ z) item ∧ ItemIsSigned cfg (neg, item) (neg ^^ ago, (len : Int)) := by
  obtain ⟨u, m, k1, k2, k3⟩ := hf.format.ids _ _ h4
  refine ⟨.word (u, agoMultiplier ago m), .unit (id_wordStart hf h4) ?_ (hf.format.bare hb) (unit_single hf h4 k1 h5), word_signed neg ago k2 k3⟩
  intro k e
  rcases h5 with ⟨rfl, rfl⟩ | ⟨rfl, ha, gap', a, rfl, g1, g2, g3⟩
  · rw [List.append_nil]
    exact hf.format.keywords hb k e _ _ h4
  · refine hk k e _ ?_
    cases gap' with
    | nil => exact absurd rfl g2
    | cons b gap' => exact ⟨b, by simp, g1 b (by simp)⟩

theorem number_alone (hf : StyleOk cfg units keywords numerals f) (hd : DocOk cfg units f ex) {n W F gap id z : Bytes} {e : Int}
    {len : Nat} {ago : Bool} (neg : Bool) (h1 : DocNumber f ex n W F e) (h3 : f.Gap gap) (h4 : gap = [] ∨ f.gaps) (h5 : f.ids id len)
    (h6 : AgoEnd f ago z) :
    ∃ item, SingleText cfg units keywords numerals (n ++ (gap ++ (id ++ z))) item ∧
      ItemIsSigned cfg (neg, item) (neg ^^ ago, docNanos W F e len) := by
  obtain ⟨u, m, k1, k2, k3⟩ := hf.format.ids _ _ h5
  obtain ⟨b, r, e', g1, g2, g3, g4⟩ := gap_id hf.format (x := z) h3 h5
  refine ⟨.number W F e (some (u, agoMultiplier ago m)), .number (r := gap ++ (id ++ z)) ?_ (.present (after_gap hf.format h3 h4 h5) ?_
    hf.format.nonempty (unit_single hf h5 k1 h6)), ?_⟩
  · refine number_text hf hd h1 ?_
    rw [e']
    exact ends_cons (fun h => g1 (Or.inl h)) g2 g3 g4
  · simp [(hf.format.idText _ _ h5).1]
  · obtain ⟨d, hv⟩ := value_exists neg W F e (product u.multiplier (agoMultiplier ago m))
    obtain ⟨q1, q2⟩ := doc_signed k3 (hd.lengths _ _ h5 _ _ k1) hv
    exact ⟨d, .numberUnit (ago_fits k3 k2 ago) hv, q1, docNanos_nonneg .., q2⟩

theorem amount_alone (hf : StyleOk cfg units keywords numerals f) (hd : DocOk cfg units f ex)
    (hk : ∀ k, keywords = some k → ∀ w : Bytes, (∃ b ∈ w, f.space b) → k.get w = none) {t : Bytes} {ago : Bool} {y : Int}
    (neg : Bool) (ht : DocAmount f ex t ago y) :
    ∃ item, SingleText cfg units keywords numerals t item ∧ ItemIsSigned cfg (neg, item) (neg ^^ ago, y) := by
  cases ht with
  | keyword h =>
    obtain ⟨k, u, m, e, g1, g2⟩ := keyword_signed hf neg h
    have := phrase_wordStart (X := []) hf (hf.keyword _ _ h).1 (Or.inl rfl)
    rw [List.append_nil] at this
    exact ⟨_, .keyword this e g1, g2⟩
  | number h1 h2 h3 h4 =>
    rename_i n gap id W F e len
    have := number_alone hf hd (z := []) neg h1 h2 h3 h4 (Or.inl ⟨rfl, rfl⟩)
    rwa [List.append_nil] at this
  | numberAgo h0 h1 h2 h3 h4 h5 h6 h7 =>
    rename_i n gap id gap' a W F e len
    exact number_alone hf hd neg h1 h2 h3 h4 (Or.inr ⟨rfl, h0, gap', a, rfl, h5, h6, h7⟩)
  | unit h1 h2 =>
    have := unit_alone hf hk (z := []) neg h1 h2 (Or.inl ⟨rfl, rfl⟩)
    rwa [List.append_nil] at this
  | unitAgo h0 h1 h2 h3 h4 h5 =>
    rename_i id gap' a len
    exact unit_alone hf hk neg h1 h2 (Or.inr ⟨rfl, h0, gap', a, rfl, h3, h4, h5⟩)

/-- a documented duration is a single duration of the grammar -/
theorem doc_single (hf : StyleOk cfg units keywords numerals f) (hd : DocOk cfg units f ex)
    (hk : ∀ k, keywords = some k → ∀ w : Bytes, (∃ b ∈ w, f.space b) → k.get w = none) {s : Bytes} {p : Bool × Int}
    (h : DocDuration f ex s p) :
    ∃ neg r item, SignPart cfg s neg r ∧ SingleText cfg units keywords numerals r item ∧ ItemIsSigned cfg (neg, item) p := by
  cases h with
  | amount h1 h2 =>
    rename_i neg _ _
    obtain ⟨item, g1, g2⟩ := amount_alone hf hd hk neg h2
    have hs := phrase_sign hf h1 (doc_start (r := []) hf hd h2 (Or.inl rfl)) (doc_head hf h2)
    rw [List.append_nil] at hs
    exact ⟨neg, _, item, hs, g1, g2⟩
  | number h1 h2 =>
    rename_i neg _
    have hs := phrase_sign hf h1 (number_start (r := []) hf hd h2) (number_head h2)
    have hN := number_text hf hd h2 ends_nil
    rw [List.append_nil] at hs hN
    exact ⟨neg, _, _, hs, .number hN .absent, plain_signed hf hd ..⟩
  | infinity h1 h2 =>
    rename_i neg
    obtain ⟨item, -, -⟩ := infinity_item (X := []) hf neg h2.1 h2.2 (Or.inl rfl) .done
    have hs := phrase_sign hf h1 (infinity_start (r := []) hf h2.1 h2.2 (Or.inl rfl)) (infinity_head h2.2)
    rw [List.append_nil] at hs
    refine ⟨neg, _, .infinity, hs, .infinity (hf.infinite.1 h2.1) h2.2, if neg then Duration.MIN else Duration.MAX, .infinity ?_ ?_, ?_,
      (by show (0:Int) ≤ maxNanos; decide), ?_⟩
    · cases neg <;> decide
    · cases neg <;> decide
    · cases neg <;> decide
    · intro hn
      cases neg
      · rfl
      · cases hn

end Fundu.Props.Documented
