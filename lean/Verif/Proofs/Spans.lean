import Verif.Props.Standard
/-!
# Sequences of amounts of time are parsed to their sum
-/
namespace Fundu.Props
open Fundu Fundu.Spec

/-- the multiplier stands for `len` nanoseconds -/
def Length (p : Multiplier) (len : Nat) : Prop :=
  0 < p.coefficient ∧ (p.exponent = 0 ∨ p.coefficient = 1) ∧ -18 ≤ p.exponent ∧ p.exponent ≤ 19 ∧
  (10 : ℚ) ^ p.exponent * (p.coefficient : ℚ) * 10 ^ 9 = len

theorem length_value {p : Multiplier} {len : Nat} (h : Length p len) {neg : Bool} {W F : Bytes} (hF : F.length ≤ 18)
    {d : Duration} (hd : Value neg W F 0 p d) :
    nanos d = (if neg then -1 else 1) * min maxNanos ⌊literalValue W F 0 * len⌋ := by
  obtain ⟨h1, h2, -, -, h3⟩ := h
  rw [hd.2.1]
  have hs : literalSign neg p.coefficient = if neg then -1 else 1 := by
    unfold literalSign
    rw [if_neg (show ¬ p.coefficient < 0 by omega), mul_one]
  have hx : (∃ z : ℤ, literalValue W F (0 + p.exponent) * 10 ^ 18 = z) ∨
      p.coefficient = 1 ∨ p.coefficient = -1 := by
    rcases h2 with h2 | h2
    · left
      obtain ⟨n, hn⟩ := Int.eq_ofNat_of_zero_le (show 0 ≤ (18 : ℤ) - F.length by omega)
      refine ⟨decimal (W ++ F) * 10 ^ n, ?_⟩
      rw [literalValue_eq, mul_assoc, show ((10 : ℚ) ^ 18) = 10 ^ (18 : ℤ) by norm_num,
        ← zpow_add₀ (by norm_num), h2, show 0 + 0 - (F.length : ℤ) + 18 = (n : ℤ) by omega]
      push_cast
      rw [zpow_natCast]
    · exact Or.inr (Or.inl h2)
  rw [hs, C17_exact _ _ hx, abs_of_pos h1]
  congr 3
  rw [literalValue_eq, literalValue_eq, mul_assoc, mul_assoc, ← h3,
    show (0 : ℤ) + p.exponent - F.length = p.exponent + (0 - F.length) by ring,
    zpow_add₀ (by norm_num)]
  ring

theorem length_negative {p : Multiplier} {len : Nat} (h : Length p len) {W F : Bytes} {e : Int}
    {d : Duration} (hd : Value false W F e p d) : d.isNegative = false := by
  cases hn : d.isNegative with
  | false => rfl
  | true =>
    have := (hd.2.2.1 hn).2.2
    unfold literalSign at this
    rw [if_neg (show ¬ p.coefficient < 0 by have := h.1; omega)] at this
    simp at this

/-- what is needed of a parser to read the format -/
structure FormatOk (cfg : Config) (units : TimeUnitsLike) (keywords : Option TimeUnitsLike) (f : SpanFormat) : Prop where
  inner : ∀ b, f.space b ↔ cfg.innerDelimiter b = true
  outer : ∀ b, f.space b ↔ cfg.outerDelimiter b = true
  spaces : ∀ b, f.space b → ¬ NextDuration b ∧ b ≠ 46 ∧ b ≠ 101 ∧ b ≠ 69
  gaps : f.gaps → cfg.allowTimeUnitDelimiter = true
  bare : f.bare → cfg.numberIsOptional = true
  fraction : f.fractions → cfg.disableFraction = false
  nonempty : units.isEmpty = false
  ids : ∀ id len, f.ids id len → ∃ u m, units.get id = some (u, m) ∧ Fits u.multiplier m ∧
    Length (product u.multiplier m) len
  idText : ∀ id len, f.ids id len → id ≠ [] ∧ (∀ b ∈ id, ¬ f.space b ∧ ¬ NextDuration b) ∧
    ∀ b, id.head? = some b → b ≠ 46 ∧ b ≠ 101 ∧ b ≠ 69 ∧ lower b ≠ 105 ∧ lower b ≠ 97
  keywords : f.bare → ∀ k, keywords = some k → ∀ id len, f.ids id len → k.get id = none

variable {cfg : Config} {units : TimeUnitsLike} {keywords : Option TimeUnitsLike} {numerals : Option NumbersLike}
  {f : SpanFormat}

theorem startsWith_cons {p : UInt8 → Prop} {b : UInt8} {l : Bytes} : StartsWith p (b :: l) ↔ p b := by
  constructor
  · rintro ⟨_, _, h, h'⟩; cases h; exact h'
  · intro h; exact ⟨b, l, rfl, h⟩

theorem not_startsWith_nil {p : UInt8 → Prop} : ¬ StartsWith p [] := by rintro ⟨_, _, h, _⟩; cases h

/-- how an amount of time with its sign can start -/
theorem span_head (hf : FormatOk cfg units keywords f) {sign t : Bytes} {neg : Bool} {x : Int} (hs : SignText sign neg)
    (ht : SpanText f t x) : ∃ b l, sign ++ t = b :: l ∧ ¬ f.space b ∧ lower b ≠ 97 := by
  have key : ∀ b, NextDuration b → ¬ f.space b ∧ lower b ≠ 97 := by
    intro b hb
    refine ⟨fun h => (hf.spaces b h).1 hb, ?_⟩
    have h1 : b.toNat ≤ 57 := by
      rcases hb with hb | rfl | rfl
      · exact hb.2
      · decide
      · decide
    unfold lower
    rw [if_neg (by omega)]
    rintro rfl
    exact absurd h1 (by decide)
  have hd : ∀ {W r : Bytes}, AllDigits W → W ≠ [] → ∃ b l, W ++ r = b :: l ∧ ¬ f.space b ∧ lower b ≠ 97 := by
    intro W r hW hne
    cases W with
    | nil => exact absurd rfl hne
    | cons b l => exact ⟨b, l ++ r, rfl, key b (Or.inl (hW b (by simp)))⟩
  rcases hs with ⟨rfl, rfl⟩ | ⟨rfl, rfl⟩ | ⟨rfl, rfl⟩
  · rw [List.nil_append]
    cases ht with
    | number h1 h2 => exact hd h1 h2
    | fraction h1 h2 => exact hd h1 h2
    | unit _ h =>
      obtain ⟨g1, g2, g3⟩ := hf.idText _ _ h
      cases t with
      | nil => exact absurd rfl g1
      | cons b l => exact ⟨b, l, rfl, (g2 b (by simp)).1, (g3 b rfl).2.2.2.2⟩
  · exact ⟨43, t, rfl, key 43 (Or.inr (Or.inl rfl))⟩
  · exact ⟨45, t, rfl, key 45 (Or.inr (Or.inr rfl))⟩

theorem spans_head (hf : FormatOk cfg units keywords f) {s : Bytes} {l : List (Bool × Int)} (h : Spans f s l) :
    ∃ b r, s = b :: r ∧ ¬ f.space b ∧ lower b ≠ 97 := by
  cases h with
  | last h1 h2 => exact span_head hf h1 h2
  | more h1 h2 _ _ _ =>
    rename_i gap rest _ _ _ _ _ _
    obtain ⟨b, r, e, h⟩ := span_head hf h1 h2
    refine ⟨b, r ++ (gap ++ rest), ?_, h⟩
    rw [← List.append_assoc, e]
    rfl

theorem split_unique {p : UInt8 → Prop} {s a r a' r' : Bytes} (h : Split p s a r) (h' : Split p s a' r') :
    a = a' ∧ r = r' := by
  induction a generalizing s a' with
  | nil =>
    cases a' with
    | nil => exact ⟨rfl, h.1.symm.trans h'.1⟩
    | cons b l =>
      refine absurd ⟨b, l ++ r', ?_, h'.2.1 b (by simp)⟩ h.2.2
      exact h.1.symm.trans h'.1
  | cons b l ih =>
    cases a' with
    | nil =>
      refine absurd ⟨b, l ++ r, ?_, h.2.1 b (by simp)⟩ h'.2.2
      exact h'.1.symm.trans h.1
    | cons b' l' =>
      have e := h.1.symm.trans h'.1
      rw [List.cons_append, List.cons_append] at e
      injection e with e1 e2
      obtain ⟨k1, k2⟩ := ih (s := l ++ r) ⟨rfl, fun c hc => h.2.1 c (by simp [hc]), h.2.2⟩
        (a' := l') ⟨e2, fun c hc => h'.2.1 c (by simp [hc]), h'.2.2⟩
      exact ⟨by rw [e1, k1], k2⟩

/-- what follows a unit -/
inductive Tail (f : SpanFormat) : Bytes → Bytes → Prop
  | nil : Tail f [] []
  | more {gap rest : Bytes} : (∀ b ∈ gap, f.space b) → gap ≠ [] ∨ StartsNumber rest →
      (∃ b r, rest = b :: r ∧ ¬ f.space b ∧ lower b ≠ 97) → Tail f (gap ++ rest) rest

theorem tail_end (hf : FormatOk cfg units keywords f) {x rest : Bytes} (h : Tail f x rest) :
    ¬ StartsWith (¬ UnitEnd cfg ·) x ∧ ¬ StartsWith (¬ KeywordEnd cfg ·) x := by
  cases h with
  | nil => exact ⟨not_startsWith_nil, not_startsWith_nil⟩
  | more h1 h2 h3 =>
    rename_i gap
    cases gap with
    | nil =>
      obtain ⟨b, l, rfl, hb⟩ := h2.resolve_left (by simp)
      rw [List.nil_append, startsWith_cons, startsWith_cons]
      exact ⟨fun h => h (Or.inr (Or.inr hb)), fun h => h (Or.inr hb)⟩
    | cons b l =>
      have := (hf.outer b).1 (h1 b (by simp))
      rw [List.cons_append, startsWith_cons, startsWith_cons]
      exact ⟨fun h => h (Or.inr (Or.inl this)), fun h => h (Or.inl this)⟩

theorem tail_ago (hf : FormatOk cfg units keywords f) {x rest : Bytes} (h : Tail f x rest) (m : Multiplier) :
    AgoPart cfg x m m x := by
  cases h with
  | nil => exact .absent fun _ => not_startsWith_nil
  | more h1 h2 h3 =>
    rename_i gap
    obtain ⟨b, r, rfl, h4, h5⟩ := h3
    have hns : ¬ StartsWith (cfg.innerDelimiter · = true) (b :: r) := by
      rw [startsWith_cons]; exact fun h => h4 ((hf.inner b).2 h)
    by_cases ha : cfg.allowAgo = true
    · by_cases hg : gap = []
      · subst hg
        exact .absent fun _ => hns
      · refine .other ha (split_of (fun c hc => (hf.inner c).1 (h1 c hc)) hns) hg (by simp) ?_
        rintro ⟨rest, ⟨y, hy, hy2⟩, -⟩
        cases y with
        | nil => cases hy2
        | cons c y =>
          cases hy
          unfold SameText at hy2
          simp only [List.map_cons] at hy2
          injection hy2 with hy2
          exact h5 (hy2.trans (by decide))
    · exact .absent fun h => absurd h ha

theorem tail_connection (hf : FormatOk cfg units keywords f) (hc : cfg.conjunctions = none) {x rest : Bytes} (h : Tail f x rest) :
    Connection cfg x rest := by
  cases h with
  | nil => exact .absent not_startsWith_nil
  | more h1 h2 h3 =>
    rename_i gap
    obtain ⟨b, r, rfl, h4, h5⟩ := h3
    have hns : ¬ StartsWith (cfg.outerDelimiter · = true) (b :: r) := by
      rw [startsWith_cons]; exact fun h => h4 ((hf.outer b).2 h)
    by_cases hg : gap = []
    · subst hg
      exact .absent hns
    · refine .delims (split_of (fun c hc => (hf.outer c).1 (h1 c hc)) hns) hg (by simp) ?_
      rw [hc]
      intro w hw
      cases hw

theorem unit_word (hf : FormatOk cfg units keywords f) (hc : cfg.conjunctions = none) {id x rest : Bytes} {len : Nat} (hid : f.ids id len)
    (h : Tail f x rest) {u : TimeUnit} {m : Multiplier} (hu : units.get id = some (u, m)) :
    UnitMulti cfg units (id ++ x) (u, m) rest := by
  obtain ⟨g1, g2, -⟩ := hf.idText id len hid
  refine .mk ⟨id, split_of ?_ (tail_end hf h).1, g1, hu⟩ (tail_ago hf h m) (tail_connection hf hc h)
  intro b hb
  obtain ⟨k1, k2⟩ := g2 b hb
  rintro (h | h | h)
  · exact k1 ((hf.inner b).2 h.2)
  · exact k1 ((hf.outer b).2 h)
  · exact k2 h

theorem gap_id (hf : FormatOk cfg units keywords f) {gap id x : Bytes} {len : Nat} (hg : ∀ b ∈ gap, f.space b)
    (hid : f.ids id len) : ∃ b r, gap ++ (id ++ x) = b :: r ∧ ¬ NextDuration b ∧ b ≠ 46 ∧ b ≠ 101 ∧ b ≠ 69 := by
  cases gap with
  | cons b l => exact ⟨b, _, rfl, hf.spaces b (hg b (by simp))⟩
  | nil =>
    obtain ⟨g1, g2, g3⟩ := hf.idText id len hid
    cases id with
    | nil => exact absurd rfl g1
    | cons b l =>
      obtain ⟨k1, k2, k3, -⟩ := g3 b rfl
      exact ⟨b, _, rfl, (g2 b (by simp)).2, k1, k2, k3⟩

theorem after_gap (hf : FormatOk cfg units keywords f) {gap id x : Bytes} {len : Nat} (hg : ∀ b ∈ gap, f.space b)
    (hgg : gap = [] ∨ f.gaps) (hid : f.ids id len) :
    AfterDelims cfg.allowTimeUnitDelimiter cfg.innerDelimiter (gap ++ (id ++ x)) (id ++ x) := by
  obtain ⟨g1, g2, -⟩ := hf.idText id len hid
  have hns : ¬ StartsWith (cfg.innerDelimiter · = true) (id ++ x) := by
    cases id with
    | nil => exact absurd rfl g1
    | cons b l =>
      rw [List.cons_append, startsWith_cons]
      exact fun h => (g2 b (by simp)).1 ((hf.inner b).2 h)
  unfold AfterDelims
  by_cases ha : cfg.allowTimeUnitDelimiter = true
  · rw [if_pos ha]
    exact ⟨gap, split_of (fun b hb => (hf.inner b).1 (hg b hb)) hns⟩
  · rw [if_neg ha]
    rcases hgg with rfl | h
    · rfl
    · exact absurd (hf.gaps h) ha

/-- the sign of an amount -/
theorem span_sign (hf : FormatOk cfg units keywords f) {sign t x : Bytes} {neg : Bool} {y : Int} (hs : SignText sign neg)
    (ht : SpanText f t y) : SignPart cfg (sign ++ (t ++ x)) neg (t ++ x) := by
  have hn : ∃ b l, t = b :: l ∧ ¬ f.space b ∧ ¬ (b = 43 ∨ b = 45) := by
    obtain ⟨b, l, h1, h2, -⟩ := span_head hf (Or.inl ⟨rfl, rfl⟩ : SignText [] false) ht
    refine ⟨b, l, h1, h2, ?_⟩
    have hd : ∀ {W r : Bytes}, AllDigits W → W ≠ [] → W ++ r = b :: l → ¬ (b = 43 ∨ b = 45) := by
      intro W r hW hne e
      cases W with
      | nil => exact absurd rfl hne
      | cons c W =>
        cases e
        have := hW b (by simp)
        rintro (rfl | rfl) <;> revert this <;> decide
    rw [List.nil_append] at h1
    cases ht with
    | number k1 k2 => exact hd k1 k2 h1
    | fraction k1 k2 => exact hd k1 k2 h1
    | unit _ h =>
      have := ((hf.idText _ _ h).2.1 b (by rw [h1]; simp)).2
      exact fun h => this (Or.inr h)
  obtain ⟨b, l, rfl, h1, h2⟩ := hn
  have hd : AfterDelims cfg.allowSignDelimiter cfg.innerDelimiter (b :: l ++ x) (b :: l ++ x) := by
    unfold AfterDelims
    split
    · refine ⟨[], rfl, (by simp), ?_⟩
      rw [List.cons_append, startsWith_cons]
      exact fun h => h1 ((hf.inner b).2 h)
    · rfl
  rcases hs with ⟨rfl, rfl⟩ | ⟨rfl, rfl⟩ | ⟨rfl, rfl⟩
  · refine .absent (by simp) ?_
    rw [List.nil_append, List.cons_append, startsWith_cons]
    exact h2
  · exact .plus hd (by simp)
  · exact .minus hd (by simp)

/-- the item denotes the amount (which saturates) -/
def ItemIs (cfg : Config) (i : Bool × Item) (x : Int) : Prop :=
  ∃ d, Denotes cfg i.1 i.2 d ∧ nanos d = (if i.1 then -1 else 1) * min maxNanos x ∧ 0 ≤ x ∧ (i.1 = false → d.isNegative = false)

theorem span_item (hf : FormatOk cfg units keywords f) (hc : cfg.conjunctions = none) {t x rest : Bytes} {y : Int} (neg : Bool)
    (ht : SpanText f t y) (h : Tail f x rest) :
    ∃ item, MultiText cfg units keywords numerals (t ++ x) item rest ∧ ItemIs cfg (neg, item) y := by
  cases ht with
  | number h1 h2 h3 h4 h5 =>
    rename_i W gap id len
    obtain ⟨u, m, k1, k2, k3⟩ := hf.ids _ _ h5
    obtain ⟨b, r, e, g1, g2, g3, g4⟩ := gap_id hf (x := x) h3 h5
    have e' : W ++ (gap ++ id) ++ x = W ++ (gap ++ (id ++ x)) := by simp
    rw [e']
    refine ⟨.number W [] 0 (some (u, m)), .numberUnit (r := gap ++ (id ++ x)) ?_ (after_gap hf h3 h4 h5) hf.nonempty
      (unit_word hf hc h5 h k1), ?_⟩
    · rw [e]
      refine ⟨b :: r, b :: r, split_of h1 ?_, .absent h2 ?_, .absent ?_⟩ <;> rw [startsWith_cons]
      · exact fun h => g1 (Or.inl h)
      · exact g2
      · rintro (h | h) <;> contradiction
    · obtain ⟨d, hd⟩ := value_exists neg W [] 0 (product u.multiplier m)
      refine ⟨d, .numberUnit k2 hd, ?_, by positivity, ?_⟩
      · rw [length_value k3 (by simp) hd]
        have e : literalValue W [] 0 * (len : ℚ) = ((decimal W * len : ℤ) : ℚ) := by
          unfold literalValue; simp [decimal]
        rw [e, Int.floor_intCast]
      · rintro rfl
        exact length_negative k3 hd
  | fraction h1 h2 h3 h3' hfr h3'' h4 h5 =>
    rename_i W F gap id len
    obtain ⟨u, m, k1, k2, k3⟩ := hf.ids _ _ h5
    obtain ⟨b, r, e, g1, g2, g3, g4⟩ := gap_id hf (x := x) h3'' h5
    have e' : W ++ (46 :: (F ++ (gap ++ id))) ++ x = W ++ (46 :: (F ++ (gap ++ (id ++ x)))) := by simp
    rw [e']
    refine ⟨.number W F 0 (some (u, m)), .numberUnit (r := gap ++ (id ++ x)) ?_ (after_gap hf h3'' h4 h5) hf.nonempty
      (unit_word hf hc h5 h k1), ?_⟩
    · rw [e]
      refine ⟨46 :: (F ++ b :: r), b :: r, split_of h1 ?_, .present (hf.fraction hfr) (split_of h3 ?_) (Or.inl h2), .absent ?_⟩ <;>
        rw [startsWith_cons]
      · decide
      · exact fun h => g1 (Or.inl h)
      · rintro (h | h) <;> contradiction
    · obtain ⟨d, hd⟩ := value_exists neg W F 0 (product u.multiplier m)
      refine ⟨d, .numberUnit k2 hd, ?_, ?_, ?_⟩
      · rw [length_value k3 h3' hd]
        have e : literalValue W F 0 = (decimal W : ℚ) + (decimal F : ℚ) / 10 ^ F.length := by
          unfold literalValue; simp
        rw [e]
      · exact Int.floor_nonneg.2 (by positivity)
      · rintro rfl
        exact length_negative k3 hd
  | unit h1 h2 =>
    rename_i len
    obtain ⟨u, m, k1, k2, k3⟩ := hf.ids _ _ h2
    obtain ⟨g1, g2, g3⟩ := hf.idText _ _ h2
    refine ⟨.word (u, m), .unit ?_ ?_ (hf.bare h1) (unit_word hf hc h2 h k1), ?_⟩
    · cases t with
      | nil => exact absurd rfl g1
      | cons b l =>
        obtain ⟨q1, -, -, q4, -⟩ := g3 b rfl
        refine ⟨by simp, ?_, ?_, ?_⟩
        · rw [List.cons_append, startsWith_cons]
          exact fun h => (g2 b (by simp)).2 (Or.inl h)
        · rw [List.cons_append, startsWith_cons]
          exact q1
        · rintro - ⟨r, y, hy, hy2⟩
          cases y with
          | nil => cases hy2
          | cons c y =>
            have hcb : b = c := by
              rw [List.cons_append, List.cons_append] at hy
              injection hy
            subst hcb
            unfold SameText at hy2
            simp only [List.map_cons] at hy2
            injection hy2 with hy2
            exact q4 (hy2.trans (by decide))
    · rintro k hk ⟨v, r, w, hw1, hw2, hw3⟩
      have : Split (¬ KeywordEnd cfg ·) (t ++ x) t x := by
        refine split_of ?_ (tail_end hf h).2
        intro b hb
        obtain ⟨k1, k2⟩ := g2 b hb
        rintro (h | h)
        · exact k1 ((hf.outer b).2 h)
        · exact k2 h
      have : w = t := (split_unique hw1 this).1
      subst this
      rw [hf.keywords h1 k hk _ _ h2] at hw3
      cases hw3
    · obtain ⟨d, hd⟩ := value_exists neg (b! "1") [] 0 (product u.multiplier m)
      refine ⟨d, .word k2 ?_, ?_, by positivity, ?_⟩
      · have : decide ((product u.multiplier m).exponent ≤ 19) = true := decide_eq_true k3.2.2.2.1
        rw [this, Bool.and_true]
        exact hd
      · rw [length_value k3 (by simp) hd]
        have e : literalValue (b! "1") [] 0 * (len : ℚ) = ((len : ℤ) : ℚ) := by
          unfold literalValue; simp [decimal]
        rw [e, Int.floor_intCast]
      · rintro rfl
        exact length_negative k3 hd

/-- a sequence of amounts is a sequence of durations of the grammar with these amounts -/
theorem spans_durations (hf : FormatOk cfg units keywords f) (hc : cfg.conjunctions = none) {s : Bytes} {l : List (Bool × Int)} (h : Spans f s l) :
    ∃ items, Durations cfg units keywords numerals s items ∧
      List.Forall₂ (fun i p => i.1 = p.1 ∧ ItemIs cfg i p.2) items l := by
  induction h with
  | last h1 h2 =>
    rename_i sign t neg x
    obtain ⟨item, g1, g2⟩ := span_item (numerals := numerals) hf hc neg h2 .nil
    rw [List.append_nil] at g1
    have := span_sign (x := []) hf h1 h2
    rw [List.append_nil] at this
    exact ⟨[(neg, item)], .last this g1, .cons ⟨rfl, g2⟩ .nil⟩
  | more h1 h2 h3 h4 h5 ih =>
    rename_i sign t gap rest neg x l
    obtain ⟨items, k1, k2⟩ := ih
    have hh := spans_head hf h5
    obtain ⟨item, g1, g2⟩ := span_item (numerals := numerals) hf hc neg h2 (.more h3 h4 hh)
    refine ⟨(neg, item) :: items, .more (span_sign hf h1 h2) g1 ?_ k1, .cons ⟨rfl, g2⟩ k2⟩
    obtain ⟨b, r, rfl, -⟩ := hh
    simp

end Fundu.Props
