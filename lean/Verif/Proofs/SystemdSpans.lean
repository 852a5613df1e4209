import Verif.Spec.SystemdSpans
import Verif.Proofs.GnuMistakes
import Verif.Proofs.Negated
import Verif.Props.Systemd
import Verif.Props.Mistakes
import Verif.Props.Gate
/-! # The time spans of fundu-systemd -/
namespace Fundu.SystemdSpans
open Fundu Fundu.Spec Fundu.Props Fundu.Gnu
open Fundu.Systemd (TimeSpanParser)

/-- the configuration with a default unit -/
abbrev conf (u : TimeUnit) : Config := (TimeSpanParser.withDefaultUnit u).config

variable {u : TimeUnit} {n : Bool}

theorem ago_off : ¬ (conf u).allowAgo = true := by show ¬ false = true; decide
theorem exponent_off : ¬ (conf u).disableExponent = false := by show ¬ true = false; decide
theorem infinity_off : ¬ (conf u).disableInfinity = false := by show ¬ true = false; decide

theorem inner_eq : (fun b => (conf u).innerDelimiter b = true) = PosixSpace := by
  funext b; exact propext (systemd_delimiter b)
theorem outer_eq : (fun b => (conf u).outerDelimiter b = true) = PosixSpace := by
  funext b; exact propext (systemd_delimiter b)
theorem unitEnd_eq : UnitEnd (conf u) = fun b => PosixSpace b ∨ NextDuration b := by
  funext b
  apply propext
  constructor
  · rintro (h | h | h)
    · exact absurd h.1 ago_off
    · exact Or.inl ((systemd_delimiter b).1 h)
    · exact Or.inr h
  · rintro (h | h)
    · exact Or.inr (Or.inl ((systemd_delimiter b).2 h))
    · exact Or.inr (Or.inr h)

theorem lengths_fun {u : TimeUnit} {s s' : Bytes} {len len' : Nat} (h : (u, s, len) ∈ documentedUnits) (h' : (u, s', len') ∈ documentedUnits) :
    len = len' := by
  have : ∀ p ∈ documentedUnits, ∀ p' ∈ documentedUnits, p.1 = p'.1 → p.2.2 = p'.2.2 := by decide
  exact this _ h _ h' rfl

theorem table_ne (n : Bool) : ∀ p ∈ documentedOf n, ∀ w ∈ p.1, w ≠ [] := by cases n <;> decide

theorem unitIn_ne {w : Bytes} {len : Nat} (h : UnitIn (documentedOf n) w len) : w ≠ [] := by
  obtain ⟨ids, h1, h2⟩ := h; exact table_ne n _ h1 w h2

theorem wordIn_unit {s r : Bytes} {v : TimeUnit × Multiplier} (h : WordIn (UnitEnd (conf u)) (tableOf n) s v r) :
    ∃ len id, v.2 = ⟨1, 0⟩ ∧ (v.1, id, len) ∈ documentedUnits ∧ SpanUnit (documentedOf n) s len r := by
  obtain ⟨w, h1, h2, h3⟩ := h
  rw [unitEnd_eq] at h1
  obtain ⟨e, len, id, h4, h5⟩ := (C58_table n w v.1 v.2).1 h3
  exact ⟨len, id, e, h5, w, h1, h4⟩

theorem unit_wordIn {s r : Bytes} {len : Nat} (h : SpanUnit (documentedOf n) s len r) :
    ∃ v id, (v, id, len) ∈ documentedUnits ∧ WordIn (UnitEnd (conf u)) (tableOf n) s (v, ⟨1, 0⟩) r := by
  obtain ⟨w, h1, h2⟩ := h
  obtain ⟨ids, k1, k2⟩ := id h2
  obtain ⟨p, g1, g2, q, g3, g4, g5⟩ := systemd_get_ids n w (List.mem_flatMap.2 ⟨_, k1, k2⟩)
  have e := systemd_ids_unique n _ k1 _ g1 w k2 g2
  have e2 : q.2.2 = len := by rw [g4, ← e]
  exact ⟨q.1, q.2.1, by rw [← e2]; exact g3, w, by rw [unitEnd_eq]; exact h1, unitIn_ne h2, g5⟩

theorem noUnit_iff {s : Bytes} : (¬ ∃ v r, WordIn (UnitEnd (conf u)) (tableOf n) s v r) ↔ ¬ ∃ len t, SpanUnit (documentedOf n) s len t := by
  constructor
  · rintro h ⟨len, t, g⟩
    obtain ⟨v, -, -, k⟩ := unit_wordIn (u := u) g
    exact h ⟨_, _, k⟩
  · rintro h ⟨v, r, g⟩
    obtain ⟨len, -, -, -, k⟩ := wordIn_unit g
    exact h ⟨_, _, k⟩

theorem afterDelims_iff {s r : Bytes} : AfterDelims (conf u).allowTimeUnitDelimiter (conf u).innerDelimiter s r ↔ Spaces s r := by
  show (∃ ds, Split (fun b => (conf u).innerDelimiter b = true) s ds r) ↔ _
  rw [inner_eq]; rfl

theorem agoPart_iff {s r : Bytes} {m m' : Multiplier} : AgoPart (conf u) s m m' r ↔ m' = m ∧ r = s := by
  constructor
  · intro h
    cases h with
    | absent _ => exact ⟨rfl, rfl⟩
    | other h => exact absurd h ago_off
    | ago h => exact absurd h ago_off
  · rintro ⟨rfl, rfl⟩
    exact .absent fun h => absurd h ago_off

theorem connection_spaces {s r : Bytes} (h : Connection (conf u) s r) : Spaces s r := by
  cases h with
  | absent h => rw [outer_eq] at h; exact ⟨[], split_nil h⟩
  | delims h _ _ _ => rw [outer_eq] at h; exact ⟨_, h⟩
  | conjunction _ _ h _ _ _ _ _ =>
    have h : ([] : List Bytes) = _ := h
    simp at h

theorem spaces_connection {s r : Bytes} (hs : Tidy s) (h : Spaces s r) : Connection (conf u) s r := by
  have hr := (tidy_spacesEnd hs h).2
  obtain ⟨sp, h⟩ := h
  by_cases h0 : sp = []
  · subst h0
    have e : s = r := h.1
    subst e
    exact .absent (by rw [outer_eq]; exact h.2.2)
  · refine .delims (ds := sp) (by rw [outer_eq]; exact h) h0 ?_ ?_
    · rintro rfl
      have := h.1
      rw [hr rfl] at this
      exact h0 (List.append_eq_nil_iff.1 this.symm).1
    · intro w hw
      have hw : w ∈ ([] : List Bytes) := hw
      simp at hw

theorem number_iff {s W F r : Bytes} {e : Int} : NumberText (conf u) s W F e r ↔
    e = 0 ∧ SpanNumber s W F r ∧ ¬ StartsWith ExponentLetter r := by
  constructor
  · rintro ⟨r1, r2, h1, h2, h3⟩
    have : e = 0 ∧ r = r2 ∧ ¬ StartsWith ExponentLetter r2 := by
      cases h3 with
      | absent h => exact ⟨rfl, rfl, h⟩
      | present _ h => exact absurd h exponent_off
    obtain ⟨rfl, rfl, h3⟩ := this
    refine ⟨rfl, ?_, h3⟩
    cases h2 with
    | absent k1 k2 => exact .whole h1 k1 k2
    | present _ k2 k3 => exact .point h1 k2 k3
  · rintro ⟨rfl, h, h3⟩
    cases h with
    | whole h1 h2 h4 => exact ⟨_, _, h1, .absent h2 h4, .absent h3⟩
    | point h1 h2 h4 => exact ⟨_, _, h1, .present rfl h2 h4, .absent h3⟩

theorem wordStart_iff {s : Bytes} : WordStart (conf u) s ↔ s ≠ [] ∧ ¬ StartsWith IsDigit s ∧ ¬ StartsWith (· = 46) s := by
  unfold WordStart
  constructor
  · rintro ⟨h1, h2, h3, -⟩; exact ⟨h1, h2, h3⟩
  · rintro ⟨h1, h2, h3⟩; exact ⟨h1, h2, h3, fun h => absurd h infinity_off⟩

/-! ## Values -/

/-- what `W.F` units of `len` nanoseconds denote -/
def SpanValue (neg : Bool) (W F : Bytes) (len : Nat) (d : Duration) : Prop :=
  d.WF ∧ nanos d = (if neg then -1 else 1) * min maxNanos (spanNanos W F len) ∧ (d.isNegative = true ↔ neg = true ∧ ¬ Negligible W F len)

theorem literal_shift (W F : Bytes) (e : ℤ) : literalValue W F e = literalValue W F 0 * 10 ^ e := by
  unfold literalValue; simp

theorem lengths {u : TimeUnit} {id : Bytes} {len : Nat} (h : (u, id, len) ∈ documentedUnits) :
    u.multiplier.coefficient ≠ 0 ∧ 0 < u.multiplier.coefficient ∧ u.multiplier.exponent ≤ 19 ∧ 
    ((u.multiplier.exponent = 0 ∧ (len : ℤ) = u.multiplier.coefficient * 10 ^ 9) ∨
      (u.multiplier.coefficient = 1 ∧ ∃ k : Nat, k ≤ 9 ∧ u.multiplier.exponent = -k ∧ len = 10 ^ (9 - k))) := by
  have key : ∀ p ∈ documentedUnits, p.1.multiplier.coefficient ≠ 0 ∧ 0 < p.1.multiplier.coefficient ∧ p.1.multiplier.exponent ≤ 19 ∧ 
    ((p.1.multiplier.exponent = 0 ∧ (p.2.2 : ℤ) = p.1.multiplier.coefficient * 10 ^ 9) ∨
      (p.1.multiplier.coefficient = 1 ∧ ∃ k : Nat, k < 10 ∧ p.1.multiplier.exponent = -k ∧ p.2.2 = 10 ^ (9 - k))) := by decide +kernel
  obtain ⟨h1, h2, h3, h4⟩ := key _ h
  refine ⟨h1, h2, h3, h4.imp (fun h => h) fun ⟨a, k, b, c, d⟩ => ⟨a, k, by omega, c, d⟩⟩

theorem spanNanos_eq {u : TimeUnit} {id : Bytes} {len : Nat} (h : (u, id, len) ∈ documentedUnits) (W F : Bytes) :
    truncatedNanos (literalValue W F (0 + u.multiplier.exponent)) u.multiplier.coefficient = spanNanos W F len := by
  obtain ⟨-, hpos, -, h⟩ := lengths h
  rw [Int.zero_add, literal_shift]
  unfold spanNanos
  generalize literalValue W F 0 = v
  generalize u.multiplier.exponent = e at *
  generalize u.multiplier.coefficient = c at *
  rcases h with ⟨rfl, h⟩ | ⟨rfl, k, hk, rfl, rfl⟩
  · unfold truncatedNanos attos
    have h : (len : ℚ) = (c : ℚ) * 10 ^ 9 := by exact_mod_cast h
    rw [abs_of_pos hpos, h, zpow_zero, mul_one]
    congr 1
    field_simp
  · rw [C17_exact _ _ (Or.inr (Or.inl rfl))]
    have e1 : (10 : ℚ) ^ 18 = 10 ^ (9 - k) * 10 ^ (9 + k) := by rw [← pow_add]; congr 1; omega
    have e2 : (⌊v * 10 ^ 18⌋ : ℚ) / 10 ^ 18 * ((10 ^ (9 - k) : ℕ) : ℚ) = ((⌊v * 10 ^ 18⌋ : ℤ) : ℚ) / ((10 ^ (9 + k) : ℕ) : ℚ) := by
      push_cast
      generalize (⌊v * 10 ^ 18⌋ : ℚ) = w
      rw [e1]
      field_simp
    have e3 : v * 10 ^ (-(k : ℤ)) * ((|1| : ℤ) : ℚ) * 10 ^ 9 = v * 10 ^ 18 / ((10 ^ (9 + k) : ℕ) : ℚ) := by
      push_cast
      rw [zpow_neg, zpow_natCast, show (18 : ℕ) = 9 + 9 from rfl, pow_add, pow_add]
      field_simp
      simp
    rw [e2, Rat.floor_intCast_div_natCast, e3, Int.floor_div_natCast]

theorem spanNanos_nonneg (W F : Bytes) (len : Nat) : 0 ≤ spanNanos W F len := by
  unfold spanNanos
  refine Int.floor_nonneg.2 (mul_nonneg (div_nonneg ?_ (by norm_num)) (Nat.cast_nonneg _))
  exact_mod_cast Int.floor_nonneg.2 (mul_nonneg (literalValue_nonneg W F 0) (by norm_num))

theorem negligible_iff {u : TimeUnit} {id : Bytes} {len : Nat} (h : (u, id, len) ∈ documentedUnits) (W F : Bytes) :
    10 ^ (-18 : ℤ) ≤ literalValue W F (0 + u.multiplier.exponent) ↔ ¬ Negligible W F len := by
  obtain ⟨-, hpos, -, h⟩ := lengths h
  rw [Int.zero_add, literal_shift]
  unfold Negligible
  rw [not_lt]
  generalize literalValue W F 0 = v
  generalize u.multiplier.exponent = e at *
  generalize u.multiplier.coefficient = c at *
  have e0 : (10 : ℚ) ^ (-18 : ℤ) = 1 / 10 ^ 18 := by norm_num
  rw [e0]
  have e1 : v * 10 ^ e = v * (min len (10 ^ 9) : ℕ) / 10 ^ 9 := by
    rcases h with ⟨rfl, h⟩ | ⟨rfl, k, hk, rfl, rfl⟩
    · have : min len (10 ^ 9) = 10 ^ 9 := by omega
      rw [this, zpow_zero, mul_one]; push_cast; norm_num
    · have : min (10 ^ (9 - k)) (10 ^ 9) = 10 ^ (9 - k) := Nat.min_eq_left (Nat.pow_le_pow_right (by decide) (by omega))
      rw [this]
      push_cast
      have e3 : (10 : ℚ) ^ 9 = 10 ^ (9 - k) * 10 ^ k := by rw [← pow_add]; congr 1; omega
      rw [e3, zpow_neg, zpow_natCast]
      field_simp
  rw [e1]

theorem negligible_zero {W F : Bytes} {len : Nat} (h : Negligible W F len) : spanNanos W F len = 0 := by
  unfold Negligible at h
  unfold spanNanos
  have hv := literalValue_nonneg W F 0
  generalize literalValue W F 0 = v at *
  rcases Nat.lt_or_ge len (10 ^ 9) with hl | hl
  · rw [Nat.min_eq_left (by omega)] at h
    have hn : (0 : ℚ) ≤ len := Nat.cast_nonneg _
    rw [Int.floor_eq_zero_iff]
    have h1 : (⌊v * 10 ^ 18⌋ : ℚ) ≤ v * 10 ^ 18 := Int.floor_le _
    have h0 : (0 : ℚ) ≤ ⌊v * 10 ^ 18⌋ := by exact_mod_cast Int.floor_nonneg.2 (mul_nonneg hv (by norm_num))
    refine ⟨mul_nonneg (div_nonneg h0 (by norm_num)) hn, ?_⟩
    have h2 : (⌊v * 10 ^ 18⌋ : ℚ) / 10 ^ 18 ≤ v := by rw [div_le_iff₀ (by norm_num)]; exact h1
    have h3 := mul_le_mul_of_nonneg_right h2 hn
    have h4 : v * len < 1 := by
      rw [div_lt_div_iff₀ (by norm_num) (by norm_num)] at h
      nlinarith
    linarith
  · rw [Nat.min_eq_right hl] at h
    have h1 : ⌊v * 10 ^ 18⌋ = 0 := by
      rw [Int.floor_eq_zero_iff]
      refine ⟨mul_nonneg hv (by norm_num), ?_⟩
      have e : v * ((10 ^ 9 : ℕ) : ℚ) / 10 ^ 9 = v := by push_cast; norm_num
      rw [e, lt_div_iff₀ (by norm_num)] at h
      exact h
    rw [h1]; simp

theorem value_iff_span {v : TimeUnit} {id : Bytes} {len : Nat} (h : (v, id, len) ∈ documentedUnits) (neg : Bool) (W F : Bytes) (d : Duration) :
    Value neg W F 0 v.multiplier d ↔ SpanValue neg W F len d := by
  unfold Value SpanValue
  rw [spanNanos_eq h, negligible_iff h]
  obtain ⟨h0, hpos, -, -⟩ := lengths h
  have e : literalSign neg v.multiplier.coefficient = if neg then -1 else 1 := by
    unfold literalSign
    have hp : ¬ v.multiplier.coefficient < 0 := by omega
    rw [if_neg hp, mul_one]
  rw [e]
  refine and_congr_right fun _ => and_congr_right fun _ => ?_
  refine iff_congr Iff.rfl ?_
  cases neg
  · simp
  · simp [h0]

theorem accepted_iff {neg : Bool} {W F : Bytes} {len : Nat} {d : Duration} (h : SpanValue neg W F len d) :
    d.isNegative = false ↔ (neg = true → Negligible W F len) := by
  obtain ⟨-, -, h⟩ := h
  cases hd : d.isNegative
  · rw [hd] at h
    simp only [true_iff]
    intro hn
    by_contra hc
    exact absurd (h.2 ⟨hn, hc⟩) (by decide)
  · rw [hd] at h
    have := h.1 rfl
    simp only [Bool.true_eq_false, false_iff]
    intro g
    exact this.2 (g this.1)

theorem spanValue_nanos {neg : Bool} {W F : Bytes} {len : Nat} {d : Duration} (h : SpanValue neg W F len d)
    (hn : neg = true → Negligible W F len) : nanos d = min maxNanos (spanNanos W F len) := by
  have h2 := h.2.1
  cases neg with
  | false => simpa using h2
  | true =>
    rw [negligible_zero (hn rfl)] at h2 ⊢
    rw [h2]
    have : (0 : Int) ≤ maxNanos := by decide
    simp only [if_true]
    omega

/-! ## Time spans and durations -/

/-- the length of the default unit -/
def DefaultLength (u : TimeUnit) (len : Nat) : Prop := ∃ id, (u, id, len) ∈ documentedUnits

theorem one_mul (m : Multiplier) : product m ⟨1, 0⟩ = m := by
  unfold product; simp

theorem unit_fits {v : TimeUnit} : Fits v.multiplier ⟨1, 0⟩ := by cases v <;> decide

theorem denotes_word {v : TimeUnit} {id : Bytes} {len : Nat} (h : (v, id, len) ∈ documentedUnits) (neg : Bool) (d : Duration) :
    Denotes (conf u) neg (.word (v, ⟨1, 0⟩)) d ↔ SpanValue neg (b! "1") [] len d := by
  obtain ⟨-, -, he, -⟩ := lengths h
  have e : (neg && decide ((product v.multiplier ⟨1, 0⟩).exponent ≤ 19)) = neg := by
    rw [one_mul, decide_eq_true he, Bool.and_true]
  rw [← value_iff_span h]
  constructor
  · intro g
    cases g with
    | word _ g => rwa [e, one_mul] at g
  · intro g
    exact .word unit_fits (by rwa [e, one_mul])

theorem denotes_unit {v : TimeUnit} {id : Bytes} {len : Nat} (h : (v, id, len) ∈ documentedUnits) (neg : Bool) (W F : Bytes) (d : Duration) :
    Denotes (conf u) neg (.number W F 0 (some (v, ⟨1, 0⟩))) d ↔ SpanValue neg W F len d := by
  rw [← value_iff_span h]
  constructor
  · intro g
    cases g with
    | numberUnit _ g => rwa [one_mul] at g
  · intro g
    exact .numberUnit unit_fits (by rwa [one_mul])

theorem denotes_number {len : Nat} (h : DefaultLength u len) (neg : Bool) (W F : Bytes) (d : Duration) :
    Denotes (conf u) neg (.number W F 0 none) d ↔ SpanValue neg W F len d := by
  obtain ⟨id, h⟩ := h
  rw [← value_iff_span h]
  constructor
  · intro g
    cases g with
    | number g => exact g
  · intro g
    exact .number g

theorem unitMulti_iff {s r : Bytes} {v : TimeUnit × Multiplier} (h : UnitMulti (conf u) (tableOf n) s v r) :
    ∃ len id t, v.2 = ⟨1, 0⟩ ∧ (v.1, id, len) ∈ documentedUnits ∧ SpanUnit (documentedOf n) s len t ∧ Spaces t r := by
  cases h with
  | mk h1 h2 h3 =>
    obtain ⟨rfl, rfl⟩ := agoPart_iff.1 h2
    obtain ⟨len, id, k1, k2, k3⟩ := wordIn_unit h1
    exact ⟨len, id, _, k1, k2, k3, connection_spaces h3⟩

theorem unitMulti_of {s t r : Bytes} {len : Nat} (hs : Tidy s) (h : SpanUnit (documentedOf n) s len t) (h2 : Spaces t r) :
    ∃ v id, (v, id, len) ∈ documentedUnits ∧ UnitMulti (conf u) (tableOf n) s (v, ⟨1, 0⟩) r := by
  obtain ⟨v, id, k1, k2⟩ := unit_wordIn (u := u) h
  have ht : Tidy t := by obtain ⟨w, g, -⟩ := h; exact tidy_split hs g
  exact ⟨v, id, k1, .mk k2 (agoPart_iff.2 ⟨rfl, rfl⟩) (spaces_connection ht h2)⟩

theorem isEmpty_off : (tableOf n).isEmpty = false := by cases n <;> rfl

theorem unit_start {s t : Bytes} {len : Nat} (h : SpanUnit (documentedOf n) s len t) :
    s ≠ [] ∧ ¬ StartsWith IsDigit s ∧ ¬ StartsWith (· = 46) s := by
  obtain ⟨w, ⟨rfl, h1, -⟩, h2⟩ := h
  have hne := unitIn_ne h2
  obtain ⟨b, l, rfl⟩ := List.exists_cons_of_ne_nil hne
  refine ⟨by simp, ?_, ?_⟩
  · rw [List.cons_append, startsWith_cons]
    intro hd
    exact h1 b (by simp) (Or.inr (Or.inl hd))
  · rw [List.cons_append, startsWith_cons]
    rintro rfl
    obtain ⟨ids, k1, k2⟩ := h2
    have : ∀ p ∈ documentedOf n, ∀ w ∈ p.1, w.head? ≠ some 46 := by cases n <;> decide
    exact this _ k1 _ k2 rfl

theorem multi_span {len : Nat} (hu : DefaultLength u len) {s rest : Bytes} {item : Item} (h : MultiText (conf u) (tableOf n) none none s item rest) :
    ∃ W F l, Span (documentedOf n) len s W F l rest ∧ ∀ neg d, Denotes (conf u) neg item d ↔ SpanValue neg W F l d := by
  cases h with
  | @numberEnd W F e h =>
    obtain ⟨rfl, h1, h2⟩ := number_iff.1 h
    refine ⟨W, F, len, .number h1 h2 ⟨[], split_nil not_startsWith_nil⟩ ?_, fun neg d => denotes_number hu neg W F d⟩
    rintro ⟨l, t, w, k1, k2⟩
    exact unitIn_ne k2 (List.append_eq_nil_iff.1 k1.1.symm).1
  | @numberUnit W F e r r' v _ h1 h2 h0 h4 =>
    obtain ⟨rfl, k1, k2⟩ := number_iff.1 h1
    obtain ⟨l, id, t, g1, g2, g3, g4⟩ := unitMulti_iff h4
    obtain ⟨v, m⟩ := v
    have g1 : m = ⟨1, 0⟩ := g1
    subst g1
    exact ⟨W, F, l, .numberUnit k1 k2 (afterDelims_iff.1 h2) g3 g4, fun neg d => denotes_unit g2 neg W F d⟩
  | @number W F e r r' _ h1 h2 h3 h4 h5 =>
    obtain ⟨rfl, k1, k2⟩ := number_iff.1 h1
    have hsp := afterDelims_iff.1 h2
    have hc := connection_spaces h5
    have e : rest = r' := by
      obtain ⟨a, ha⟩ := hc
      obtain ⟨b, hb⟩ := hsp
      have := split_unique ha (split_nil hb.2.2)
      exact this.2
    subst e
    exact ⟨W, F, len, .number k1 k2 hsp (noUnit_iff.1 (h4 isEmpty_off)), fun neg d => denotes_number hu neg W F d⟩
  | inf h => exact absurd h infinity_off
  | infinity h => exact absurd h infinity_off
  | keyword _ h => cases h
  | @unit v _ h0 h1 h3 h4 =>
    obtain ⟨l, id, t, g1, g2, g3, g4⟩ := unitMulti_iff h4
    obtain ⟨v, m⟩ := v
    have g1 : m = ⟨1, 0⟩ := g1
    subst g1
    exact ⟨_, _, l, .unit g3 g4, fun neg d => denotes_word g2 neg d⟩
  | numeral _ _ _ h => cases h

theorem number_tidy {s W F r : Bytes} (hs : Tidy s) (h : SpanNumber s W F r) : Tidy r := by
  cases h with
  | whole h _ _ => exact tidy_split hs h
  | point h1 h2 _ => exact tidy_split (tidy_suffix (a := [46]) (tidy_split hs h1)) h2

theorem span_multi {len : Nat} (hu : DefaultLength u len) {s rest W F : Bytes} {l : Nat} (hs : Tidy s)
    (h : Span (documentedOf n) len s W F l rest) :
    ∃ item, MultiText (conf u) (tableOf n) none none s item rest ∧ ∀ neg d, Denotes (conf u) neg item d ↔ SpanValue neg W F l d := by
  cases h with
  | numberUnit h1 h2 h3 h4 h5 =>
    have ht := (tidy_spacesEnd (number_tidy hs h1) h3).1
    obtain ⟨v, id, k1, k2⟩ := unitMulti_of (u := u) ht h4 h5
    exact ⟨_, .numberUnit (number_iff.2 ⟨rfl, h1, h2⟩) (afterDelims_iff.2 h3) isEmpty_off k2, fun neg d => denotes_unit k1 neg _ _ d⟩
  | number h1 h2 h3 h4 =>
    obtain ⟨ht, hr⟩ := tidy_spacesEnd (number_tidy hs h1) h3
    by_cases h0 : rest = []
    · subst h0
      have := hr rfl
      subst this
      exact ⟨_, .numberEnd (number_iff.2 ⟨rfl, h1, h2⟩), fun neg d => denotes_number hu neg _ _ d⟩
    · have hsp : Spaces rest rest := by obtain ⟨b, hb⟩ := h3; exact ⟨[], split_nil hb.2.2⟩
      exact ⟨_, .number (number_iff.2 ⟨rfl, h1, h2⟩) (afterDelims_iff.2 h3) h0 (fun _ => noUnit_iff.2 h4) (spaces_connection ht hsp),
        fun neg d => denotes_number hu neg _ _ d⟩
  | unit h1 h2 =>
    obtain ⟨v, id, k1, k2⟩ := unitMulti_of (u := u) hs h1 h2
    exact ⟨_, .unit (wordStart_iff.2 (unit_start h1)) (fun k hk => by cases hk) rfl k2, fun neg d => denotes_word k1 neg d⟩

theorem signPart_iff {s r : Bytes} {neg : Bool} : SignPart (conf u) s neg r ↔ SpanSign s neg r ∧ r ≠ [] := by
  constructor
  · intro h
    cases h with
    | absent h1 h2 => exact ⟨.absent h2, h1⟩
    | plus h1 h2 => have h1 : r = _ := h1; subst h1; exact ⟨.plus, h2⟩
    | minus h1 h2 => have h1 : r = _ := h1; subst h1; exact ⟨.minus, h2⟩
  · rintro ⟨h, h0⟩
    cases h with
    | absent h => exact .absent h0 h
    | plus => exact .plus rfl h0
    | minus => exact .minus rfl h0

theorem number_ne {s W F r : Bytes} (h : SpanNumber s W F r) : s ≠ [] := by
  rintro rfl
  cases h with
  | whole h h1 _ => exact h1 (List.append_eq_nil_iff.1 h.1.symm).1
  | point h _ _ => exact absurd (List.append_eq_nil_iff.1 h.1.symm).2 (by simp)

theorem span_ne {len l : Nat} {s W F r : Bytes} (h : Span (documentedOf n) len s W F l r) : s ≠ [] := by
  cases h with
  | numberUnit h _ _ _ _ => exact number_ne h
  | number h _ _ _ => exact number_ne h
  | unit h _ => exact (unit_start h).1

theorem sign_tidy {s r : Bytes} {neg : Bool} (hs : Tidy s) (h : SpanSign s neg r) : Tidy r := by
  cases h with
  | absent => exact hs
  | plus => exact tidy_suffix (a := [43]) hs
  | minus => exact tidy_suffix (a := [45]) hs

theorem span_tidy {len l : Nat} {s W F r : Bytes} (hs : Tidy s) (h : Span (documentedOf n) len s W F l r) : Tidy r := by
  cases h with
  | numberUnit h1 _ h3 h4 h5 =>
    have h6 := (tidy_spacesEnd (number_tidy hs h1) h3).1
    obtain ⟨w, h4, -⟩ := h4
    exact (tidy_spacesEnd (tidy_split h6 h4) h5).1
  | number h1 _ h3 _ => exact (tidy_spacesEnd (number_tidy hs h1) h3).1
  | unit h1 h2 =>
    obtain ⟨w, h1, -⟩ := h1
    exact (tidy_spacesEnd (tidy_split hs h1) h2).1

theorem spans_ne {len : Nat} {s : Bytes} {l : List Int} (h : TimeSpans (documentedOf n) len s l) : s ≠ [] := by
  rintro rfl
  cases h with
  | last h1 h2 _ => cases h1; exact span_ne h2 rfl
  | more h1 h2 _ _ => cases h1; exact span_ne h2 rfl

theorem allow_off : ¬ (conf u).allowNegative = true := by show ¬ false = true; decide

/-- The durations of a text are its time spans. -/
theorem durations_spans {len : Nat} (hu : DefaultLength u len) {s : Bytes} {items : List (Bool × Item)} {ds : List Duration}
    (h : Durations (conf u) (tableOf n) none none s items) (hd : List.Forall₂ (fun i d => Accepted (conf u) i.1 i.2 d) items ds) :
    ∃ l, TimeSpans (documentedOf n) len s l ∧ ds.map nanos = l.map (min maxNanos) := by
  induction h generalizing ds with
  | last h1 h2 =>
    cases hd with
    | cons hd hr =>
      cases hr
      obtain ⟨W, F, l, k1, k2⟩ := multi_span hu h2
      have hv := (k2 _ _).1 hd.1
      have hn := (accepted_iff hv).1 (hd.2.resolve_left allow_off)
      exact ⟨_, .last (signPart_iff.1 h1).1 k1 hn, by rw [List.map_cons, spanValue_nanos hv hn]; rfl⟩
  | more h1 h2 h3 _ ih =>
    cases hd with
    | cons hd hr =>
      obtain ⟨l', g1, g2⟩ := ih hr
      obtain ⟨W, F, l, k1, k2⟩ := multi_span hu h2
      have hv := (k2 _ _).1 hd.1
      have hn := (accepted_iff hv).1 (hd.2.resolve_left allow_off)
      exact ⟨_, .more (signPart_iff.1 h1).1 k1 hn g1, by rw [List.map_cons, List.map_cons, spanValue_nanos hv hn, g2]⟩

theorem spanValue_exists (v : TimeUnit) (id : Bytes) (len : Nat) (h : (v, id, len) ∈ documentedUnits) (neg : Bool) (W F : Bytes) :
    ∃ d, SpanValue neg W F len d := by
  obtain ⟨d, hd⟩ := value_exists neg W F 0 v.multiplier
  exact ⟨d, (value_iff_span h neg W F d).1 hd⟩

theorem span_length {len l : Nat} (hu : DefaultLength u len) {s W F r : Bytes} (h : Span (documentedOf n) len s W F l r) :
    ∃ v id, (v, id, l) ∈ documentedUnits := by
  cases h with
  | numberUnit _ _ _ h _ => obtain ⟨v, id, h, -⟩ := unit_wordIn (u := u) h; exact ⟨v, id, h⟩
  | number => exact ⟨u, hu⟩
  | unit h _ => obtain ⟨v, id, h, -⟩ := unit_wordIn (u := u) h; exact ⟨v, id, h⟩

theorem spans_durations' {len : Nat} (hu : DefaultLength u len) {s : Bytes} {l : List Int} (hs : Tidy s)
    (h : TimeSpans (documentedOf n) len s l) :
    ∃ items ds, Durations (conf u) (tableOf n) none none s items ∧ List.Forall₂ (fun i d => Accepted (conf u) i.1 i.2 d) items ds ∧
      ds.map nanos = l.map (min maxNanos) := by
  induction h with
  | @last s neg r W F len' h1 h2 h3 =>
    obtain ⟨item, k1, k2⟩ := span_multi hu (sign_tidy hs h1) h2
    obtain ⟨v, id, hv⟩ := span_length hu h2
    obtain ⟨d, hd⟩ := spanValue_exists v id _ hv neg W F
    exact ⟨_, [d], .last (signPart_iff.2 ⟨h1, span_ne h2⟩) k1, .cons ⟨(k2 _ _).2 hd, Or.inr ((accepted_iff hd).2 h3)⟩ .nil,
      by rw [List.map_cons, spanValue_nanos hd h3]; rfl⟩
  | @more s neg r W F len' rest l h1 h2 h3 h4 ih =>
    have hr := sign_tidy hs h1
    obtain ⟨items, ds, g1, g2, g3⟩ := ih (span_tidy hr h2)
    obtain ⟨item, k1, k2⟩ := span_multi hu hr h2
    obtain ⟨v, id, hv⟩ := span_length hu h2
    obtain ⟨d, hd⟩ := spanValue_exists v id _ hv neg W F
    exact ⟨_, d :: ds, .more (signPart_iff.2 ⟨h1, span_ne h2⟩) k1 (spans_ne h4) g1, .cons ⟨(k2 _ _).2 hd, Or.inr ((accepted_iff hd).2 h3)⟩ g2,
      by rw [List.map_cons, List.map_cons, spanValue_nanos hd h3, g3]⟩

theorem spans_nonneg {len : Nat} {s : Bytes} {l : List Int} (h : TimeSpans (documentedOf n) len s l) : ∀ x ∈ l, 0 ≤ x := by
  induction h with
  | last => intro x hx; rw [List.mem_singleton] at hx; subst hx; exact spanNanos_nonneg _ _ _
  | more _ _ _ _ ih =>
    intro x hx
    rcases List.mem_cons.1 hx with rfl | hx
    · exact spanNanos_nonneg _ _ _
    · exact ih x hx

/-! ## Mistakes -/

theorem noDelims {s : Bytes} (hs : Tidy s) (h : OnlyDelims (conf u).innerDelimiter s) : False :=
  h.1 (tidy_spaces hs fun b hb => (systemd_delimiter b).1 (h.2 b hb))
theorem noOuter {s : Bytes} (hs : Tidy s) (h : OnlyDelims (conf u).outerDelimiter s) : False :=
  h.1 (tidy_spaces hs fun b hb => (systemd_delimiter b).1 (h.2 b hb))

theorem noConnection {s : Bytes} {f : Fault} (hs : Tidy s) (h : ConnectionMistake (conf u) s f) : False := by
  cases h with
  | delimiters h => exact noOuter hs h
  | conjunction _ _ _ h _ _ _ =>
    have h : ([] : List Bytes) = _ := h
    simp at h

theorem noUnitMistake {s : Bytes} {f : Fault} (hs : Tidy s) (h : UnitMultiMistake (conf u) (tableOf n) s f) : False := by
  cases h with
  | delimiters _ h _ => exact ago_off h
  | connection h1 h2 h3 =>
    obtain ⟨rfl, rfl⟩ := agoPart_iff.1 h2
    obtain ⟨w, h1, -⟩ := h1
    exact noConnection (tidy_split hs h1) h3

theorem numberMistake_iff {s : Bytes} {f : Fault} : NumberMistake (conf u) s f ↔
    (∃ r, s = 46 :: r ∧ ¬ StartsWith IsDigit r ∧ f = .syntax (46 :: r) .wholeOrFractionMustBePresent) ∨
    (∃ W F r, SpanNumber s W F r ∧ StartsWith ExponentLetter r ∧ f = .syntax r .noExponentAllowed) := by
  constructor
  · intro h
    cases h with
    | fraction h1 h2 =>
      cases h2 with
      | disabled h => exact absurd h (by show ¬ false = true; decide)
      | noDigits _ h2 h3 =>
        subst h2
        exact Or.inl ⟨_, h1.1, h3, rfl⟩
    | @exponent W r F r' _ h1 h2 h3 =>
      have hn : SpanNumber s W F r' := by
        cases h2 with
        | absent k1 k2 => exact .whole h1 k1 k2
        | present _ k2 k3 => exact .point h1 k2 k3
      refine Or.inr ⟨_, _, _, hn, ?_⟩
      cases h3 with
      | disabled h _ => exact ⟨⟨_, _, rfl, h⟩, rfl⟩
      | endOfText _ h => exact absurd h exponent_off
      | onlySign _ h _ => exact absurd h exponent_off
      | noDigit _ h _ _ _ => exact absurd h exponent_off
      | overflow _ h _ _ _ => exact absurd h exponent_off
  · rintro (⟨r, rfl, h1, rfl⟩ | ⟨W, F, r, h1, ⟨b, l, rfl, hb⟩, rfl⟩)
    · exact .fraction (W := []) (split_nil (by rw [startsWith_cons]; decide)) (.noDigits rfl rfl h1)
    · cases h1 with
      | whole k1 k2 k3 => exact .exponent k1 (.absent k2 k3) (.disabled hb rfl)
      | point k1 k2 k3 => exact .exponent k1 (.present rfl k2 k3) (.disabled hb rfl)

theorem multiMistake_iff {s : Bytes} {f : Fault} (hs : Tidy s) : MultiMistake (conf u) (tableOf n) none none s f ↔
    SpanMistake (documentedOf n) s f := by
  constructor
  · intro h
    cases h with
    | number h =>
      rcases numberMistake_iff.1 h with ⟨r, rfl, h1, rfl⟩ | ⟨W, F, r, h1, h2, rfl⟩
      · exact .point h1
      · exact .exponent h1 h2
    | delimiters h1 _ h2 => exact (noDelims (number_tidy hs (number_iff.1 h1).2.1) h2).elim
    | unit h1 h2 _ _ h5 =>
      exact (noUnitMistake (tidy_spacesEnd (number_tidy hs (number_iff.1 h1).2.1) (afterDelims_iff.1 h2)).1 h5).elim
    | connection h1 h2 _ _ h5 =>
      exact (noConnection (tidy_spacesEnd (number_tidy hs (number_iff.1 h1).2.1) (afterDelims_iff.1 h2)).1 h5).elim
    | infinity h => exact absurd h infinity_off
    | keyword _ h => cases h
    | unitWord _ _ _ h => exact (noUnitMistake hs h).elim
    | numeral h1 _ h2 h3 =>
      obtain ⟨k1, k2, k3⟩ := wordStart_iff.1 h1
      have h2 := noUnit_iff.1 (h2 rfl)
      cases h3 with
      | delimiters h => obtain ⟨_, _, h, -⟩ := h; cases h
      | unit h => obtain ⟨_, _, h, -⟩ := h; cases h
      | noUnit h => obtain ⟨_, _, h, -⟩ := h; cases h
      | noNumeral => exact .noUnit k1 k2 k3 h2
  · intro h
    cases h with
    | point h => exact .number (numberMistake_iff.2 (Or.inl ⟨_, rfl, h, rfl⟩))
    | exponent h1 h2 => exact .number (numberMistake_iff.2 (Or.inr ⟨_, _, _, h1, h2, rfl⟩))
    | noUnit h1 h2 h3 h4 =>
      refine .numeral (wordStart_iff.2 ⟨h1, h2, h3⟩) (fun k hk => by cases hk) (fun _ => noUnit_iff.2 h4) (.noNumeral ?_)
      rintro ⟨_, _, _, _, h, -⟩
      cases h

theorem signMistake_iff {s : Bytes} {f : Fault} : SignMistake (conf u) s f ↔ ∃ b, s = [b] ∧ SignByte b ∧ f = .syntax [] .signWithoutNumber := by
  constructor
  · intro h
    cases h with
    | noNumber h => exact ⟨_, rfl, h, rfl⟩
    | delimiters _ h _ => exact absurd h (by show ¬ false = true; decide)
  · rintro ⟨b, rfl, h, rfl⟩
    exact .noNumber h

theorem mistake_ne {s : Bytes} {f : Fault} (h : SpanMistake (documentedOf n) s f) : s ≠ [] := by
  cases h with
  | point => simp
  | exponent h _ => exact number_ne h
  | noUnit h _ _ _ => exact h

theorem first_spans {len : Nat} (hu : DefaultLength u len) {s : Bytes} {f : Fault} (hs : Tidy s)
    (h : FirstMistake (conf u) (tableOf n) none none s f) : SpansMistake (documentedOf n) len s f := by
  induction h with
  | empty => exact .empty
  | sign h => obtain ⟨b, rfl, hb, rfl⟩ := signMistake_iff.1 h; exact .sign hb
  | text h1 h2 =>
    have h1 := (signPart_iff.1 h1).1
    exact .span h1 ((multiMistake_iff (sign_tidy hs h1)).1 h2)
  | @negative s neg r item rest d h1 h2 h3 h4 _ =>
    have h1 := (signPart_iff.1 h1).1
    obtain ⟨W, F, l, k1, k2⟩ := multi_span hu h2
    have hv := (k2 _ _).1 h3
    obtain ⟨hn, hg⟩ := hv.2.2.1 h4
    subst hn
    exact .negative h1 k1 hg
  | later h1 h2 h3 h4 _ ih =>
    have h1 := (signPart_iff.1 h1).1
    obtain ⟨W, F, l, k1, k2⟩ := multi_span hu h2
    have hv := (k2 _ _).1 h4.1
    exact .later h1 k1 ((accepted_iff hv).1 (h4.2.resolve_left allow_off)) h3 (ih (span_tidy (sign_tidy hs h1) k1))

theorem spans_first {len : Nat} (hu : DefaultLength u len) {s : Bytes} {f : Fault} (hs : Tidy s)
    (h : SpansMistake (documentedOf n) len s f) : FirstMistake (conf u) (tableOf n) none none s f := by
  induction h with
  | empty => exact .empty
  | sign h => exact .sign (signMistake_iff.2 ⟨_, rfl, h, rfl⟩)
  | span h1 h2 => exact .text (signPart_iff.2 ⟨h1, mistake_ne h2⟩) ((multiMistake_iff (sign_tidy hs h1)).2 h2)
  | @negative s r W F l rest h1 h2 h3 =>
    obtain ⟨item, k1, k2⟩ := span_multi hu (sign_tidy hs h1) h2
    obtain ⟨v, id, hv⟩ := span_length hu h2
    obtain ⟨d, hd⟩ := spanValue_exists v id _ hv true W F
    exact .negative (signPart_iff.2 ⟨h1, span_ne h2⟩) k1 ((k2 _ _).2 hd) (hd.2.2.2 ⟨rfl, h3⟩) rfl
  | @later s neg r W F l rest f h1 h2 h3 h4 _ ih =>
    have hr := sign_tidy hs h1
    obtain ⟨item, k1, k2⟩ := span_multi hu hr h2
    obtain ⟨v, id, hv⟩ := span_length hu h2
    obtain ⟨d, hd⟩ := spanValue_exists v id _ hv neg W F
    exact .later (signPart_iff.2 ⟨h1, span_ne h2⟩) k1 h4 ⟨(k2 _ _).2 hd, Or.inr ((accepted_iff hd).2 h3)⟩ (ih (span_tidy hr h2))

end Fundu.SystemdSpans
