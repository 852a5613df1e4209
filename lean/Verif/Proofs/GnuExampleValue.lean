import Verif.Proofs.GnuExample
/-! # The parser of the example gnu.rs: parts and their values -/
namespace Fundu.GnuExample
open Fundu Fundu.Spec Fundu.Props Fundu.Gnu

theorem literal_whole (W : Bytes) : literalValue W [] (0 + 0) = (decimal W : ℚ) := by
  unfold literalValue
  simp [decimal]

theorem truncated_whole (W : Bytes) (c : ℤ) : truncatedNanos (decimal W : ℚ) c = ((decimal W * 10 ^ 9 : ℕ) : ℤ) * (c.natAbs : ℤ) := by
  have h := truncatedNanos_nat (decimal W : ℚ) c (decimal W * 10 ^ 18) (by
    unfold attos
    have : ((decimal W : ℚ) * 10 ^ 18) = ((decimal W * 10 ^ 18 : ℕ) : ℚ) := by push_cast; ring
    rw [this, Int.floor_natCast])
  rw [h]
  have e : decimal W * 10 ^ 18 * c.natAbs = (decimal W * 10 ^ 9 * c.natAbs) * 10 ^ 9 := by ring
  first
    | (rw [e]; push_cast; rw [Int.mul_ediv_cancel _ (by norm_num)])
    | (rw [e, Nat.mul_div_cancel _ (by norm_num)]; push_cast; ring)

/-- whole units -/
theorem value_whole {neg : Bool} {W : Bytes} {c : Int} {d : Duration} (h : Value neg W [] 0 ⟨c, 0⟩ d) :
    nanos d = clamp (sg neg * c * decimal W * 10 ^ 9) := by
  have h2 := h.2.1
  dsimp only at h2
  rw [literal_whole, truncated_whole] at h2
  rw [h2]
  by_cases hc : c = 0
  · subst hc
    have : (0 : Int) ≤ maxNanos := by decide
    simp [clamp_zero, this]
  · have := sign_mul neg c (decimal W * 10 ^ 9) hc
    have e : sg neg * c * decimal W * 10 ^ 9 = sg neg * c * ((decimal W * 10 ^ 9 : ℕ) : ℤ) := by push_cast; ring
    rw [e, ← this]
    congr 1
    unfold literalSign
    by_cases hc' : c < 0
    · cases neg <;> simp [hc']
    · cases neg <;> simp [hc']

theorem clamp_huge (n K M : Int) (hM : 0 ≤ M) (hK : M ≤ (2 ^ 63 - 1) * K) (hK0 : 0 ≤ K) :
    max (-M) (min M (clampI64 n * K)) = max (-M) (min M (n * K)) := by
  rcases lt_or_ge n (-2 ^ 63) with h | h
  · have e : clampI64 n = -2 ^ 63 := by unfold clampI64; omega
    rw [e]
    have h1 : -2 ^ 63 * K ≤ -M := by nlinarith
    have h2 : n * K ≤ -2 ^ 63 * K := by nlinarith
    generalize n * K = x at *
    omega
  · rcases lt_or_ge (2 ^ 63 - 1) n with h' | h'
    · have e : clampI64 n = 2 ^ 63 - 1 := by unfold clampI64; omega
      rw [e]
      have h2 : (2 ^ 63 - 1) * K ≤ n * K := by nlinarith
      generalize n * K = x at *
      omega
    · have e : clampI64 n = n := by unfold clampI64; omega
      rw [e]

theorem clamp_months (n : Int) : clamp (clampI64 n * 2629800 * 10 ^ 9) = clamp (n * 2629800 * 10 ^ 9) := by
  rw [mul_assoc, mul_assoc]
  exact clamp_huge n _ maxNanos (by decide) (by decide +kernel) (by decide)

theorem clamp_years (n : Int) : clamp (clampI64 n * 31557600 * 10 ^ 9) = clamp (n * 31557600 * 10 ^ 9) := by
  rw [mul_assoc, mul_assoc]
  exact clamp_huge n _ maxNanos (by decide) (by decide +kernel) (by decide)

theorem average_amount (t : TimeUnit) (n : Int) : averageNanos (amount t n) = clamp (n * t.multiplier.coefficient * 10 ^ 9) := by
  unfold amount
  by_cases h1 : t = .month
  · subst h1; rw [if_pos rfl]; exact clamp_months n
  · rw [if_neg h1]
    by_cases h2 : t = .year
    · subst h2; rw [if_pos rfl]; exact clamp_years n
    · rw [if_neg h2]; rfl

theorem unit_product {u : TimeUnit × Multiplier} (h : UnitOk u) :
    product u.1.multiplier u.2 = ⟨u.1.multiplier.coefficient * u.2.coefficient, 0⟩ := by
  obtain ⟨t, m⟩ := u
  obtain ⟨h1, h2, -⟩ := h
  unfold product
  dsimp only at *
  rw [h2]
  have : ∀ t ∈ [TimeUnit.second, .minute, .hour, .day, .week, .month, .year], t.multiplier.exponent = 0 := by decide
  rw [this t h1]
  rfl

/-- items without fraction -/
def Whole : Item → Prop
  | .number _ F _ _ => F = []
  | _ => True

/-- the value of an item is the length of its part -/
theorem item_value {c : Config} (hd : c.defaultUnit = .second) {neg : Bool} {item : Item} (ho : ItemOk item) (hw : Whole item) {d : Duration}
    (h : Denotes c neg item d) : ∃ part, partOf neg false item = some part ∧ nanos d = averageNanos part := by
  cases h with
  | number h =>
    obtain ⟨rfl, -⟩ := ho
    cases hw
    rw [hd] at h
    refine ⟨_, rfl, ?_⟩
    simp only [Option.getD_none]
    rw [average_amount, value_whole (c := 1) h]
    congr 1
    have : TimeUnit.second.multiplier.coefficient = 1 := rfl
    rw [this, mul_one (_ * _)]
  | numberUnit hf h =>
    obtain ⟨rfl, hu⟩ := ho
    cases hw
    have hu := (hu _ rfl).1
    rw [unit_product hu] at h
    refine ⟨_, rfl, ?_⟩
    simp only [Option.getD_some]
    rw [average_amount, value_whole h]
    congr 1
    dsimp only
    ring
  | infinity => exact ho.elim
  | word hf h =>
    rw [unit_product ho] at h
    refine ⟨_, rfl, ?_⟩
    rw [average_amount, value_whole (neg := neg) (by simpa using h)]
    congr 1
    have : (decimal (b! "1") : ℤ) = 1 := by decide
    dsimp only
    rw [this]
    ring
  | numeral hq hf h =>
    obtain ⟨h1, h2, h3⟩ := ho
    rename_i q u m
    have e : product (product q u.multiplier) m = ⟨q.coefficient * (u.multiplier.coefficient * m.coefficient), 0⟩ := by
      have := unit_product h3
      unfold product at *
      dsimp only at *
      injection this with _ this
      rw [h1, zero_add, this, mul_assoc]
    rw [e] at h
    refine ⟨_, rfl, ?_⟩
    rw [average_amount, value_whole (neg := neg) (by simpa using h)]
    congr 1
    have : (decimal (b! "1") : ℤ) = 1 := by decide
    dsimp only
    rw [this]
    ring

theorem number_example {s W F rest : Bytes} {e : Int} (h : NumberText cfg s W F e rest) : F = [] ∧ L.point s = false := by
  obtain ⟨r1, r2, h1, h2, h3⟩ := h
  cases h2 with
  | absent g1 g2 => exact ⟨rfl, by rw [← Bool.not_eq_true, point_of_split h1]; exact g2⟩
  | present g1 => exact absurd g1 (by decide)

theorem multi_example {s rest : Bytes} {item : Item} {neg : Bool}
    (h : MultiText cfg units exampleGnuKeywords none s item rest) : Whole item ∧ partOf neg (L.point s) item = partOf neg false item := by
  cases h with
  | numberEnd h => obtain ⟨rfl, hp⟩ := number_example h; rw [hp]; exact ⟨rfl, rfl⟩
  | numberUnit h => obtain ⟨rfl, hp⟩ := number_example h; rw [hp]; exact ⟨rfl, rfl⟩
  | number h => obtain ⟨rfl, hp⟩ := number_example h; rw [hp]; exact ⟨rfl, rfl⟩
  | inf => exact ⟨trivial, rfl⟩
  | infinity => exact ⟨trivial, rfl⟩
  | keyword => exact ⟨trivial, rfl⟩
  | unit => exact ⟨trivial, rfl⟩
  | numeral => exact ⟨trivial, rfl⟩

/-- one part -/
theorem step_example {s r rest : Bytes} {neg : Bool} {item : Item} {d : Duration} (h1 : SignPart cfg s neg r)
    (h2 : MultiText cfg units exampleGnuKeywords none r item rest)
    (hb : rest = [] ∨ Begins cfg units exampleGnuKeywords none rest) (hd : Denotes cfg neg item d) :
    ∃ part, GnuSign s neg r ∧ GnuText neg r part rest ∧ nanos d = averageNanos part := by
  have hdel := compatible.delimiters
  have ho := orderly_example.more units_more
  have w : ∀ {s item rest}, MultiText cfg units exampleGnuKeywords none s item rest →
      MultiText cfg units (some TIME_KEYWORDS) (some NUMERALS) s item rest := fun h => words_multi hdel keywords_more numerals_more ho h
  have h3 : Multi r item rest := more_multi allows_more compatible units_more orderly_example (w h2)
    (hb.imp id fun ⟨n, r', i, t, k1, k2⟩ => ⟨n, r', i, t, k1, w k2⟩)
  have h4 : SignPart CONFIG s neg r := more_sign allows_more h1
    fun k => multi_start ho (w h2) (startsWith_mono (fun _ => Or.inl) k)
  obtain ⟨k1, k2⟩ := multi_example (neg := neg) h2
  obtain ⟨part, g1, g2⟩ := item_value rfl (multi_ok h3) k1 hd
  exact ⟨part, (sign_gnu.1 h4).1, multi_gnu h3 (k2.trans g1), g2⟩

/-- all parts -/
theorem parts_example {s : Bytes} {items : List (Bool × Item)} (h : Durations cfg units exampleGnuKeywords none s items) {ds : List Duration}
    (hd : List.Forall₂ (fun i d => Denotes cfg i.1 i.2 d) items ds) :
    ∃ l, RelativeTime s l ∧ ds.map nanos = l.map averageNanos := by
  induction h generalizing ds with
  | last h1 h2 =>
    cases hd with
    | cons k1 k2 =>
      cases k2
      obtain ⟨part, g1, g2, g3⟩ := step_example h1 h2 (Or.inl rfl) k1
      exact ⟨[part], .last g1 g2, by simp [g3]⟩
  | more h1 h2 h3 h4 ih =>
    cases hd with
    | cons k1 k2 =>
      obtain ⟨part, g1, g2, g3⟩ := step_example h1 h2 (Or.inr (durations_begins h4)) k1
      obtain ⟨l, g4, g5⟩ := ih k2
      exact ⟨part :: l, .more g1 g2 g4, by simp [g3, g5]⟩

end Fundu.GnuExample
