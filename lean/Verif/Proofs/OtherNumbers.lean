import Verif.Proofs.Renumbered
import Verif.Props.Operators
import Verif.Props.Literal
import Verif.Props.Words
/-! # Texts with other numbers -/
namespace Fundu.Renumbered
open Fundu Fundu.Spec Fundu.Props

variable {R : ℚ → ℚ → Prop} {cfg : Config} {f : Bool}

theorem literalValue_exponent (W F : Bytes) (e k : Int) : literalValue W F (e + k) = literalValue W F e * 10 ^ k := by
  unfold literalValue
  rw [zpow_add₀ (by norm_num), ← mul_assoc]

theorem literalSign_cases (neg : Bool) (c : Int) : literalSign neg c = 1 ∨ literalSign neg c = -1 := by
  unfold literalSign
  cases neg <;> by_cases h : c < 0 <;> simp [h]

theorem value_smaller {neg : Bool} {W F W' F' : Bytes} {e e' : Int} {m : Multiplier} {d : Duration}
    (h : literalValue W' F' e' ≤ literalValue W F e) (hv : Value neg W F e m d) :
    ∃ d', Value neg W' F' e' m d' ∧ (d'.isNegative = true → d.isNegative = true) ∧ |nanos d'| ≤ |nanos d| ∧
      (d.isNegative = false → nanos d' ≤ nanos d) := by
  obtain ⟨d', hv'⟩ := value_exists neg W' F' e' m
  have key : literalValue W' F' (e' + m.exponent) ≤ literalValue W F (e + m.exponent) := by
    rw [literalValue_exponent, literalValue_exponent]
    exact mul_le_mul_of_nonneg_right h (zpow_nonneg (by norm_num) _)
  have mono := truncatedNanos_mono key m.coefficient
  have pos := truncatedNanos_nonneg (literalValue_nonneg W' F' (e' + m.exponent)) m.coefficient
  have hmax : 0 < maxNanos := by decide
  have e1 := hv.2.1
  have e2 := hv'.2.1
  generalize truncatedNanos (literalValue W F (e + m.exponent)) m.coefficient = a at *
  generalize truncatedNanos (literalValue W' F' (e' + m.exponent)) m.coefficient = b at *
  refine ⟨d', hv', fun g => ?_, ?_, fun g => ?_⟩
  · obtain ⟨g1, g2⟩ := hv'.2.2.1 g
    exact hv.2.2.2 ⟨g1.trans key, g2⟩
  · rw [e1, e2]
    rcases literalSign_cases neg m.coefficient with k | k <;> rw [k]
    · rw [one_mul, one_mul, abs_of_nonneg (by omega), abs_of_nonneg (by omega)]
      omega
    · rw [abs_mul, abs_mul]
      rw [abs_of_nonneg (a := min maxNanos a) (by omega), abs_of_nonneg (a := min maxNanos b) (by omega)]
      exact mul_le_mul_of_nonneg_left (by omega) (abs_nonneg _)
  · have := positive_nanos g
    rcases literalSign_cases neg m.coefficient with k | k <;> rw [k] at e1 e2 <;> omega

/-- the smaller number is accepted too, and the duration is not longer -/
theorem accepted_smaller {neg : Bool} {i j : Item} {d : Duration} (h : SameItem (fun a b => b ≤ a) i j) (ha : Accepted cfg neg i d) :
    ∃ d', Accepted cfg neg j d' ∧ |nanos d'| ≤ |nanos d| ∧ (cfg.allowNegative = false → nanos d' ≤ nanos d) := by
  have fin : ∀ {d'}, (d'.isNegative = true → d.isNegative = true) → |nanos d'| ≤ |nanos d| → (d.isNegative = false → nanos d' ≤ nanos d) →
      (cfg.allowNegative = true ∨ d'.isNegative = false) ∧ |nanos d'| ≤ |nanos d| ∧ (cfg.allowNegative = false → nanos d' ≤ nanos d) := by
    intro d' h1 h2 h3
    refine ⟨?_, h2, fun g => h3 (ha.2.resolve_left (by rw [g]; decide))⟩
    rcases ha.2 with g | g
    · exact Or.inl g
    · refine Or.inr (Bool.eq_false_iff.2 fun k => ?_)
      rw [h1 k] at g
      cases g
  cases h with
  | refl => exact ⟨d, ha, le_refl _, fun _ => le_refl _⟩
  | number hv =>
    cases ha.1 with
    | number g =>
      obtain ⟨d', k1, k2, k3, k4⟩ := value_smaller hv g
      obtain ⟨q1, q2⟩ := fin k2 k3 k4
      exact ⟨d', ⟨.number k1, q1⟩, q2⟩
    | numberUnit g1 g2 =>
      obtain ⟨d', k1, k2, k3, k4⟩ := value_smaller hv g2
      obtain ⟨q1, q2⟩ := fin k2 k3 k4
      exact ⟨d', ⟨.numberUnit g1 k1, q1⟩, q2⟩

/-- if negative durations are allowed then the number does not matter -/
theorem accepted_any (hneg : cfg.allowNegative = true) {neg : Bool} {i j : Item} {d : Duration} (h : SameItem R i j) (ha : Accepted cfg neg i d) :
    ∃ d', Accepted cfg neg j d' ∧ True := by
  cases h with
  | refl => exact ⟨d, ha, trivial⟩
  | @number _ _ _ W' F' e' u =>
    cases ha.1 with
    | number g =>
      obtain ⟨d', k⟩ := value_exists neg W' F' e' cfg.defaultUnit.multiplier
      exact ⟨d', ⟨.number k, Or.inl hneg⟩, trivial⟩
    | @numberUnit _ _ _ u m _ g1 g2 =>
      obtain ⟨d', k⟩ := value_exists neg W' F' e' (product u.multiplier m)
      exact ⟨d', ⟨.numberUnit g1 k, Or.inl hneg⟩, trivial⟩

section
variable {units : TimeUnitsLike} {keywords : Option TimeUnitsLike} {numerals : Option NumbersLike}
variable (ho : Orderly cfg units keywords numerals) (hn : NoPoints cfg units keywords numerals)
variable {P : Duration → Duration → Prop}
  (hP : ∀ {neg : Bool} {i j : Item} {d : Duration}, SameItem R i j → Accepted cfg neg i d → ∃ d', Accepted cfg neg j d' ∧ P d d')
include ho hn hP

theorem denotesSingle_rel {s t : Bytes} {d : Duration} (h : DenotesSingle cfg units keywords numerals s d)
    (hr : Renumbered R cfg f s t) : ∃ d', DenotesSingle cfg units keywords numerals t d' ∧ P d d' := by
  obtain ⟨neg, r, item, g1, g2, g3⟩ := h
  obtain ⟨t1, f1, k1, hr1⟩ := sign ho g1 hr
  obtain ⟨j, k2, kj⟩ := single ho hn g2 hr1
  obtain ⟨d', q1, q2⟩ := hP kj g3
  exact ⟨d', ⟨neg, t1, j, k1, k2, q1⟩, q2⟩

theorem denotesMultiple_rel {s t : Bytes} {l : List Duration} (h : DenotesMultiple cfg units keywords numerals s l)
    (hr : Renumbered R cfg f s t) : ∃ l', DenotesMultiple cfg units keywords numerals t l' ∧ List.Forall₂ P l l' := by
  obtain ⟨items, g1, g2⟩ := h
  obtain ⟨items', k1, k2⟩ := durations ho hn g1 hr
  have : ∃ l', List.Forall₂ (fun (i : Bool × Item) d => Accepted cfg i.1 i.2 d) items' l' ∧ List.Forall₂ P l l' := by
    clear g1 k1
    induction k2 generalizing l with
    | nil => cases g2; exact ⟨[], .nil, .nil⟩
    | cons h _ ih =>
      cases g2 with
      | cons a b =>
        rw [h.1] at a
        obtain ⟨d', q1, q2⟩ := hP h.2 a
        obtain ⟨l', q3, q4⟩ := ih b
        exact ⟨d' :: l', .cons q1 q3, .cons q2 q4⟩
  obtain ⟨l', q1, q2⟩ := this
  exact ⟨l', ⟨items', k1, q1⟩, q2⟩

end

theorem clamp_mono {a b : Int} (h : a ≤ b) : clamp a ≤ clamp b := by
  unfold clamp; omega

theorem saturatingSum_mono {l l' : List Int} (h : List.Forall₂ (· ≤ ·) l l') : saturatingSum l ≤ saturatingSum l' := by
  have key : ∀ a b : Int, a ≤ b → l.foldl (fun acc x => clamp (acc + x)) a ≤ l'.foldl (fun acc x => clamp (acc + x)) b := by
    induction h with
    | nil => exact fun a b h => h
    | cons h _ ih => exact fun a b hab => ih _ _ (clamp_mono (by omega))
  exact key 0 0 (le_refl 0)

end Fundu.Renumbered
