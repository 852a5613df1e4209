import Verif.Props.Grammar
import Verif.Props.Options
import Verif.Proofs.Spans
import Verif.Spec.Errors
/-!
# C28 for several durations: delimiters which are not allowed
-/
namespace Fundu.Props
open Fundu Fundu.Spec

section
variable (cfg : Config) (units : TimeUnitsLike) (keywords : Option TimeUnitsLike) (numerals : Option NumbersLike)

/-- a word in front of a text which begins with `b` begins with `b` -/
private theorem wordIn_starts {stop : UInt8 → Prop} {table : TimeUnitsLike} {p : UInt8 → Prop} {b : UInt8} {l : Bytes} {u : TimeUnit × Multiplier}
    {rest : Bytes} (hb : p b) (h : WordIn stop table (b :: l) u rest) : ∃ w, StartsWith p w ∧ table.get w = some u := by
  obtain ⟨w, ⟨h1, -, -⟩, h2, h3⟩ := h
  cases w with
  | nil => exact absurd rfl h2
  | cons c w =>
    injection h1 with e _
    subst e
    exact ⟨_, ⟨b, w, rfl, hb⟩, h3⟩

/-- C28: without `allow_time_unit_delimiter` a number which is followed by a delimiter has no unit, also if several durations are allowed: every reading
of the text begins with the number alone (if no unit of the table starts with a delimiter). -/
theorem C28_unit_delimiter_multiple (s : Bytes) (ha : cfg.allowTimeUnitDelimiter = false)
    (hu : ∀ id, StartsWith (cfg.innerDelimiter · = true) id → units.get id = none) {neg : Bool} {r W F t : Bytes}
    {e : Int} (h1 : SignPart cfg s neg r) (h2 : NumberText cfg r W F e t) (h3 : StartsWith (cfg.innerDelimiter · = true) t)
    (items : List (Bool × Item)) (h : Durations cfg units keywords numerals s items) :
    ∃ rest l, Connection cfg t rest ∧ items = (neg, .number W F e none) :: l ∧
      (rest = [] ∧ l = [] ∨ Durations cfg units keywords numerals rest l) := by
  have key : ∀ {item rest}, MultiText cfg units keywords numerals r item rest → item = .number W F e none ∧ Connection cfg t rest := by
    intro item rest g
    cases g with
    | numberEnd g =>
      obtain ⟨-, -, -, rfl⟩ := numberText_unique h2 g
      obtain ⟨_, _, g, _⟩ := h3; cases g
    | numberUnit g g' _ g'' =>
      obtain ⟨-, -, -, rfl⟩ := numberText_unique h2 g
      unfold AfterDelims at g'
      rw [ha] at g'
      simp only [Bool.false_eq_true, if_false] at g'
      subst g'
      cases g'' with
      | mk k _ _ =>
        obtain ⟨b, l, rfl, hb⟩ := h3
        obtain ⟨w, k1, k2⟩ := wordIn_starts (p := (cfg.innerDelimiter · = true)) hb k
        rw [hu _ k1] at k2
        cases k2
    | number g g' _ _ g'' =>
      obtain ⟨rfl, rfl, rfl, rfl⟩ := numberText_unique h2 g
      unfold AfterDelims at g'
      rw [ha] at g'
      simp only [Bool.false_eq_true, if_false] at g'
      subst g'
      exact ⟨rfl, g''⟩
    | inf _ g _ _ => exact absurd h2 (afterInf_not_number g)
    | infinity _ g _ _ _ _ => exact absurd h2 (afterInf_not_number g)
    | keyword g _ _ _ => exact absurd h2 (wordStart_not_number g)
    | unit g _ _ _ => exact absurd h2 (wordStart_not_number g)
    | numeral g _ _ _ _ _ _ _ _ _ => exact absurd h2 (wordStart_not_number g)
  cases h with
  | last k1 k2 =>
    obtain ⟨rfl, rfl⟩ := signPart_unique h1 k1
    obtain ⟨rfl, k⟩ := key k2
    exact ⟨[], [], k, rfl, Or.inl ⟨rfl, rfl⟩⟩
  | more k1 k2 _ k3 =>
    obtain ⟨rfl, rfl⟩ := signPart_unique h1 k1
    obtain ⟨rfl, k⟩ := key k2
    exact ⟨_, _, k, rfl, Or.inr k3⟩

/-- the letter `i` -/
private theorem afterInf_head {b : UInt8} {l t : Bytes} (h : AfterWord (b! "inf") (b :: l) t) : b = 105 ∨ b = 73 := by
  obtain ⟨x, hx, hs⟩ := h
  cases x with
  | nil => cases hs
  | cons c x =>
    injection hx with e _
    subst e
    have hl : lower b = 105 := by
      unfold SameText at hs
      rw [List.map_cons] at hs
      injection hs
    unfold lower at hl
    split at hl
    · refine Or.inr ?_
      have e := congrArg UInt8.toNat hl
      rw [UInt8.toNat_add] at e
      apply UInt8.toNat.inj
      show b.toNat = 73
      have e2 : (105 : UInt8).toNat = 105 := rfl
      have e3 : (32 : UInt8).toNat = 32 := rfl
      omega
    · exact Or.inl hl

/-- C28: so a word after a number and a delimiter is rejected without `allow_time_unit_delimiter`, if words can't stand alone (numbers aren't
optional, there are no keywords and numerals) and it isn't a conjunction. -/
theorem C28_unit_delimiter_rejected (s : Bytes) (d : Duration) (hs : IsText s) (hc : CfgText cfg) (hm : cfg.allowMultiple = true)
    (ha : cfg.allowTimeUnitDelimiter = false) (ho : cfg.numberIsOptional = false) (hj : cfg.conjunctions.getD [] = [])
    (hu : ∀ id, StartsWith (cfg.innerDelimiter · = true) id → units.get id = none)
    {neg : Bool} {r W F t ds l : Bytes} {e : Int} {b : UInt8} (h1 : SignPart cfg s neg r) (h2 : NumberText cfg r W F e t)
    (h3 : StartsWith (cfg.innerDelimiter · = true) t) (h4 : Split (cfg.outerDelimiter · = true) t ds (b :: l)) (h5 : ds ≠ [])
    (hb : ¬ NextDuration b ∧ b ≠ 46 ∧ b ≠ 105 ∧ b ≠ 73) : parse cfg units none none s ≠ .ok d := by
  intro h
  obtain ⟨ds', ⟨items, k, -⟩, -⟩ := (C27_multiple cfg units none none s (nanos d) hs hc hm (Or.inr ⟨rfl, rfl⟩)).1
    ⟨d, h, parse_wf hs hc h, rfl⟩
  obtain ⟨rest, l', g1, -, g3⟩ := C28_unit_delimiter_multiple cfg units none none s ha hu h1 h2 h3 items k
  have hstart : StartsWith (cfg.outerDelimiter · = true) t := by
    obtain ⟨rfl, g, -⟩ := h4
    cases ds with
    | nil => exact absurd rfl h5
    | cons c ds => exact ⟨c, _, rfl, g c (by simp)⟩
  have hrest : rest = b :: l := by
    cases g1 with
    | absent g => exact absurd hstart g
    | delims g _ _ _ => exact (split_unique g h4).2
    | conjunction _ _ g _ _ _ _ _ =>
      rw [hj] at g
      have := congrArg List.length g
      simp at this
  subst hrest
  rcases g3 with ⟨g3, -⟩ | g3
  · cases g3
  have hdig : ¬ IsDigit b := fun h => hb.1 (Or.inl h)
  have hsig : ¬ SignByte b := fun h => hb.1 (Or.inr h)
  have hnosign : ∀ {neg x}, SignPart cfg (b :: l) neg x → x = b :: l := by
    intro neg x g
    cases g with
    | absent _ _ => rfl
    | plus _ _ => exact absurd (Or.inl rfl) hsig
    | minus _ _ => exact absurd (Or.inr rfl) hsig
  have hnum : ∀ {W F : Bytes} {e : Int} {x : Bytes}, ¬ NumberText cfg (b :: l) W F e x := by
    intro W F e x g
    rcases numberText_head g with ⟨_, _, g1, g2⟩ | ⟨_, _, g1, g2⟩ <;> cases g1
    · exact hdig g2
    · exact hb.2.1 g2
  have hno : ∀ {item rest}, ¬ MultiText cfg units none none (b :: l) item rest := by
    intro item rest g
    cases g with
    | numberEnd g => exact hnum g
    | numberUnit g _ _ _ => exact hnum g
    | number g _ _ _ _ => exact hnum g
    | inf _ g _ _ => rcases afterInf_head g with g | g <;> simp_all
    | infinity _ g _ _ _ _ => rcases afterInf_head g with g | g <;> simp_all
    | keyword _ g _ _ => cases g
    | unit _ _ g _ => rw [ho] at g; cases g
    | numeral _ _ _ g _ _ _ _ _ _ => cases g
  cases g3 with
  | last k1 k2 => obtain rfl := hnosign k1; exact hno k2
  | more k1 k2 _ _ => obtain rfl := hnosign k1; exact hno k2

/-- C28: without `allow_sign_delimiter` no delimiter is accepted after the sign of the first of several durations. -/
theorem C28_sign_delimiter_multiple (sign b : UInt8) (l : Bytes) (ha : cfg.allowSignDelimiter = false) (hsign : sign = 43 ∨ sign = 45)
    (hb : cfg.innerDelimiter b = true) (hb' : ¬ IsDigit b ∧ b ≠ 46 ∧ b ≠ 105 ∧ b ≠ 73)
    (hu : ∀ id, StartsWith (cfg.innerDelimiter · = true) id → units.get id = none)
    (hk : ∀ k, keywords = some k → ∀ id, StartsWith (cfg.innerDelimiter · = true) id → k.get id = none) (items : List (Bool × Item)) :
    ¬ Durations cfg units keywords numerals (sign :: b :: l) items := by
  have hr : ∀ {neg r}, SignPart cfg (sign :: b :: l) neg r → r = b :: l := by
    intro neg r k1
    cases k1 with
    | absent _ g => exact absurd ⟨sign, _, rfl, hsign⟩ g
    | plus g _ => unfold AfterDelims at g; rw [ha] at g; exact g
    | minus g _ => unfold AfterDelims at g; rw [ha] at g; exact g
  have hnum : ∀ {W F : Bytes} {e : Int} {x : Bytes}, ¬ NumberText cfg (b :: l) W F e x := by
    intro W F e x g
    rcases numberText_head g with ⟨_, _, g1, g2⟩ | ⟨_, _, g1, g2⟩ <;> cases g1
    · exact hb'.1 g2
    · exact hb'.2.1 g2
  have hunit : ∀ {u rest}, ¬ UnitMulti cfg units (b :: l) u rest := by
    intro u rest g
    cases g with
    | mk g _ _ =>
      obtain ⟨w, k1, k2⟩ := wordIn_starts (p := (cfg.innerDelimiter · = true)) hb g
      rw [hu _ k1] at k2
      cases k2
  have hno : ∀ {item rest}, ¬ MultiText cfg units keywords numerals (b :: l) item rest := by
    intro item rest g
    cases g with
    | numberEnd g => exact hnum g
    | numberUnit g _ _ _ => exact hnum g
    | number g _ _ _ _ => exact hnum g
    | inf _ g _ _ => rcases afterInf_head g with g | g <;> simp_all
    | infinity _ g _ _ _ _ => rcases afterInf_head g with g | g <;> simp_all
    | keyword _ g1 g2 _ =>
      obtain ⟨w, k1, k2⟩ := wordIn_starts (p := (cfg.innerDelimiter · = true)) hb g2
      rw [hk _ g1 _ k1] at k2
      cases k2
    | unit _ _ _ g => exact hunit g
    | numeral _ _ _ _ g1 g2 _ _ _ _ => exact g2 (word_after_delim hb g1)
  intro h
  cases h with
  | last k1 k2 => obtain rfl := hr k1; exact hno k2
  | more k1 k2 _ _ => obtain rfl := hr k1; exact hno k2

/-- C28: so a text which begins with a sign and a delimiter is rejected. -/
theorem C28_sign_delimiter_rejected (sign b : UInt8) (l : Bytes) (d : Duration) (hs : IsText (sign :: b :: l)) (hc : CfgText cfg)
    (hm : cfg.allowMultiple = true)
    (hd : (∀ b, cfg.innerDelimiter b = true → cfg.outerDelimiter b = true) ∨ (keywords = none ∧ numerals = none))
    (ha : cfg.allowSignDelimiter = false) (hsign : sign = 43 ∨ sign = 45)
    (hb : cfg.innerDelimiter b = true) (hb' : ¬ IsDigit b ∧ b ≠ 46 ∧ b ≠ 105 ∧ b ≠ 73)
    (hu : ∀ id, StartsWith (cfg.innerDelimiter · = true) id → units.get id = none)
    (hk : ∀ k, keywords = some k → ∀ id, StartsWith (cfg.innerDelimiter · = true) id → k.get id = none) :
    parse cfg units keywords numerals (sign :: b :: l) ≠ .ok d := by
  intro h
  obtain ⟨ds', ⟨items, k, -⟩, -⟩ := (C27_multiple cfg units keywords numerals _ (nanos d) hs hc hm hd).1
    ⟨d, h, parse_wf hs hc h, rfl⟩
  exact C28_sign_delimiter_multiple cfg units keywords numerals sign b l ha hsign hb hb' hu hk items k

/-- with several durations allowed `1 s` and `+ 1s` are rejected, `1s`, `1 2s`, `+1s` aren't; with `number_is_optional` the text `1 s` has two
durations -/
example :
    (parse { singleConfig with allowMultiple := true, allowTimeUnitDelimiter := false, numberIsOptional := false } exampleUnits none none (b! "1 s")).toOption = none ∧
    (parse { singleConfig with allowMultiple := true, allowSignDelimiter := false } exampleUnits none none (b! "+ 1s")).toOption = none ∧
    parse { singleConfig with allowMultiple := true, allowTimeUnitDelimiter := false, numberIsOptional := false } exampleUnits none none (b! "1 2s") = .ok ⟨false, ⟨3, 0⟩⟩ ∧
    parse { singleConfig with allowMultiple := true, allowSignDelimiter := false } exampleUnits none none (b! "+1s") = .ok ⟨false, ⟨1, 0⟩⟩ ∧
    parse { singleConfig with allowMultiple := true, allowTimeUnitDelimiter := false, numberIsOptional := true } exampleUnits none none
      (b! "1 s") = .ok ⟨false, ⟨2, 0⟩⟩ := by decide +kernel
end
end Fundu.Props
