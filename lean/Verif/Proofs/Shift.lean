import Verif.Proofs.Number
/-! # Shifting by the exponent -/
namespace Fundu
open Fundu.Spec

theorem slice_ok {l : Bytes} {a b : Nat} (h1 : a ≤ b) (h2 : b ≤ l.length) :
    slice l a b = .ok ((l.take b).drop a) := if_pos ⟨h1, h2⟩

theorem slice_inv {l r : Bytes} {a b : Nat} (h : slice l a b = .ok r) :
    a ≤ b ∧ b ≤ l.length ∧ r = (l.take b).drop a ∧ r.length = b - a := by
  unfold slice at h
  split at h
  · rename_i hab
    cases h
    exact ⟨hab.1, hab.2, rfl, by simp; omega⟩
  · cases h

theorem slice_split {l r : Bytes} {a b m : Nat} (h : slice l a b = .ok r) (h1 : a ≤ m) (h2 : m ≤ b) :
    slice l a m = .ok (r.take (m - a)) ∧ slice l m b = .ok (r.drop (m - a)) := by
  obtain ⟨hab, hb, hr, _⟩ := slice_inv h
  subst hr
  rw [slice_ok h1 (by omega), slice_ok h2 hb]
  constructor
  · rw [← List.drop_take]
    congr 2
    rw [List.take_take]
    congr 1
    omega
  · congr 1
    rw [List.drop_drop]
    congr 1
    omega

/-- `⌊N * 10^p * 10^18⌋` -/
def attoFloor (N : Nat) (p : Int) : Nat := N * 10 ^ p.toNat * 10 ^ 18 / 10 ^ (-p).toNat

/-- whole seconds and atto seconds, or overflow of the seconds -/
def splitAttos (A : Nat) : Option (Nat × Nat) :=
  if A / 1000000000000000000 ≤ U64_MAX then
    some (A / 1000000000000000000, A % 1000000000000000000) else none

theorem splitAttos_eq (s a A : Nat) (h : A = s * 10 ^ 18 + a) (ha : a < 10 ^ 18) :
    splitAttos A = (checkedU64 s).map (fun s => (s, a)) := by
  have h1 : A / 1000000000000000000 = s := by omega
  have h2 : A % 1000000000000000000 = a := by omega
  unfold splitAttos checkedU64
  rw [h1, h2]
  by_cases hs : s ≤ U64_MAX
  · rw [if_pos hs, if_pos hs]; rfl
  · rw [if_neg hs, if_neg hs]; rfl

theorem floor_split (s d q : Nat) :
    (s * 10 ^ q + d) * 10 ^ 18 / 10 ^ q = s * 10 ^ 18 + d * 10 ^ 18 / 10 ^ q := by
  rw [Nat.add_mul, Nat.mul_right_comm, Nat.mul_comm (s * 10 ^ 18) (10 ^ q),
    Nat.mul_add_div (Nat.pow_pos (by omega))]

theorem frac_lt {d q : Nat} (h : d < 10 ^ q) : d * 10 ^ 18 / 10 ^ q < 10 ^ 18 := by
  rw [Nat.div_lt_iff_lt_mul (Nat.pow_pos (by omega)), Nat.mul_comm (10 ^ 18)]
  exact Nat.mul_lt_mul_of_pos_right h (by norm_num)

namespace DurationRepr

theorem secondsAndAttos_eq (digits W F : Bytes) (whole fract : Option Range) (e : Int)
    (hw : optSlice digits whole = .ok W) (hf : optSlice digits fract = .ok F)
    (hW : AllDigits W) (hF : AllDigits F) :
    secondsAndAttos digits whole fract e
      = .ok (splitAttos (attoFloor (decimal (W ++ F)) (e - F.length))) := by
  have hnil : AllDigits [] := by intro b hb; cases hb
  -- lengths of the ranges
  have lenW : optLen whole = .ok W.length := by
    cases whole with
    | none => simp [optSlice] at hw; subst hw; rfl
    | some r =>
      obtain ⟨h1, h2, h3, h4⟩ := slice_inv hw
      simp [optLen, Range.len, subUsize, h1, h4]
  have lenF : optLen fract = .ok F.length := by
    cases fract with
    | none => simp [optSlice] at hf; subst hf; rfl
    | some r =>
      obtain ⟨h1, h2, h3, h4⟩ := slice_inv hf
      simp [optLen, Range.len, subUsize, h1, h4]
  have longer : ∀ (o : Option Range) (l : Bytes) (n : Nat), optSlice digits o = .ok l →
      (∃ r, o = some r ∧ slice digits r.start r.stop = .ok l ∧ n < l.length ∧ longerThan o n = .ok o) ∨
      (l.length ≤ n ∧ longerThan o n = .ok none) := by
    intro o l n h
    cases o with
    | none => right; simp [optSlice] at h; subst h; exact ⟨by simp, rfl⟩
    | some r =>
      obtain ⟨h1, h2, h3, h4⟩ := slice_inv h
      have : longerThan (some r) n = if n < l.length then .ok (some r) else .ok none := by
        simp only [longerThan, Range.len, subUsize, if_pos h1, ok_bind, h4]
      by_cases hn : n < l.length
      · left; exact ⟨r, rfl, h, hn, by rw [this, if_pos hn]⟩
      · right; exact ⟨by omega, by rw [this, if_neg hn]⟩
  unfold secondsAndAttos
  simp only
  by_cases hneg : e < 0
  · rw [if_pos hneg]
    generalize hn : e.natAbs = n
    have hp : (e - F.length).toNat = 0 := by omega
    have hq : (-(e - F.length)).toNat = n + F.length := by omega
    rcases longer whole W n hw with ⟨w, hw', hsl, hlt, hlong⟩ | ⟨hle, hlong⟩
    · rw [hlong, hw']
      simp only [ok_bind]
      obtain ⟨h1, h2, h3, h4⟩ := slice_inv hsl
      have hcut : subUsize w.stop n = .ok (w.stop - n) := by
        unfold subUsize; rw [if_pos (by omega)]
      obtain ⟨s1, s2⟩ := slice_split hsl (m := w.stop - n) (by omega) (by omega)
      have hk : w.stop - n - w.start = W.length - n := by omega
      rw [hk] at s1 s2
      simp only [hcut, ok_bind, s1]
      rw [Whole.parse_eq _ none none (hW.take _) hnil]
      simp only [ok_bind, Option.getD_none, List.append_nil, Nat.pow_zero, Nat.mul_one]
      have hdrop : (W.drop (W.length - n)).length = n := by simp; omega
      have hdec : decimal (W ++ F) = decimal (W.take (W.length - n)) * 10 ^ (n + F.length)
          + decimal (W.drop (W.length - n) ++ F) := by
        conv_lhs => rw [← List.take_append_drop (W.length - n) W, List.append_assoc]
        rw [decimal_append, List.length_append, hdrop]
      have hlt2 := decimal_lt _ ((hW.drop (W.length - n)).append hF)
      rw [List.length_append, hdrop] at hlt2
      rw [splitAttos_eq (decimal (W.take (W.length - n)))
        (decimal (W.drop (W.length - n) ++ F) * 10 ^ 18 / 10 ^ (n + F.length)) _ ?_ (frac_lt hlt2)]
      · by_cases hov : decimal (W.take (W.length - n)) ≤ U64_MAX
        · rw [checkedU64_some hov]
          simp only [hf, s2, ok_bind]
          rw [Fract.parse_eq _ _ none hF (by simpa using hW.drop _)]
          simp only [Option.getD_none, Option.getD_some, ok_bind, ok_pure, Option.map_some,
            List.length_append, hdrop, Nat.zero_add]
        · rw [checkedU64_none (by omega)]
          rfl
      · unfold attoFloor
        rw [hp, hq, hdec, Nat.pow_zero, Nat.mul_one, floor_split]
    · rw [hlong]
      simp only [ok_bind]
      have hz : subUsize n W.length = .ok (n - W.length) := by
        unfold subUsize; rw [if_pos hle]
      have hlt2 := decimal_lt _ (hW.append hF)
      have hA : attoFloor (decimal (W ++ F)) (e - F.length)
          = decimal (W ++ F) * 10 ^ 18 / 10 ^ (n - W.length + (W ++ F).length) := by
        unfold attoFloor
        rw [hp, hq, Nat.pow_zero, Nat.mul_one, List.length_append]
        congr 2
        omega
      have hlt3 : decimal (W ++ F) < 10 ^ (n - W.length + (W ++ F).length) :=
        Nat.lt_of_lt_of_le hlt2 (Nat.pow_le_pow_right (by omega) (by omega))
      rw [splitAttos_eq 0 _ _ (by rw [hA]; simp) (frac_lt hlt3)]
      have c0 : checkedU64 0 = some 0 := rfl
      rw [c0]
      have noFract : F = [] → (do
          let zeros ← subUsize n (← optLen whole)
          return some (0, ← Fract.parse (← optSlice digits whole) none (some zeros)))
          = (Except.ok (Option.map (fun s => (s, decimal (W ++ F) * 10 ^ 18 /
              10 ^ (n - W.length + (W ++ F).length))) (some 0)) : Except Panic _) := by
        intro hF0
        subst hF0
        simp only [lenW, hz, hw, ok_bind]
        rw [Fract.parse_eq _ none _ hW hnil]
        simp only [Option.getD_none, Option.getD_some, ok_bind, ok_pure, Option.map_some,
          List.nil_append, List.append_nil]
      cases fract with
      | none =>
        simp only [optSlice] at hf
        exact noFract (by cases hf; rfl)
      | some f =>
        obtain ⟨h1, h2, h3, h4⟩ := slice_inv hf
        simp only
        by_cases hfe : f.isEmpty = true
        · rw [if_pos hfe]
          refine noFract ?_
          have : f.stop = f.start := by simpa [Range.isEmpty] using hfe
          exact List.eq_nil_of_length_eq_zero (by omega)
        · rw [if_neg hfe]
          have hf' : rangeSlice digits f = .ok F := hf
          have hpre : ∃ o, prependSlice digits whole = .ok o ∧ o.getD [] = W := by
            cases whole with
            | none => simp only [optSlice] at hw; cases hw; exact ⟨none, rfl, rfl⟩
            | some w =>
              obtain ⟨g1, g2, g3, g4⟩ := slice_inv hw
              by_cases hwe : w.isEmpty = true
              · refine ⟨none, by simp [prependSlice, hwe], ?_⟩
                have : w.stop = w.start := by simpa [Range.isEmpty] using hwe
                exact (List.eq_nil_of_length_eq_zero (by omega)).symm
              · refine ⟨some W, ?_, rfl⟩
                have hw' : rangeSlice digits w = .ok W := hw
                simp [prependSlice, hwe, hw', ok_bind, ok_pure]
          obtain ⟨o, ho1, ho2⟩ := hpre
          simp only [hf', ho1, lenW, hz, ok_bind]
          rw [Fract.parse_eq _ o _ hF (by rw [ho2]; exact hW)]
          simp only [ho2, Option.getD_some, ok_bind, ok_pure, Option.map_some]
  · rw [if_neg hneg]
    by_cases h0 : e = 0
    · rw [if_pos h0]
      have hws : wholeSeconds digits whole = .ok (checkedU64 (decimal W)) := by
        cases whole with
        | none => simp only [optSlice] at hw; cases hw; rfl
        | some w =>
          have hw' : rangeSlice digits w = .ok W := hw
          simp only [wholeSeconds, hw', ok_bind]
          rw [Whole.parse_eq _ none none hW hnil]
          simp
      have hfs : fractAttos digits fract = .ok (decimal F * 10 ^ 18 / 10 ^ F.length) := by
        cases fract with
        | none => simp only [optSlice] at hf; cases hf; rfl
        | some f =>
          have hf' : rangeSlice digits f = .ok F := hf
          simp only [fractAttos, hf', ok_bind]
          rw [Fract.parse_eq _ none none hF hnil]
          simp
      rw [splitAttos_eq (decimal W) (decimal F * 10 ^ 18 / 10 ^ F.length) _ ?_
        (frac_lt (decimal_lt _ hF)), hws]
      · simp only [ok_bind]
        by_cases hov : decimal W ≤ U64_MAX
        · rw [checkedU64_some hov]
          simp only [hfs, ok_bind, ok_pure, Option.map_some]
        · rw [checkedU64_none (by omega)]; rfl
      · unfold attoFloor
        rw [show (e - F.length).toNat = 0 by omega,
          show (-(e - (F.length : Int))).toNat = F.length by omega, decimal_append, Nat.pow_zero,
          Nat.mul_one, floor_split]
    · rw [if_neg h0]
      generalize hn : e.natAbs = n
      rcases longer fract F n hf with ⟨f, hf', hsl, hlt, hlong⟩ | ⟨hle, hlong⟩
      · rw [hlong, hf']
        simp only [ok_bind, hw]
        obtain ⟨h1, h2, h3, h4⟩ := slice_inv hsl
        obtain ⟨s1, s2⟩ := slice_split hsl (m := f.start + n) (by omega) (by omega)
        have hk : f.start + n - f.start = n := by omega
        rw [hk] at s1 s2
        simp only [s1, ok_bind]
        rw [Whole.parse_eq _ _ none hW (by simpa using hF.take n)]
        simp only [ok_bind, Option.getD_some, Option.getD_none, Nat.pow_zero, Nat.mul_one]
        have hdl : (F.drop n).length = F.length - n := by simp
        have hlt2 := decimal_lt _ (hF.drop n)
        rw [hdl] at hlt2
        rw [splitAttos_eq (decimal (W ++ F.take n)) (decimal (F.drop n) * 10 ^ 18 / 10 ^ (F.length - n))
          _ ?_ (frac_lt hlt2)]
        · by_cases hov : decimal (W ++ F.take n) ≤ U64_MAX
          · rw [checkedU64_some hov]
            simp only [s2, ok_bind]
            rw [Fract.parse_eq _ none none (hF.drop n) hnil]
            simp only [Option.getD_none, List.nil_append, hdl, ok_bind, ok_pure, Option.map_some,
              Nat.zero_add]
          · rw [checkedU64_none (by omega)]; rfl
        · unfold attoFloor
          have hdec : decimal (W ++ F) = decimal (W ++ F.take n) * 10 ^ (F.length - n)
              + decimal (F.drop n) := by
            conv_lhs => rw [← List.take_append_drop n F, ← List.append_assoc]
            rw [decimal_append, hdl]
          rw [show (e - F.length).toNat = 0 by omega,
            show (-(e - (F.length : Int))).toNat = F.length - n by omega, hdec, Nat.pow_zero,
            Nat.mul_one, floor_split]
      · rw [hlong]
        have happ : ∃ o, appendSlice digits fract = .ok o ∧ o.getD [] = F := by
          cases fract with
          | none => simp only [optSlice] at hf; cases hf; exact ⟨none, rfl, rfl⟩
          | some f =>
            have hf' : rangeSlice digits f = .ok F := hf
            exact ⟨some F, by simp [appendSlice, hf', ok_bind, ok_pure], rfl⟩
        obtain ⟨o, ho1, ho2⟩ := happ
        have hz : subUsize n F.length = .ok (n - F.length) := by
          unfold subUsize; rw [if_pos hle]
        simp only [ok_bind, hw, ho1, lenF, hz]
        rw [Whole.parse_eq _ o _ hW (by rw [ho2]; exact hF)]
        simp only [ho2, Option.getD_some, ok_bind]
        rw [splitAttos_eq (decimal (W ++ F) * 10 ^ (n - F.length)) 0 _ ?_ (by norm_num)]
        · by_cases hov : decimal (W ++ F) * 10 ^ (n - F.length) ≤ U64_MAX
          · rw [checkedU64_some hov]; rfl
          · rw [checkedU64_none (by omega)]; rfl
        · unfold attoFloor
          rw [show (e - F.length).toNat = n - F.length by omega,
            show (-(e - (F.length : Int))).toNat = 0 by omega, Nat.pow_zero, Nat.div_one, Nat.add_zero]

end DurationRepr
end Fundu
