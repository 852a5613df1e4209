import Verif.Proofs.Swar
import Mathlib.Tactic.Linarith
import Mathlib.Tactic.NormNum
/-! # Converting digits: `Whole`, `Fract`, shifting, multiplying -/
namespace Fundu
open Fundu.Spec

theorem decimal_append (a b : Bytes) : decimal (a ++ b) = decimal a * 10 ^ b.length + decimal b := by
  induction a with
  | nil => simp [decimal]
  | cons x a ih =>
    simp only [List.cons_append, decimal, List.length_append, ih, Nat.pow_add]
    ring

theorem decimal_lt (l : Bytes) (h : AllDigits l) : decimal l < 10 ^ l.length := by
  induction l with
  | nil => simp [decimal]
  | cons x l ih =>
    have hx : IsDigit x := h x (by simp)
    have := ih (fun b hb => h b (by simp [hb]))
    obtain ⟨_, h2⟩ := hx
    simp only [decimal, List.length_cons, Nat.pow_succ]
    have : (x.toNat - 48) * 10 ^ l.length ≤ 9 * 10 ^ l.length :=
      Nat.mul_le_mul_right _ (by omega)
    omega

theorem Spec.AllDigits.append {a b : Bytes} (ha : AllDigits a) (hb : AllDigits b) : AllDigits (a ++ b) := by
  intro x hx; rcases List.mem_append.1 hx with h | h
  · exact ha x h
  · exact hb x h
theorem Spec.AllDigits.left {a b : Bytes} (h : AllDigits (a ++ b)) : AllDigits a :=
  fun x hx => h x (List.mem_append_left _ hx)
theorem Spec.AllDigits.right {a b : Bytes} (h : AllDigits (a ++ b)) : AllDigits b :=
  fun x hx => h x (List.mem_append_right _ hx)
theorem Spec.AllDigits.take {a : Bytes} (h : AllDigits a) (n : Nat) : AllDigits (a.take n) :=
  fun x hx => h x (List.mem_of_mem_take hx)
theorem Spec.AllDigits.drop {a : Bytes} (h : AllDigits a) (n : Nat) : AllDigits (a.drop n) :=
  fun x hx => h x (List.mem_of_mem_drop hx)

theorem digitValue_ok {b : UInt8} (h : IsDigit b) : digitValue b = .ok (b.toNat - 48) := by
  obtain ⟨h1, _⟩ := h
  simp [digitValue, subUsize, h1]

theorem checkedU64_none {x : Nat} (h : U64_MAX < x) : checkedU64 x = none :=
  if_neg (Nat.not_le.2 h)
theorem checkedU64_some {x : Nat} (h : x ≤ U64_MAX) : checkedU64 x = some x := if_pos h

/-! ## Whole -/
namespace Whole

theorem parseEach_eq (ds : Bytes) (h : AllDigits ds) (s : Nat) (hs : s ≤ U64_MAX) :
    parseEach s ds = .ok (checkedU64 (s * 10 ^ ds.length + decimal ds)) := by
  induction ds generalizing s with
  | nil => simp [parseEach, decimal, checkedU64, hs]
  | cons c cs ih =>
    have hc : IsDigit c := h c (by simp)
    have hcs : AllDigits cs := fun b hb => h b (by simp [hb])
    have e : s * 10 ^ (c :: cs).length + decimal (c :: cs)
        = (s * 10 + (c.toNat - 48)) * 10 ^ cs.length + decimal cs := by
      simp only [List.length_cons, decimal, Nat.pow_succ]; ring
    have hp : 1 ≤ 10 ^ cs.length := Nat.one_le_pow _ _ (by omega)
    rw [e]
    unfold parseEach
    by_cases h1 : s * 10 ≤ U64_MAX
    · rw [checkedU64_some h1]
      simp only [digitValue_ok hc, ok_bind]
      by_cases h2 : s * 10 + (c.toNat - 48) ≤ U64_MAX
      · rw [checkedU64_some h2]
        exact ih hcs _ h2
      · rw [checkedU64_none (by omega), checkedU64_none]
        · rfl
        · have := Nat.mul_le_mul_left (s * 10 + (c.toNat - 48)) hp
          omega
    · rw [checkedU64_none (by omega), checkedU64_none]
      have := Nat.mul_le_mul_left (s * 10 + (c.toNat - 48)) hp
      omega

end Whole

theorem chunksExact8_append (l : Bytes) : (chunksExact8 l).1.flatten ++ (chunksExact8 l).2 = l := by
  fun_induction chunksExact8 l with
  | case1 a b c d e f g h rest r ih => simpa using ih
  | case2 l h => simp

theorem chunksExact8_length (l : Bytes) : ∀ c ∈ (chunksExact8 l).1, c.length = 8 := by
  fun_induction chunksExact8 l with
  | case1 a b c d e f g h rest r ih => simpa using ih
  | case2 l h => simp

theorem flatten_length8 (cs : List Bytes) (h : ∀ c ∈ cs, c.length = 8) :
    cs.flatten.length = 8 * cs.length := by
  induction cs with
  | nil => rfl
  | cons c cs ih =>
    have := h c (by simp)
    have := ih (fun d hd => h d (by simp [hd]))
    simp only [List.flatten_cons, List.length_append, List.length_cons]
    omega

namespace Whole

theorem parseChunks_eq (cs : List Bytes) (h8 : ∀ c ∈ cs, c.length = 8) (h : AllDigits cs.flatten)
    (s : Nat) (hs : s ≤ U64_MAX) :
    parseChunks s cs = .ok (checkedU64 (s * 10 ^ cs.flatten.length + decimal cs.flatten)) := by
  induction cs generalizing s with
  | nil => simp [parseChunks, decimal, checkedU64, hs]
  | cons c cs ih =>
    have hc8 : c.length = 8 := h8 c (by simp)
    rw [List.flatten_cons] at h ⊢
    have hc : AllDigits c := h.left
    have e : s * 10 ^ (c ++ cs.flatten).length + decimal (c ++ cs.flatten)
        = (100000000 * s + decimal c) * 10 ^ cs.flatten.length + decimal cs.flatten := by
      rw [decimal_append, List.length_append, Nat.pow_add, hc8]; ring
    have hp : 1 ≤ 10 ^ cs.flatten.length := Nat.one_le_pow _ _ (by omega)
    rw [e]
    have hm := Nat.mul_le_mul_left (100000000 * s + decimal c) hp
    unfold parseChunks
    by_cases h1 : 100000000 * s ≤ U64_MAX
    · rw [checkedU64_some h1]
      simp only [parse8Digits_eq c hc8 hc, ok_bind]
      by_cases h2 : 100000000 * s + decimal c ≤ U64_MAX
      · rw [checkedU64_some h2]
        exact ih (fun d hd => h8 d (by simp [hd])) h.right _ h2
      · rw [checkedU64_none (by omega), checkedU64_none (by omega)]
        rfl
    · rw [checkedU64_none (by omega), checkedU64_none (by omega)]

theorem parseSlice_eq (ds : Bytes) (h : AllDigits ds) (s : Nat) (hs : s ≤ U64_MAX) :
    parseSlice s ds = .ok (checkedU64 (s * 10 ^ ds.length + decimal ds)) := by
  unfold parseSlice
  by_cases h8 : 8 ≤ ds.length
  · rw [if_pos h8]
    have hsplit := chunksExact8_append ds
    have hlen := chunksExact8_length ds
    generalize chunksExact8 ds = p at *
    obtain ⟨cs, r⟩ := p
    simp only at hsplit hlen
    subst hsplit
    simp only [parseChunks_eq cs hlen h.left s hs, ok_bind]
    have e : s * 10 ^ (cs.flatten ++ r).length + decimal (cs.flatten ++ r)
        = (s * 10 ^ cs.flatten.length + decimal cs.flatten) * 10 ^ r.length + decimal r := by
      rw [decimal_append, List.length_append, Nat.pow_add]; ring
    rw [e]
    have hp : 1 ≤ 10 ^ r.length := Nat.one_le_pow _ _ (by omega)
    by_cases h2 : s * 10 ^ cs.flatten.length + decimal cs.flatten ≤ U64_MAX
    · rw [checkedU64_some h2]
      exact parseEach_eq r h.right _ h2
    · have hm := Nat.mul_le_mul_left (s * 10 ^ cs.flatten.length + decimal cs.flatten) hp
      rw [checkedU64_none (by omega), checkedU64_none (by omega)]
      rfl
  · rw [if_neg h8]
    exact parseEach_eq ds h s hs

theorem POW10_get (n : Nat) : POW10[n]? = if n ≤ 19 then some (10 ^ n) else none := by
  by_cases h : n ≤ 19
  · rw [if_pos h]
    have : ∀ n : Fin 20, POW10[n.val]? = some (10 ^ n.val) := by decide
    exact this ⟨n, by omega⟩
  · rw [if_neg h, List.getElem?_eq_none]
    simp [POW10]; omega

/-- `Whole::parse` is exact or reports overflow -/
theorem parse_eq (ds : Bytes) (append : Option Bytes) (zeros : Option Nat)
    (hd : AllDigits ds) (ha : AllDigits (append.getD [])) :
    parse ds append zeros
      = .ok (checkedU64 (decimal (ds ++ append.getD []) * 10 ^ zeros.getD 0)) := by
  have hzero : decimal (ds ++ append.getD []) = decimal ds * 10 ^ (append.getD []).length
      + decimal (append.getD []) := decimal_append _ _
  have c0 : checkedU64 0 = some 0 := rfl
  unfold parse
  by_cases he : (ds.isEmpty && noneOrEmpty append) = true
  · rw [if_pos he]
    have h1 : ds = [] := by
      cases ds <;> simp_all
    have h2 : append.getD [] = [] := by
      cases append <;> simp_all [noneOrEmpty]
    rw [h1, h2]
    simp [decimal, c0, ok_pure]
  · rw [if_neg he]
    simp only [parseSlice_eq ds hd 0 (Nat.zero_le _), ok_bind, Nat.zero_mul, Nat.zero_add]
    have hp : 1 ≤ 10 ^ (append.getD []).length := Nat.one_le_pow _ _ (by omega)
    have hz : 1 ≤ 10 ^ zeros.getD 0 := Nat.one_le_pow _ _ (by omega)
    have hm1 := Nat.mul_le_mul_left (decimal ds) hp
    have hm2 := Nat.mul_le_mul_left (decimal (ds ++ append.getD [])) hz
    by_cases h1 : decimal ds ≤ U64_MAX
    · rw [checkedU64_some h1]
      have hs2 : parseAppend (decimal ds) append
          = (Except.ok (checkedU64 (decimal (ds ++ append.getD []))) : Except Panic _) := by
        cases append with
        | none => simp [parseAppend, checkedU64_some h1]
        | some a =>
          simp only [Option.getD_some, parseAppend]; rw [parseSlice_eq a ha _ h1, decimal_append]
      simp only [hs2, ok_bind]
      generalize decimal (ds ++ append.getD []) = N at *
      by_cases h2 : N ≤ U64_MAX
      · rw [checkedU64_some h2]
        simp only
        by_cases h3 : N = 0
        · simp [h3, c0, ok_pure]
        · rw [if_neg h3]
          cases zeros with
          | none => simp [ok_pure, checkedU64_some h2]
          | some z =>
            simp only [Option.getD_some]
            by_cases hz0 : 0 < z
            · rw [if_pos hz0, POW10_get]
              by_cases h19 : z ≤ 19
              · rw [if_pos h19]; rfl
              · rw [if_neg h19, checkedU64_none]
                · rfl
                · have h20 : 10 ^ 20 ≤ 10 ^ z := Nat.pow_le_pow_right (by omega) (by omega)
                  have : 1 * 10 ^ 20 ≤ N * 10 ^ z := Nat.mul_le_mul (by omega) h20
                  have : U64_MAX < 1 * 10 ^ 20 := by decide
                  omega
            · rw [if_neg hz0]
              have : z = 0 := by omega
              subst this
              simp [ok_pure, checkedU64_some h2]
      · rw [checkedU64_none (by omega), checkedU64_none (by omega)]
        rfl
    · rw [checkedU64_none (by omega), checkedU64_none (by omega)]
      rfl

end Whole

/-! ## Fract -/
namespace Fract

theorem arithU64_nat {x : Nat} (h : x ≤ U64_MAX) : arithU64 (x : Int) = .ok x := by
  unfold arithU64
  rw [if_pos ⟨Int.natCast_nonneg _, by exact_mod_cast h⟩, Int.toNat_natCast]

theorem parseEach_eq (ds : Bytes) (h : AllDigits ds) (a : Nat)
    (ha : a * 10 ^ ds.length + decimal ds ≤ U64_MAX) :
    parseEach a ds = .ok (a * 10 ^ ds.length + decimal ds) := by
  induction ds generalizing a with
  | nil => simp [parseEach, decimal]
  | cons c cs ih =>
    have hc : IsDigit c := h c (by simp)
    have hcs : AllDigits cs := fun b hb => h b (by simp [hb])
    have e : a * 10 ^ (c :: cs).length + decimal (c :: cs)
        = (a * 10 + (c.toNat - 48)) * 10 ^ cs.length + decimal cs := by
      simp only [List.length_cons, decimal, Nat.pow_succ]; ring
    have hp : 1 ≤ 10 ^ cs.length := Nat.one_le_pow _ _ (by omega)
    rw [e] at ha ⊢
    have hm := Nat.mul_le_mul_left (a * 10 + (c.toNat - 48)) hp
    unfold parseEach
    rw [arithU64_nat (by omega)]
    simp only [digitValue_ok hc, ok_bind]
    rw [arithU64_nat (by omega)]
    simp only [ok_bind]
    exact ih hcs _ ha

theorem parseChunks_eq (cs : List Bytes) (h8 : ∀ c ∈ cs, c.length = 8) (h : AllDigits cs.flatten)
    (a : Nat) (ha : a * 10 ^ cs.flatten.length + decimal cs.flatten ≤ U64_MAX) :
    parseChunks a cs = .ok (a * 10 ^ cs.flatten.length + decimal cs.flatten) := by
  induction cs generalizing a with
  | nil => simp [parseChunks, decimal]
  | cons c cs ih =>
    have hc8 : c.length = 8 := h8 c (by simp)
    rw [List.flatten_cons] at h ha ⊢
    have hc : AllDigits c := h.left
    have e : a * 10 ^ (c ++ cs.flatten).length + decimal (c ++ cs.flatten)
        = (100000000 * a + decimal c) * 10 ^ cs.flatten.length + decimal cs.flatten := by
      rw [decimal_append, List.length_append, Nat.pow_add, hc8]; ring
    have hp : 1 ≤ 10 ^ cs.flatten.length := Nat.one_le_pow _ _ (by omega)
    rw [e] at ha ⊢
    have hm := Nat.mul_le_mul_left (100000000 * a + decimal c) hp
    unfold parseChunks
    rw [arithU64_nat (by omega)]
    simp only [parse8Digits_eq c hc8 hc, ok_bind]
    rw [arithU64_nat (by omega)]
    simp only [ok_bind]
    exact ih (fun d hd => h8 d (by simp [hd])) h.right _ ha

theorem parseSlice_eq (ds : Bytes) (h : AllDigits ds) (a m : Nat) (hm : m ≤ 18)
    (ha : a < 10 ^ (18 - m)) :
    parseSlice a m ds = .ok (a * 10 ^ min ds.length m + decimal (ds.take m), m - ds.length) := by
  unfold parseSlice
  set n := min ds.length m with hn
  have htake : ds.take m = ds.take n := by
    by_cases hle : ds.length ≤ m
    · rw [List.take_of_length_le hle, List.take_of_length_le (by omega)]
    · rw [show n = m by omega]
  have hnl : (ds.take n).length = n := by simp [hn]
  have hslice : slice ds 0 n = .ok (ds.take n) := by
    unfold slice; rw [if_pos ⟨by omega, by omega⟩]; simp
  have hd := h.take n
  have hlt := decimal_lt _ hd
  rw [hnl] at hlt
  have hbound : a * 10 ^ (ds.take n).length + decimal (ds.take n) ≤ U64_MAX := by
    rw [hnl]
    have h1 : a * 10 ^ n + 10 ^ n ≤ 10 ^ (18 - m) * 10 ^ n := by
      rw [← Nat.succ_mul]; exact Nat.mul_le_mul_right _ ha
    have h2 : 10 ^ (18 - m) * 10 ^ n ≤ 10 ^ 18 := by
      rw [← Nat.pow_add]; exact Nat.pow_le_pow_right (by omega) (by omega)
    have h3 : 10 ^ 18 ≤ U64_MAX := by decide
    omega
  have hsub : subUsize m n = .ok (m - ds.length) := by
    unfold subUsize; rw [if_pos (by omega)]; congr 1; omega
  rw [htake]
  by_cases h8 : 8 ≤ n
  · rw [if_pos h8]
    simp only [hslice, ok_bind]
    have hsplit := chunksExact8_append (ds.take n)
    have hlen := chunksExact8_length (ds.take n)
    generalize chunksExact8 (ds.take n) = p at *
    obtain ⟨cs, r⟩ := p
    simp only at hsplit hlen
    rw [← hsplit] at hd hbound hnl ⊢
    have e : a * 10 ^ (cs.flatten ++ r).length + decimal (cs.flatten ++ r)
        = (a * 10 ^ cs.flatten.length + decimal cs.flatten) * 10 ^ r.length + decimal r := by
      rw [decimal_append, List.length_append, Nat.pow_add]; ring
    have hp : 1 ≤ 10 ^ r.length := Nat.one_le_pow _ _ (by omega)
    have hmul := Nat.mul_le_mul_left (a * 10 ^ cs.flatten.length + decimal cs.flatten) hp
    have hb2 := hbound
    rw [e] at hb2
    rw [parseChunks_eq cs hlen hd.left a (by omega)]
    simp only [ok_bind]
    rw [parseEach_eq r hd.right _ hb2]
    simp only [ok_bind, hsub, ok_pure]
    rw [← e, hnl]
  · rw [if_neg h8]
    simp only [hslice, ok_bind]
    rw [parseEach_eq _ hd a hbound]
    simp only [ok_bind, hsub, ok_pure]
    rw [hnl]

theorem pow10Index_eq {n : Nat} (h : n ≤ 19) : pow10Index n = .ok (10 ^ n) := by
  unfold pow10Index
  rw [Whole.POW10_get, if_pos h]

theorem mulPow10_eq {a r : Nat} (hr : r ≤ 18) (h : a * 10 ^ r ≤ U64_MAX) :
    mulPow10 a r = .ok (a * 10 ^ r) := by
  unfold mulPow10
  rw [pow10Index_eq (by omega)]
  simp only [ok_bind]
  rw [arithU64_nat h]

/-- The first `m` digits padded with zeros to `m` digits is the floor. -/
theorem take_floor (D : Bytes) (h : AllDigits D) (m z : Nat) (hz : z + m = 18) :
    decimal (D.take m) * 10 ^ (m - D.length) = decimal D * 10 ^ 18 / 10 ^ (z + D.length) := by
  by_cases hle : D.length ≤ m
  · rw [List.take_of_length_le hle]
    have : 10 ^ 18 = 10 ^ (m - D.length) * 10 ^ (z + D.length) := by
      rw [← Nat.pow_add]; congr 1; omega
    rw [this, ← Nat.mul_assoc, Nat.mul_div_cancel _ (Nat.pow_pos (by omega))]
  · have hsplit : decimal D = decimal (D.take m) * 10 ^ (D.length - m) + decimal (D.drop m) := by
      conv_lhs => rw [← List.take_append_drop m D]
      rw [decimal_append]; simp
    have hlt := decimal_lt _ (h.drop m)
    simp only [List.length_drop] at hlt
    have e1 : 10 ^ (z + D.length) = 10 ^ (D.length - m) * 10 ^ 18 := by
      rw [← Nat.pow_add]; congr 1; omega
    rw [e1, Nat.mul_div_mul_right _ _ (by norm_num), hsplit,
      show m - D.length = 0 by omega, Nat.pow_zero, Nat.mul_one, Nat.mul_comm (decimal _),
      Nat.mul_add_div (Nat.pow_pos (by omega)), Nat.div_eq_of_lt hlt, Nat.add_zero]

/-- `Fract::parse` truncates at 10^-18 -/
theorem parse_eq (ds : Bytes) (prepend : Option Bytes) (zeros : Option Nat)
    (hd : AllDigits ds) (hp : AllDigits (prepend.getD [])) :
    parse ds prepend zeros = .ok (decimal (prepend.getD [] ++ ds) * 10 ^ 18 /
      10 ^ (zeros.getD 0 + (prepend.getD [] ++ ds).length)) := by
  unfold parse
  by_cases he : (ds.isEmpty && noneOrEmpty prepend) = true
  · rw [if_pos he]
    have h1 : ds = [] := by
      cases ds <;> simp_all
    have h2 : prepend.getD [] = [] := by
      cases prepend <;> simp_all [noneOrEmpty]
    rw [h1, h2]
    simp [decimal, ok_pure]
  · rw [if_neg he]
    have hz' : zerosOr0 zeros = zeros.getD 0 := by cases zeros <;> rfl
    rw [hz']
    have hlt := decimal_lt _ (hp.append hd)
    by_cases hz : 18 < zeros.getD 0
    · rw [if_pos hz, ok_pure]
      congr 1
      symm
      apply Nat.div_eq_of_lt
      calc decimal (prepend.getD [] ++ ds) * 10 ^ 18
          < 10 ^ (prepend.getD [] ++ ds).length * 10 ^ 18 := Nat.mul_lt_mul_of_pos_right hlt (by norm_num)
        _ = 10 ^ (18 + (prepend.getD [] ++ ds).length) := by rw [Nat.pow_add, Nat.mul_comm]
        _ ≤ _ := Nat.pow_le_pow_right (by omega) (by omega)
    · rw [if_neg hz]
      simp only
      generalize zeros.getD 0 = z at *
      set m := 18 - z with hmdef
      have hzm : z + m = 18 := by omega
      have hU : 10 ^ 18 ≤ U64_MAX := by decide
      -- digits parsed once with budget m
      have single : ∀ l : Bytes, AllDigits l →
          (do let (attos, remainder) ← parseSlice 0 m l
              if 0 < remainder then mulPow10 attos remainder else return attos)
          = (Except.ok (decimal l * 10 ^ 18 / 10 ^ (z + l.length)) : Except Panic Nat) := by
        intro l hl
        rw [parseSlice_eq l hl 0 m (by omega) (Nat.pow_pos (by omega))]
        simp only [ok_bind, Nat.zero_mul, Nat.zero_add]
        rw [← take_floor l hl m z hzm]
        have hlt := decimal_lt _ (hl.take m)
        have hlen : (l.take m).length = min m l.length := by simp
        rw [hlen] at hlt
        by_cases hr : 0 < m - l.length
        · rw [if_pos hr, mulPow10_eq (by omega)]
          have : decimal (l.take m) * 10 ^ (m - l.length) ≤ 10 ^ min m l.length * 10 ^ (m - l.length) :=
            Nat.mul_le_mul_right _ (by omega)
          have h2 : 10 ^ min m l.length * 10 ^ (m - l.length) ≤ 10 ^ 18 := by
            rw [← Nat.pow_add]; exact Nat.pow_le_pow_right (by omega) (by omega)
          omega
        · rw [if_neg hr, ok_pure, show m - l.length = 0 by omega]; simp
      cases hpre : prepend with
      | none =>
        simp only [Option.getD_none, List.nil_append, nonEmpty]
        exact single ds hd
      | some p =>
        simp only [Option.getD_some]
        rw [hpre] at hp
        simp only [Option.getD_some] at hp
        by_cases hpe : p.isEmpty = true
        · simp only [nonEmpty, hpe, if_true]
          have : p = [] := by simpa using hpe
          subst this
          simp only [List.nil_append]
          exact single ds hd
        · simp only [nonEmpty, hpe, Bool.false_eq_true, if_false]
          rw [parseSlice_eq p hp 0 m (by omega) (Nat.pow_pos (by omega))]
          simp only [ok_bind, Nat.zero_mul, Nat.zero_add]
          have hlt := decimal_lt _ (hp.take m)
          have hlen : (p.take m).length = min m p.length := by simp
          rw [hlen] at hlt
          have hpd := take_floor (p ++ ds) (hp.append hd) m z hzm
          rw [← hpd]
          by_cases hr : m - p.length = 0
          · rw [if_pos hr, ok_pure]
            rw [List.take_append, hr, List.take_zero, List.append_nil, List.length_append,
              show m - (p.length + ds.length) = 0 by omega]; simp
          · rw [if_neg hr]
            have htp : p.take m = p := List.take_of_length_le (by omega)
            rw [htp] at hlt ⊢
            rw [List.take_append, htp, decimal_append]
            by_cases hde : ds.isEmpty = true
            · rw [if_pos hde]
              have : ds = [] := by simpa using hde
              subst this
              rw [mulPow10_eq (by omega)]
              · simp [decimal]
              · have : decimal p * 10 ^ (m - p.length) ≤ 10 ^ min m p.length * 10 ^ (m - p.length) :=
                  Nat.mul_le_mul_right _ (by omega)
                have h2 : 10 ^ min m p.length * 10 ^ (m - p.length) ≤ 10 ^ 18 := by
                  rw [← Nat.pow_add]; exact Nat.pow_le_pow_right (by omega) (by omega)
                omega
            · rw [if_neg hde]
              have hpl : decimal p < 10 ^ (18 - (m - p.length)) :=
                Nat.lt_of_lt_of_le hlt (Nat.pow_le_pow_right (by omega) (by omega))
              rw [parseSlice_eq ds hd _ (m - p.length) (by omega) hpl]
              simp only [ok_bind]
              have hl2 : (ds.take (m - p.length)).length = min ds.length (m - p.length) := by
                simp [Nat.min_comm]
              rw [hl2, List.length_append, show m - (p.length + ds.length) = m - p.length - ds.length by omega]
              by_cases hr2 : 0 < m - p.length - ds.length
              · rw [if_pos hr2, mulPow10_eq (by omega)]
                have hall := decimal_lt _ ((hp.append hd).take m)
                rw [List.take_append, htp, decimal_append, hl2, List.length_append, hl2] at hall
                have : (decimal p * 10 ^ min ds.length (m - p.length) + decimal (ds.take (m - p.length)))
                    * 10 ^ (m - p.length - ds.length)
                    ≤ 10 ^ (p.length + min ds.length (m - p.length)) * 10 ^ (m - p.length - ds.length) :=
                  Nat.mul_le_mul_right _ (by omega)
                have h2 : 10 ^ (p.length + min ds.length (m - p.length)) * 10 ^ (m - p.length - ds.length)
                    ≤ 10 ^ 18 := by
                  rw [← Nat.pow_add]; exact Nat.pow_le_pow_right (by omega) (by omega)
                omega
              · rw [if_neg hr2, ok_pure, show m - p.length - ds.length = 0 by omega]; simp

end Fract
end Fundu
