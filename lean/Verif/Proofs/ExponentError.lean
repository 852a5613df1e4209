import Verif.Proofs.ParseGrammar
/-! # Exponents outside of their range -/
namespace Fundu
open Fundu.Spec

variable {env : Env} {I : Bytes} {c : Cursor} {s : Bytes}

theorem fail_bind {α β} (e : ParseError) (f : α → R β) : (fail e : R α) >>= f = fail e := rfl

/-- the error for an exponent out of range -/
def exponentError (neg : Bool) : ParseError := if neg then .negativeExponentOverflow else .positiveExponentOverflow

theorem parseNumberExponent_overflow {x : UInt8} {q q' E rest : Bytes} {n : Bool} (h : At I 1 c (x :: q))
    (hx : x = 101 ∨ x = 69) (h4 : ExponentSign q n q') (h5 : Split IsDigit q' E rest)
    (h6 : ¬ IsI16 (if n then -(decimal E : Int) else decimal E)) :
    parseNumberExponent false c = fail (exponentError n) := by
  unfold parseNumberExponent
  rw [h.cons]
  have hb : (decide (x = 101) || decide (x = 69)) = true := by simpa using hx
  simp only [if_pos hb, Bool.false_eq_true, if_false]
  have hba : x.toNat < 128 := by rcases hx with rfl | rfl <;> decide
  have h1 : At I 1 c.advance q := (h.advance hba).le (by omega)
  have hq : q ≠ [] := by
    rintro rfl
    cases h4
    have hE : E = [] := by
      have := h5.1
      exact (List.append_eq_nil_iff.1 this.symm).1
    subst hE
    apply h6
    decide
  obtain ⟨sg, c1, e1, e2, h2⟩ := parseSign_exp h1 hq
  rw [expSign_iff] at h4
  rw [h4] at e2 h2
  rw [splitDigit_iff] at h5
  obtain ⟨rfl, rfl⟩ := h5
  simp only at e2 h2
  unfold parseExponent
  rw [e1]
  simp only [ok_bind]
  have e3 := exponentLoop_eq (sg.getD false) c1.input.length 0 c1 (by rw [Cursor.rest_length]; omega)
    (by rw [signed_zero]; decide)
  rw [signed_zero] at e3
  rw [← signed_eq] at h6
  rw [e3, h2.digits_eq, e2]
  simp only [Nat.zero_mul, Nat.zero_add]
  rw [if_neg h6]
  cases n <;> rfl

theorem template_overflow (ho : CfgOk env.cfg) (mode : Mode) (h : At I 0 c s) {neg : Bool} {r W r1 F : Bytes}
    {x : UInt8} {q q' E rest : Bytes} {n : Bool} (h1 : SignPart env.cfg s neg r) (h2 : Split IsDigit r W r1)
    (h3 : FractionPart env.cfg W r1 F (x :: q)) (hx : x = 101 ∨ x = 69) (hd : env.cfg.disableExponent = false)
    (h4 : ExponentSign q n q') (h5 : Split IsDigit q' E rest)
    (h6 : ¬ IsI16 (if n then -(decimal E : Int) else decimal E)) :
    templateParse mode env c = fail (exponentError n) := by
  obtain ⟨o, g1, -⟩ := (sign_iff neg).1 h1
  obtain ⟨⟨o', c1⟩, g2, -, hat⟩ := (sign_sim ho h).some g1
  simp only at hat
  have hcur : ∃ b l, s = b :: l := by
    cases s with
    | nil => cases h1 with | absent h _ => exact absurd rfl h
    | cons b l => exact ⟨b, l, rfl⟩
  obtain ⟨b, l, rfl⟩ := hcur
  unfold templateParse
  rw [h.cons]
  simp only
  rw [g2, ok_bind]
  simp only
  -- after the whole part
  have after : ∀ (rp : DurationRepr) (c2 : Cursor), IsWhole I rp.whole W → At I 0 c2 r1 → (W ≠ [] → 1 ≤ c2.pos) →
      parseAfterWhole mode env rp c2 = fail (exponentError n) := by
    intro rp c2 hw hat2 hp
    obtain ⟨k1, k2⟩ := (fract_iff W F).1 h3
    obtain ⟨⟨go, f, c3⟩, m1, m2, -, m3, -⟩ := (fract_sim (cfg := env.cfg) hw hat2 hp
      (fun hW => k1.resolve_left (fun h => h hW))).some k2
    simp only at m2 m3
    have hgo : go = true := by
      cases go with
      | true => rfl
      | false => cases m2 rfl
    subst hgo
    unfold parseAfterWhole
    rw [m1, ok_bind]
    simp only [Bool.not_true, Bool.false_eq_true, if_false]
    unfold parseExponentPart
    rw [hd, parseNumberExponent_overflow m3 hx h4 h5 h6, fail_bind]
  obtain ⟨rfl, rfl⟩ := (splitDigit_iff ..).1 h2
  unfold parseBody
  cases hr : r with
  | nil =>
    subst hr
    cases h3
  | cons y r' =>
    rw [hr] at hat
    rw [hat.cons]
    rw [← hr] at hat
    simp only
    by_cases hy : isDigit y = true
    · rw [if_pos hy]
      unfold parseWhole
      obtain ⟨w, c2, k1, k2, k3⟩ := whole_sim hat (by rw [hr]; exact hy)
      rw [k1, ok_bind]
      exact after _ c2 k2 (k3.le (by omega)) (fun _ => k3.pos)
    · rw [if_neg hy]
      have hh : L.headIs isDigit r = false := by rw [hr]; simpa [L.headIs] using hy
      have hW : r.takeWhile isDigit = [] := takeWhile_of_head hh
      have hr1 : r.dropWhile isDigit = r := dropWhile_of_head hh
      have h46 : y = 46 := by
        rw [hW, hr1, hr] at h3
        cases h3 with
        | absent h _ => exact absurd rfl h
        | present _ _ _ => rfl
      rw [if_pos h46]
      refine after _ c1 ?_ (by rw [hr1]; exact hat) (fun h => absurd hW h)
      rw [hW]
      exact ⟨⟨fun _ => rfl, fun _ => rfl⟩, [], rfl, (by intro b hb; cases hb), rfl⟩

theorem parseWith_overflow (ho : CfgOk env.cfg) (hI : utf8Valid s = true) {neg : Bool} {r W r1 F : Bytes}
    {x : UInt8} {q q' E rest : Bytes} {n : Bool} (h1 : SignPart env.cfg s neg r) (h2 : Split IsDigit r W r1)
    (h3 : FractionPart env.cfg W r1 F (x :: q)) (hx : x = 101 ∨ x = 69) (hd : env.cfg.disableExponent = false)
    (h4 : ExponentSign q n q') (h5 : Split IsDigit q' E rest)
    (h6 : ¬ IsI16 (if n then -(decimal E : Int) else decimal E)) :
    parseWith env s = fail (exponentError n) := by
  have hat : At s 0 (Cursor.new s) s := ⟨Inv.new hI, Cursor.rest_new s, Nat.zero_le _⟩
  unfold parseWith parseMultiple parseSingle parseMultipleLoop
  rw [template_overflow ho .single hat h1 h2 h3 hx hd h4 h5 h6, template_overflow ho .multiple hat h1 h2 h3 hx hd h4 h5 h6]
  split <;> rfl

end Fundu
