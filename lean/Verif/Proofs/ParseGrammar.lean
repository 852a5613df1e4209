import Verif.Proofs.Denotes
import Verif.Proofs.ListGrammarBody
import Verif.Props.Safety
/-! # The parser accepts the grammar -/
namespace Fundu
open Fundu.Spec

variable {env : Env} {I : Bytes} {c : Cursor} {s : Bytes}

theorem bind_eq_ok {α β} {x : R α} {f : α → R β} {b : β} : x >>= f = .ok b ↔ ∃ a, x = .ok a ∧ f a = .ok b := by
  match x with
  | .ok a =>
    constructor
    · intro h; exact ⟨a, rfl, h⟩
    · rintro ⟨a', h1, h2⟩; cases h1; exact h2
  | .error e =>
    constructor
    · intro h; cases h
    · rintro ⟨a', h1, h2⟩; cases h1

theorem parseRepr_iff (cfg : Config) (r : DurationRepr) (neg : Bool) (item : Item)
    (h : r.parse = L.value cfg neg item) (d : Duration) :
    parseRepr cfg r = .ok d ↔ Accepted cfg neg item d := by
  unfold parseRepr Accepted
  rw [← L.value_iff, h]
  cases L.value cfg neg item with
  | error p =>
    constructor
    · intro h; cases h
    · rintro ⟨h, -⟩; cases h
  | ok d' =>
    rw [liftP_ok, ok_bind]
    unfold rejectNegative
    cases h1 : cfg.allowNegative <;> cases h2 : d'.isNegative <;> simp [fail, pure, Except.pure]
    · rintro rfl; exact h2
    · rintro rfl; exact h2

theorem parseSingle_iff (ho : CfgOk env.cfg) (hsc : env.scan = fun d c => c.advanceTo d) (hI : utf8Valid s = true)
    (d : Duration) :
    parseSingle env s = .ok d ↔ DenotesSingle env.cfg env.units env.keywords env.numerals s d := by
  unfold parseSingle DenotesSingle
  have hat : At s 0 (Cursor.new s) s := ⟨Inv.new hI, Cursor.rest_new s, Nat.zero_le _⟩
  have ha := template_at ho hsc .single hat
  rw [bind_eq_ok]
  constructor
  · rintro ⟨o, h1, h2⟩
    obtain ⟨⟨⟨neg, item⟩, rest⟩, g1, g2⟩ := ha.of_ok h1
    obtain ⟨r, k1, k2⟩ := (template_iff _ _ _).1 g1
    exact ⟨neg, r, item, k1, ((single_iff _ _).1 k2).2, (parseRepr_iff _ _ _ _ g2.1.parse d).1 h2⟩
  · rintro ⟨neg, r, item, k1, k2, k3⟩
    obtain ⟨o, h1, h2⟩ := ha.some ((template_iff _ _ _).2 ⟨r, k1, (single_iff _ _).2 ⟨rfl, k2⟩⟩)
    exact ⟨o, h1, (parseRepr_iff _ _ _ _ h2.1.parse d).2 k3⟩

theorem nanos_of_isZero {d : Duration} (h : d.isZero = true) : nanos d = 0 := by
  unfold Duration.isZero StdDuration.isZero at h
  simp only [Bool.and_eq_true, decide_eq_true_eq] at h
  unfold nanos
  rw [h.1, h.2]
  split <;> rfl

theorem clamp_nanos {d : Duration} (h : d.WF) : clamp (nanos d) = nanos d := by
  obtain ⟨h1, h2⟩ := Props.nanos_representable d h
  unfold clamp
  omega

theorem accumulate_nanos {d p : Duration} (hd : d.WF) (hp : p.WF) :
    ∃ s, accumulate d p = .ok s ∧ s.WF ∧ nanos s = clamp (nanos d + nanos p) := by
  unfold accumulate
  by_cases h1 : p.isZero = true
  · rw [if_pos h1]
    exact ⟨d, rfl, hd, by rw [nanos_of_isZero h1, Int.add_zero, clamp_nanos hd]⟩
  · rw [if_neg h1]
    by_cases h2 : d.isZero = true
    · rw [if_pos h2]
      exact ⟨p, rfl, hp, by rw [nanos_of_isZero h2, Int.zero_add, clamp_nanos hp]⟩
    · rw [if_neg h2]
      obtain ⟨s, hs, hw, hn⟩ := Props.C02_saturating_add d p hd hp
      exact ⟨s, by rw [hs, liftP_ok], hw, hn⟩

theorem Denotes.wf {cfg : Config} {neg : Bool} {item : Item} {d : Duration} (h : Denotes cfg neg item d) : d.WF := by
  cases h with
  | number h => exact h.1
  | numberUnit _ h => exact h.1
  | infinity h _ => exact h
  | word _ h => exact h.1
  | numeral _ _ h => exact h.1

theorem loop_iff (he : EnvOk env) (hsc : env.scan = fun d c => c.advanceTo d) (fuel : Nat) (d : Duration) (hd : d.WF)
    (h : At I 0 c s) (hs : s ≠ []) (hf : I.length < c.pos + fuel) (x : Int) :
    (∃ d', parseMultipleLoop env fuel d c = .ok d' ∧ d'.WF ∧ nanos d' = x) ↔
      ∃ ds, DenotesMultiple env.cfg env.units env.keywords env.numerals s ds ∧
        x = (ds.map nanos).foldl (fun acc y => clamp (acc + y)) (nanos d) := by
  induction fuel generalizing d c s with
  | zero => have := h.inv.pos; omega
  | succ fuel ih =>
    have hcur : c.cur.isSome = true := by
      cases s with
      | nil => exact absurd rfl hs
      | cons a l => rw [h.cons]; rfl
    have ha := template_at he.cfg hsc .multiple h
    have hsafe := templateParse_safe he .multiple h.inv hcur
    unfold parseMultipleLoop
    constructor
    · rintro ⟨d', h1, hw, hx⟩
      obtain ⟨⟨r, next⟩, g1, g2⟩ := bind_eq_ok.1 h1
      obtain ⟨p, g3, g4⟩ := bind_eq_ok.1 g2
      obtain ⟨d1, g5, g6⟩ := bind_eq_ok.1 g4
      obtain ⟨⟨⟨neg, item⟩, rest⟩, k1, k2⟩ := ha.of_ok g1
      obtain ⟨r', m1, m2⟩ := (template_iff _ _ _).1 k1
      rw [multi_iff] at m2
      have hacc := (parseRepr_iff _ _ _ _ k2.1.parse p).1 g3
      obtain ⟨d2, n1, n2, n3⟩ := accumulate_nanos hd (Denotes.wf hacc.1)
      rw [n1] at g5
      cases g5
      rw [g1] at hsafe
      cases next with
      | none =>
        have hr : rest = [] := k2.2.2
        subst hr
        cases g6
        exact ⟨[p], ⟨_, .last m1 m2, .cons hacc .nil⟩, by rw [← hx, n3]; rfl⟩
      | some c' =>
        obtain ⟨hr, hat⟩ : rest ≠ [] ∧ At I 1 c' rest := k2.2.2
        have hm := hsafe.2 c' rfl
        obtain ⟨ds, ⟨items, q1, q2⟩, q3⟩ := (ih d1 n2 (hat.le (Nat.zero_le _)) hr (by have := hm.2.1; omega)).1
          ⟨d', g6, hw, hx⟩
        exact ⟨p :: ds, ⟨_, .more m1 m2 hr q1, .cons hacc q2⟩, by rw [q3, n3]; rfl⟩
    · rintro ⟨ds, ⟨items, q1, q2⟩, q3⟩
      cases q1 with
      | @last _ neg r' item m1 m2 =>
        cases q2 with
        | @cons _ p _ _ hacc q2 =>
          cases q2
          obtain ⟨⟨r, next⟩, g1, g2⟩ := ha.some ((template_iff _ _ _).2 ⟨r', m1, (multi_iff _).2 m2⟩)
          obtain ⟨d2, n1, n2, n3⟩ := accumulate_nanos hd (Denotes.wf hacc.1)
          refine ⟨d2, ?_, n2, by rw [n3, q3]; rfl⟩
          rw [g1, ok_bind]
          simp only
          rw [(parseRepr_iff _ _ _ _ g2.1.parse p).2 hacc, ok_bind, n1, ok_bind]
          cases next with
          | none => rfl
          | some c' =>
            have := g2.2.2
            exact absurd rfl this.1
      | @more _ neg r' item rest l m1 m2 hr q1 =>
        cases q2 with
        | @cons _ p _ ds hacc q2 =>
          obtain ⟨⟨r, next⟩, g1, g2⟩ := ha.some ((template_iff _ _ _).2 ⟨r', m1, (multi_iff _).2 m2⟩)
          obtain ⟨d2, n1, n2, n3⟩ := accumulate_nanos hd (Denotes.wf hacc.1)
          rw [g1] at hsafe
          rw [g1, ok_bind]
          simp only
          rw [(parseRepr_iff _ _ _ _ g2.1.parse p).2 hacc, ok_bind, n1, ok_bind]
          cases next with
          | none => exact absurd g2.2.2 hr
          | some c' =>
            obtain ⟨-, hat⟩ : rest ≠ [] ∧ At I 1 c' rest := g2.2.2
            have hm := hsafe.2 c' rfl
            exact (ih d2 n2 (hat.le (Nat.zero_le _)) hr (by have := hm.2.1; omega)).2
              ⟨ds, ⟨l, q1, q2⟩, by rw [q3, n3]; rfl⟩

end Fundu
