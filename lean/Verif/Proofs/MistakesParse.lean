import Verif.Proofs.MistakesTotal
/-! # The parser reports the mistakes: whole texts -/
namespace Fundu
open Spec Cursor

variable {I : Bytes} {c : Cursor} {s : Bytes} {env : Env} {f : Fault}

theorem template_start (mode : Mode) (h : At I 0 c s) (hs : s ≠ []) :
    templateParse mode env c = (parseNumberSign env.cfg c >>= fun o =>
      parseBody mode env { defaultUnit := env.cfg.defaultUnit, input := o.2.input, isNegative := o.1 } o.2) := by
  obtain ⟨b, l, rfl⟩ := List.exists_cons_of_ne_nil hs
  unfold templateParse
  rw [h.cons]

theorem template_sign_fails (ho : CfgOk env.cfg) (mode : Mode) (h : At I 0 c s) (hm : SignMistake env.cfg s f) :
    Fails I (templateParse mode env c) f := by
  rw [template_start mode h (by cases hm <;> simp)]
  exact (sign_fails ho h hm).bind _

theorem signPart_ne {cfg : Config} {neg : Bool} {r : Bytes} (h : SignPart cfg s neg r) : s ≠ [] := by
  cases h with
  | absent h _ => exact h
  | plus => simp
  | minus => simp

theorem template_text_fails (ho : CfgOk env.cfg) (hsc : env.scan = fun d c => c.advanceTo d) (mode : Mode) (h : At I 0 c s)
    {neg : Bool} {r : Bytes} (hsg : SignPart env.cfg s neg r)
    (hm : match mode with
      | .single => SingleMistake env.cfg env.units env.keywords env.numerals r f
      | .multiple => MultiMistake env.cfg env.units env.keywords env.numerals r f) :
    Fails I (templateParse mode env c) f := by
  rw [template_start mode h (signPart_ne hsg)]
  obtain ⟨o, h1, -⟩ := (sign_iff neg).mp hsg
  obtain ⟨⟨o', c'⟩, h2, h3, h4⟩ := (sign_sim ho h).some h1
  simp only at h3 h4
  refine Fails.ok h2 ?_
  cases mode with
  | single => exact single_fails ho hsc rfl h4 hm
  | multiple => exact multi_fails ho hsc rfl h4 hm

/-- the value is computed, rejected as negative, or there is none -/
theorem parseRepr_cases {cfg : Config} {r : DurationRepr} {neg : Bool} {item : Item}
    (h : r.parse = L.value cfg neg item) :
    (∃ d, Accepted cfg neg item d ∧ parseRepr cfg r = .ok d) ∨
    (∃ d, Denotes cfg neg item d ∧ d.isNegative = true ∧ cfg.allowNegative = false ∧
      parseRepr cfg r = fail .negativeNumber) ∨
    ((¬ ∃ d, Denotes cfg neg item d) ∧ ∃ p, parseRepr cfg r = panic p) := by
  cases hv : L.value cfg neg item with
  | error p =>
    refine Or.inr (Or.inr ⟨?_, p, ?_⟩)
    · rintro ⟨d, hd⟩
      rw [← L.value_iff, hv] at hd
      cases hd
    · unfold parseRepr
      rw [h, hv]
      rfl
  | ok d =>
    have hd := (L.value_iff ..).mp hv
    by_cases ha : cfg.allowNegative = true ∨ d.isNegative = false
    · exact Or.inl ⟨d, ⟨hd, ha⟩, (parseRepr_iff cfg r neg item h d).mpr ⟨hd, ha⟩⟩
    · simp only [not_or, Bool.not_eq_true, Bool.not_eq_false] at ha
      refine Or.inr (Or.inl ⟨d, hd, ha.2, ha.1, ?_⟩)
      unfold parseRepr
      rw [h, hv, liftP_ok, ok_bind]
      unfold rejectNegative
      rw [ha.1, ha.2]
      rfl

theorem denotes_eq {cfg : Config} {neg : Bool} {item : Item} {d d' : Duration} (h : Denotes cfg neg item d)
    (h' : Denotes cfg neg item d') : d = d' := by
  rw [← L.value_iff] at h h'
  rw [h] at h'
  cases h'; rfl

theorem parseRepr_negative {cfg : Config} {r : DurationRepr} {neg : Bool} {item : Item} {d : Duration}
    (h : r.parse = L.value cfg neg item) (hd : Denotes cfg neg item d) (hn : d.isNegative = true)
    (ha : cfg.allowNegative = false) : parseRepr cfg r = fail .negativeNumber := by
  rcases parseRepr_cases h with ⟨d', ⟨h1, h2⟩, -⟩ | ⟨-, -, -, -, h5⟩ | ⟨h1, -⟩
  · cases denotes_eq hd h1
    rcases h2 with h2 | h2
    · rw [ha] at h2; cases h2
    · rw [hn] at h2; cases h2
  · exact h5
  · exact absurd ⟨d, hd⟩ h1

/-- a text is empty, or has a mistake in its sign, or a sign or none -/
theorem sign_cases (cfg : Config) (s : Bytes) :
    s = [] ∨ (∃ f, SignMistake cfg s f) ∨ ∃ neg r, SignPart cfg s neg r ∧ r ≠ [] := by
  by_cases hs : s = []
  · exact Or.inl hs
  · right
    cases h : L.sign cfg s with
    | none => exact Or.inl (sign_none hs h)
    | some o =>
      obtain ⟨o, r⟩ := o
      have := (sign_iff (o.getD false)).mpr ⟨o, h, rfl⟩
      refine Or.inr ⟨_, r, this, ?_⟩
      generalize o.getD false = neg at this
      cases this <;> assumption

/-! ## Single durations -/

section
variable (ho : CfgOk env.cfg) (hsc : env.scan = fun d c => c.advanceTo d) (hI : utf8Valid s = true)
include ho hsc hI

theorem parseSingle_fails (hm : Mistake env.cfg env.units env.keywords env.numerals s f) : Fails s (parseSingle env s) f := by
  have hat : At s 0 (Cursor.new s) s := ⟨Inv.new hI, Cursor.rest_new s, Nat.zero_le _⟩
  unfold parseSingle
  cases hm with
  | empty => exact (show Fails [] (templateParse .single env (Cursor.new [])) (.other .empty) from rfl).bind _
  | sign h => exact (template_sign_fails ho .single hat h).bind _
  | text h1 h2 => exact (template_text_fails ho hsc .single hat h1 h2).bind _
  | @negative _ neg r item d h1 h2 h3 h4 h5 =>
    obtain ⟨o, g1, g2⟩ := (template_at ho hsc .single hat).some
      ((template_iff _ _ _).2 ⟨r, h1, (single_iff _ _).2 ⟨rfl, h2⟩⟩)
    refine Fails.ok g1 ?_
    exact parseRepr_negative g2.1.parse h3 h4 h5

/-- a duration, a mistake, or a multiplier which is out of range -/
theorem parseSingle_cases :
    (∃ d, parseSingle env s = .ok d ∧ DenotesSingle env.cfg env.units env.keywords env.numerals s d) ∨
    (∃ f, Mistake env.cfg env.units env.keywords env.numerals s f) ∨
    ((∃ neg r item, SignPart env.cfg s neg r ∧ SingleText env.cfg env.units env.keywords env.numerals r item ∧
      ¬ ∃ d, Denotes env.cfg neg item d) ∧ ∃ p, parseSingle env s = panic p) := by
  rcases sign_cases env.cfg s with rfl | ⟨f, hf⟩ | ⟨neg, r, h1, h2⟩
  · exact Or.inr (Or.inl ⟨_, .empty⟩)
  · exact Or.inr (Or.inl ⟨f, .sign hf⟩)
  · rcases single_total env.units env.keywords env.numerals env.cfg r h2 with ⟨item, h3⟩ | ⟨f, h3⟩
    · have hat : At s 0 (Cursor.new s) s := ⟨Inv.new hI, Cursor.rest_new s, Nat.zero_le _⟩
      obtain ⟨o, g1, g2⟩ := (template_at ho hsc .single hat).some
        ((template_iff _ _ _).2 ⟨r, h1, (single_iff _ _).2 ⟨rfl, h3⟩⟩)
      rcases parseRepr_cases g2.1.parse with ⟨d, k1, k2⟩ | ⟨d, k1, k2, k3, k4⟩ | ⟨k1, p, k2⟩
      · exact Or.inl ⟨d, by unfold parseSingle; rw [g1, ok_bind]; exact k2, neg, r, item, h1, h3, k1⟩
      · exact Or.inr (Or.inl ⟨_, .negative h1 h3 k1 k2 k3⟩)
      · exact Or.inr (Or.inr ⟨⟨neg, r, item, h1, h3, k1⟩, p, by unfold parseSingle; rw [g1, ok_bind]; exact k2⟩)
    · exact Or.inr (Or.inl ⟨f, .text h1 h3⟩)

end

/-! ## Several durations -/

theorem loop_fails (he : EnvOk env) (hsc : env.scan = fun d c => c.advanceTo d) (fuel : Nat) (d : Duration) (hd : d.WF)
    (h : At I 0 c s) (hf : I.length < c.pos + fuel)
    (hm : FirstMistake env.cfg env.units env.keywords env.numerals s f) :
    Fails I (parseMultipleLoop env fuel d c) f := by
  induction hm generalizing d c fuel with
  | empty =>
    cases fuel with
    | zero => have := h.inv.pos; omega
    | succ fuel =>
      unfold parseMultipleLoop
      refine Fails.bind ?_ _
      unfold templateParse
      rw [h.nil]
      rfl
  | sign h1 =>
    cases fuel with
    | zero => have := h.inv.pos; omega
    | succ fuel =>
      unfold parseMultipleLoop
      exact (template_sign_fails he.cfg .multiple h h1).bind _
  | text h1 h2 =>
    cases fuel with
    | zero => have := h.inv.pos; omega
    | succ fuel =>
      unfold parseMultipleLoop
      exact (template_text_fails he.cfg hsc .multiple h h1 h2).bind _
  | @negative s neg r item rest d' h1 h2 h3 h4 h5 =>
    cases fuel with
    | zero => have := h.inv.pos; omega
    | succ fuel =>
      unfold parseMultipleLoop
      obtain ⟨⟨r', next⟩, g1, g2⟩ := (template_at he.cfg hsc .multiple h).some
        ((template_iff _ _ _).2 ⟨r, h1, (multi_iff _).2 h2⟩)
      refine Fails.ok g1 ?_
      exact Fails.bind (show Fails I _ (.other .negativeNumber) from parseRepr_negative g2.1.parse h3 h4 h5) _
  | @later s neg r item rest d' f h1 h2 h3 h4 h5 ih =>
    cases fuel with
    | zero => have := h.inv.pos; omega
    | succ fuel =>
      unfold parseMultipleLoop
      obtain ⟨b, l, hb⟩ := List.exists_cons_of_ne_nil (signPart_ne h1)
      have hcur : c.cur.isSome = true := by rw [hb] at h; rw [h.cons]; rfl
      have hsafe := templateParse_safe he .multiple h.inv hcur
      obtain ⟨⟨r', next⟩, g1, g2⟩ := (template_at he.cfg hsc .multiple h).some
        ((template_iff _ _ _).2 ⟨r, h1, (multi_iff _).2 h2⟩)
      rw [g1] at hsafe
      refine Fails.ok g1 ?_
      refine Fails.ok ((parseRepr_iff _ _ _ _ g2.1.parse d').2 h4) ?_
      obtain ⟨d2, n1, n2, n3⟩ := accumulate_nanos hd (Denotes.wf h4.1)
      refine Fails.ok n1 ?_
      cases next with
      | none => exact absurd g2.2.2 h3
      | some c' =>
        obtain ⟨-, hat⟩ : rest ≠ [] ∧ At I 1 c' rest := g2.2.2
        have hm := hsafe.2 c' rfl
        exact ih _ d2 n2 (hat.le (Nat.zero_le _)) (by have := hm.2.1; omega)

/-- durations, a mistake, or a multiplier which is out of range -/
theorem loop_cases (he : EnvOk env) (hsc : env.scan = fun d c => c.advanceTo d) (fuel : Nat) (d : Duration) (hd : d.WF)
    (h : At I 0 c s) (hf : I.length < c.pos + fuel) :
    (∃ d', parseMultipleLoop env fuel d c = .ok d') ∨
    (∃ f, FirstMistake env.cfg env.units env.keywords env.numerals s f) ∨
    ∃ p, parseMultipleLoop env fuel d c = panic p := by
  induction fuel generalizing d c s with
  | zero => have := h.inv.pos; omega
  | succ fuel ih =>
    rcases sign_cases env.cfg s with rfl | ⟨f, hf'⟩ | ⟨neg, r, h1, h2⟩
    · exact Or.inr (Or.inl ⟨_, .empty⟩)
    · exact Or.inr (Or.inl ⟨f, .sign hf'⟩)
    · rcases multi_total env.units env.keywords env.numerals env.cfg r h2 with ⟨item, rest, h3⟩ | ⟨f, h3⟩
      · obtain ⟨b, l, hb⟩ := List.exists_cons_of_ne_nil (signPart_ne h1)
        have hcur : c.cur.isSome = true := by rw [hb] at h; rw [h.cons]; rfl
        have hsafe := templateParse_safe he .multiple h.inv hcur
        obtain ⟨⟨r', next⟩, g1, g2⟩ := (template_at he.cfg hsc .multiple h).some
          ((template_iff _ _ _).2 ⟨r, h1, (multi_iff _).2 h3⟩)
        rw [g1] at hsafe
        unfold parseMultipleLoop
        rw [g1, ok_bind]
        simp only
        rcases parseRepr_cases g2.1.parse with ⟨d', k1, k2⟩ | ⟨d', k1, k2, k3, k4⟩ | ⟨k1, p, k2⟩
        · obtain ⟨d2, n1, n2, n3⟩ := accumulate_nanos hd (Denotes.wf k1.1)
          rw [k2, ok_bind, n1, ok_bind]
          cases next with
          | none => exact Or.inl ⟨d2, rfl⟩
          | some c' =>
            obtain ⟨hr, hat⟩ : rest ≠ [] ∧ At I 1 c' rest := g2.2.2
            have hm := hsafe.2 c' rfl
            rcases ih d2 n2 (hat.le (Nat.zero_le _)) (by have := hm.2.1; omega) with q | ⟨f, q⟩ | q
            · exact Or.inl q
            · exact Or.inr (Or.inl ⟨f, .later h1 h3 hr k1 q⟩)
            · exact Or.inr (Or.inr q)
        · exact Or.inr (Or.inl ⟨_, .negative h1 h3 k1 k2 k3⟩)
        · rw [k2]
          exact Or.inr (Or.inr ⟨p, rfl⟩)
      · exact Or.inr (Or.inl ⟨f, .text h1 h3⟩)

end Fundu
