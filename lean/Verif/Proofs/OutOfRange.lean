import Verif.Spec.OutOfRange
import Verif.Proofs.MistakesParse
import Verif.Props.Words
import Verif.Props.Safety
/-! # Multipliers which are out of range -/
namespace Fundu
open Fundu.Spec Fundu.Props

theorem outOfRange_iff (cfg : Config) (neg : Bool) (item : Item) : OutOfRange item ↔ ¬ ∃ d, Denotes cfg neg item d := by
  constructor
  · rintro h ⟨d, hd⟩
    cases hd with
    | number => cases h
    | numberUnit h1 => cases h with | number h => exact h h1
    | infinity => cases h
    | word h1 => cases h with | word h => exact h h1
    | numeral h1 h2 =>
      cases h with
      | numeral h => exact h h1
      | numeralUnit _ h => exact h h2
  · intro h
    cases item with
    | number W F e u =>
      cases u with
      | none =>
        obtain ⟨d, hd⟩ := value_exists neg W F e cfg.defaultUnit.multiplier
        exact absurd ⟨d, .number hd⟩ h
      | some u =>
        obtain ⟨u, m⟩ := u
        refine .number fun hf => ?_
        obtain ⟨d, hd⟩ := value_exists neg W F e (product u.multiplier m)
        exact h ⟨d, .numberUnit hf hd⟩
    | infinity =>
      refine absurd ⟨⟨neg, StdDuration.MAX⟩, .infinity (by cases neg <;> decide) (by cases neg <;> decide)⟩ h
    | word u =>
      obtain ⟨u, m⟩ := u
      refine .word fun hf => ?_
      obtain ⟨d, hd⟩ := value_exists (neg && decide ((product u.multiplier m).exponent ≤ 19)) (b! "1") [] 0 (product u.multiplier m)
      exact h ⟨d, .word hf hd⟩
    | numeral q u =>
      obtain ⟨u, m⟩ := u
      by_cases h1 : Fits q u.multiplier
      · refine .numeralUnit h1 fun h2 => ?_
        obtain ⟨d, hd⟩ := value_exists (neg && decide ((product (product q u.multiplier) m).exponent ≤ 19)) (b! "1") [] 0
          (product (product q u.multiplier) m)
        exact h ⟨d, .numeral h1 h2 hd⟩
      · exact .numeral h1

/-- a multiplier out of range: there is a panic -/
theorem parseRepr_panics {cfg : Config} {r : DurationRepr} {neg : Bool} {item : Item} (h : r.parse = L.value cfg neg item)
    (ho : OutOfRange item) : ∃ p, parseRepr cfg r = panic p := by
  have ho := (outOfRange_iff cfg neg item).1 ho
  rcases parseRepr_cases h with ⟨d, ⟨h1, -⟩, -⟩ | ⟨d, h1, -⟩ | ⟨-, h1⟩
  · exact absurd ⟨d, h1⟩ ho
  · exact absurd ⟨d, h1⟩ ho
  · exact h1

theorem parseSingle_panics {env : Env} {s : Bytes} (ho : CfgOk env.cfg) (hsc : env.scan = fun d c => c.advanceTo d) (hI : utf8Valid s = true)
    (h : SingleOutOfRange env.cfg env.units env.keywords env.numerals s) : ∃ p, parseSingle env s = panic p := by
  obtain ⟨neg, r, item, h1, h2, h3⟩ := h
  have hat : At s 0 (Cursor.new s) s := ⟨Inv.new hI, Cursor.rest_new s, Nat.zero_le _⟩
  obtain ⟨o, g1, g2⟩ := (template_at ho hsc .single hat).some ((template_iff _ _ _).2 ⟨r, h1, (single_iff _ _).2 ⟨rfl, h2⟩⟩)
  unfold parseSingle
  rw [g1, ok_bind]
  exact parseRepr_panics g2.1.parse h3

theorem loop_panics {env : Env} {I s : Bytes} {c : Cursor} (he : EnvOk env) (hsc : env.scan = fun d c => c.advanceTo d) (fuel : Nat) (d : Duration) (hd : d.WF)
    (h : At I 0 c s) (hf : I.length < c.pos + fuel) (hm : FirstOutOfRange env.cfg env.units env.keywords env.numerals s) :
    ∃ p, parseMultipleLoop env fuel d c = panic p := by
  induction hm generalizing d c fuel with
  | @here s neg r item rest h1 h2 h3 =>
    cases fuel with
    | zero => have := h.inv.pos; omega
    | succ fuel =>
      unfold parseMultipleLoop
      obtain ⟨⟨r', next⟩, g1, g2⟩ := (template_at he.cfg hsc .multiple h).some
        ((template_iff _ _ _).2 ⟨r, h1, (multi_iff _).2 h2⟩)
      rw [g1, ok_bind]
      simp only
      obtain ⟨p, hp⟩ := parseRepr_panics g2.1.parse h3
      rw [hp]
      exact ⟨p, rfl⟩
  | @later s neg r item rest d' h1 h2 h3 h4 h5 ih =>
    cases fuel with
    | zero => have := h.inv.pos; omega
    | succ fuel =>
      unfold parseMultipleLoop
      obtain ⟨b, l, hb⟩ := List.exists_cons_of_ne_nil (signPart_ne h1)
      have hcur : c.cur.isSome = true := by rw [hb] at h; rw [h.cons]; rfl
      have hsafe := templateParse_safe he .multiple h.inv hcur
      obtain ⟨⟨r', next⟩, g1, g2⟩ := (template_at he.cfg hsc .multiple h).some
        ((template_iff _ _ _).2 ⟨r, h1, (multi_iff _).2 h2⟩)
      rw [g1] at hsafe
      rw [g1, ok_bind]
      simp only
      obtain ⟨d2, n1, n2, n3⟩ := accumulate_nanos hd (Denotes.wf h4.1)
      rw [(parseRepr_iff _ _ _ _ g2.1.parse d').2 h4, ok_bind, n1, ok_bind]
      cases next with
      | none => exact absurd g2.2.2 h3
      | some c' =>
        obtain ⟨-, hat⟩ : rest ≠ [] ∧ At I 1 c' rest := g2.2.2
        have hm := hsafe.2 c' rfl
        exact ih _ d2 n2 (hat.le (Nat.zero_le _)) (by have := hm.2.1; omega)

/-- durations, a mistake, or a multiplier which is out of range -/
theorem loop_kinds {env : Env} {I s : Bytes} {c : Cursor} (he : EnvOk env) (hsc : env.scan = fun d c => c.advanceTo d) (fuel : Nat) (d : Duration) (hd : d.WF)
    (h : At I 0 c s) (hf : I.length < c.pos + fuel) :
    (∃ d', parseMultipleLoop env fuel d c = .ok d') ∨
    (∃ f, FirstMistake env.cfg env.units env.keywords env.numerals s f) ∨
    FirstOutOfRange env.cfg env.units env.keywords env.numerals s := by
  induction fuel generalizing d c s with
  | zero => have := h.inv.pos; omega
  | succ fuel ih =>
    rcases sign_cases env.cfg s with rfl | ⟨f, hf'⟩ | ⟨neg, r, h1, h2⟩
    · exact Or.inr (Or.inl ⟨_, .empty⟩)
    · exact Or.inr (Or.inl ⟨f, .sign hf'⟩)
    · rcases multi_total env.units env.keywords env.numerals env.cfg r h2 with ⟨item, rest, h3⟩ | ⟨f, h3⟩
      · obtain ⟨b, l, hb⟩ := List.exists_cons_of_ne_nil (signPart_ne h1)
        have hcur : c.cur.isSome = true := by rw [hb] at h; rw [h.cons]; rfl
        have hsafe := templateParse_safe he .multiple h.inv hcur
        obtain ⟨⟨r', next⟩, g1, g2⟩ := (template_at he.cfg hsc .multiple h).some
          ((template_iff _ _ _).2 ⟨r, h1, (multi_iff _).2 h3⟩)
        rw [g1] at hsafe
        unfold parseMultipleLoop
        rw [g1, ok_bind]
        simp only
        rcases parseRepr_cases g2.1.parse with ⟨d', k1, k2⟩ | ⟨d', k1, k2, k3, k4⟩ | ⟨k1, p, k2⟩
        · obtain ⟨d2, n1, n2, n3⟩ := accumulate_nanos hd (Denotes.wf k1.1)
          rw [k2, ok_bind, n1, ok_bind]
          cases next with
          | none => exact Or.inl ⟨d2, rfl⟩
          | some c' =>
            obtain ⟨hr, hat⟩ : rest ≠ [] ∧ At I 1 c' rest := g2.2.2
            have hm := hsafe.2 c' rfl
            rcases ih d2 n2 (hat.le (Nat.zero_le _)) (by have := hm.2.1; omega) with q | ⟨f, q⟩ | q
            · exact Or.inl q
            · exact Or.inr (Or.inl ⟨f, .later h1 h3 hr k1 q⟩)
            · exact Or.inr (Or.inr (.later h1 h3 hr k1 q))
        · exact Or.inr (Or.inl ⟨_, .negative h1 h3 k1 k2 k3⟩)
        · exact Or.inr (Or.inr (.here h1 h3 ((outOfRange_iff env.cfg neg item).2 k1)))
      · exact Or.inr (Or.inl ⟨f, .text h1 h3⟩)

/-! ## Tables whose multipliers are in range -/

theorem fits_ago {u : TimeUnit} {m : Multiplier} (h : Fits u.multiplier m) : Fits u.multiplier (negated m) := by
  by_cases hm : m.coefficient = -2 ^ 63
  · obtain ⟨h1, h2⟩ := h
    refine ⟨?_, h2⟩
    unfold negated
    simp only [if_pos hm]
    rw [hm] at h1
    revert h1
    cases u <;> decide
  · exact fits_negated h hm

theorem unitSingle_fits {cfg : Config} {units : TimeUnitsLike} (hu : TableFits units) {s r : Bytes} {v : TimeUnit × Multiplier}
    (h : UnitSingle cfg units s v r) : Fits v.1.multiplier v.2 := by
  cases h with
  | whole _ h => exact (hu _ _ _ h).2.2
  | plain _ _ _ h => exact (hu _ _ _ h).2.2
  | ago _ _ _ h _ _ => exact fits_ago (hu _ _ _ h).2.2

theorem unitMulti_fits {cfg : Config} {units : TimeUnitsLike} (hu : TableFits units) {s r : Bytes} {v : TimeUnit × Multiplier}
    (h : UnitMulti cfg units s v r) : Fits v.1.multiplier v.2 := by
  cases h with
  | mk h1 h2 _ =>
    obtain ⟨w, -, -, h1⟩ := h1
    have := (hu _ _ _ h1).2.2
    cases h2 with
    | absent => exact this
    | other => exact this
    | ago => exact fits_ago this

/-- only numerals can be out of range -/
theorem single_numeral {cfg : Config} {units : TimeUnitsLike} {keywords : Option TimeUnitsLike} {numerals : Option NumbersLike}
    (hu : TableFits units) (hk : ∀ k, keywords = some k → TableFits k) {s : Bytes} {item : Item}
    (h : SingleText cfg units keywords numerals s item) (ho : OutOfRange item) : ∃ q u m, item = .numeral q (u, m) := by
  cases h with
  | number _ h =>
    cases h with
    | absent => cases ho
    | present _ _ _ h => cases ho with | number ho => exact absurd (unitSingle_fits hu h) ho
  | infinity => cases ho
  | keyword _ h1 h2 => cases ho with | word ho => exact absurd (hk _ h1 _ _ _ h2).2.2 ho
  | unit _ _ _ h => cases ho with | word ho => exact absurd (unitSingle_fits hu h) ho
  | numeral => exact ⟨_, _, _, rfl⟩

theorem multi_numeral {cfg : Config} {units : TimeUnitsLike} {keywords : Option TimeUnitsLike} {numerals : Option NumbersLike}
    (hu : TableFits units) (hk : ∀ k, keywords = some k → TableFits k) {s r : Bytes} {item : Item}
    (h : MultiText cfg units keywords numerals s item r) (ho : OutOfRange item) : ∃ q u m, item = .numeral q (u, m) := by
  cases h with
  | numberEnd => cases ho
  | numberUnit _ _ _ h => cases ho with | number ho => exact absurd (unitMulti_fits hu h) ho
  | number => cases ho
  | inf => cases ho
  | infinity => cases ho
  | keyword _ h1 h2 => 
    obtain ⟨w, -, -, h2⟩ := h2
    cases ho with | word ho => exact absurd (hk _ h1 _ _ _ h2).2.2 ho
  | unit _ _ _ h => cases ho with | word ho => exact absurd (unitMulti_fits hu h) ho
  | numeral => exact ⟨_, _, _, rfl⟩

end Fundu
