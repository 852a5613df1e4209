import Verif.Proofs.GnuItem
import Verif.Proofs.GnuGrammar
import Verif.Proofs.ParseGrammar
import Verif.Proofs.Buffer
import Verif.Props.Grammar
/-! # The loop of the gnu parser -/
namespace Fundu.Gnu
open Fundu Fundu.Spec

/-- the configuration of the parser refers to ASCII only -/
theorem config_text : CfgText CONFIG :=
  ⟨fun b h => Props.posixSpace_ascii ((delimiter_iff b).1 h), fun b h => Props.posixSpace_ascii ((delimiter_iff b).1 h),
    by intro ws h; cases h⟩

/-- the values of the loop and the total they stand for -/
def MeansTotal (t : Totals) (T : GnuTotal) : Prop :=
  t.years = T.years ∧ t.months = T.months ∧ t.duration.WF ∧ nanos t.duration = T.nanoseconds

theorem saturatingAddI64_eq (a b : Int) : saturatingAddI64 a b = clampI64 (a + b) := by
  unfold saturatingAddI64 clampI64 I64_MIN I64_MAX
  split
  · omega
  · split <;> omega

theorem addDuration_nanos {d p : Duration} (hd : d.WF) (hp : p.WF) :
    ∃ s, addDuration d p = .ok s ∧ s.WF ∧ nanos s = clamp (nanos d + nanos p) := by
  unfold addDuration
  by_cases h2 : d.isZero = true
  · rw [if_pos h2]
    exact ⟨p, rfl, hp, by rw [nanos_of_isZero h2, Int.zero_add, clamp_nanos hp]⟩
  · rw [if_neg h2]
    by_cases h1 : p.isZero = true
    · rw [if_pos h1]
      exact ⟨d, rfl, hd, by rw [nanos_of_isZero h1, Int.add_zero, clamp_nanos hd]⟩
    · rw [if_neg h1]
      obtain ⟨s, hs, hw, hn⟩ := Props.C02_saturating_add d p hd hp
      exact ⟨s, by rw [hs, liftP_ok], hw, hn⟩

theorem addOutput_total {t : Totals} {T : GnuTotal} {o : FuzzyOutput} {part : GnuPart} (ht : MeansTotal t T) (ho : Means o part) :
    ∃ t', addOutput t o = .ok t' ∧ MeansTotal t' (T.add part) := by
  obtain ⟨h1, h2, h3, h4⟩ := ht
  cases o with
  | duration d =>
    cases part with
    | exact x =>
      obtain ⟨hd, rfl⟩ := ho
      obtain ⟨s, g1, g2, g3⟩ := addDuration_nanos h3 hd
      refine ⟨{ t with duration := s }, ?_, h1, h2, g2, ?_⟩
      · unfold addOutput
        simp only
        rw [g1, ok_bind]
        rfl
      · rw [g3, h4]
        rfl
    | months n => exact ho.elim
    | years n => exact ho.elim
  | months n =>
    cases part with
    | months n' =>
      cases ho
      exact ⟨_, rfl, h1, by show saturatingAddI64 _ _ = clampI64 _; rw [saturatingAddI64_eq, h2], h3, h4⟩
    | exact x => exact ho.elim
    | years n => exact ho.elim
  | years n =>
    cases part with
    | years n' =>
      cases ho
      exact ⟨_, rfl, by show saturatingAddI64 _ _ = clampI64 _; rw [saturatingAddI64_eq, h1], h2, h3, h4⟩
    | exact x => exact ho.elim
    | months n => exact ho.elim

/-- the environment without the buffer -/
abbrev plain : Env := (env CONFIG).unbuffered

theorem plain_ok : EnvOk plain := Props.envOk_plain config_text _ _ _

/-- the first part of a text, as the parser finds it -/
def Step (s : Bytes) (part : GnuPart) (rest : Bytes) : Prop :=
  ∃ neg r, GnuSign s neg r ∧ GnuText neg r part rest

theorem sign_after {s r : Bytes} {neg : Bool} (h : SignPart CONFIG s neg r) : L.afterSign CONFIG s = r := by
  obtain ⟨o, h1, -⟩ := (sign_iff neg).1 h
  unfold L.afterSign
  rw [h1]

theorem step_iff {s rest : Bytes} {part : GnuPart} : Step s part rest ↔
    ∃ neg item, L.template .multiple plain s = some ((neg, item), rest) ∧
      partOf neg (L.point (L.afterSign CONFIG s)) item = some part := by
  constructor
  · rintro ⟨neg, r, h1, h2⟩
    obtain ⟨item, g1, g2⟩ := gnu_multi h2
    have hs := sign_gnu.2 ⟨h1, gnuText_ne h2⟩
    exact ⟨neg, item, (template_iff _ _ _).2 ⟨r, hs, (multi_iff _).2 g1⟩, by rw [sign_after hs]; exact g2⟩
  · rintro ⟨neg, item, h1, h2⟩
    obtain ⟨r, g1, g2⟩ := (template_iff _ _ _).1 h1
    rw [sign_after g1] at h2
    exact ⟨neg, r, (sign_gnu.1 g1).1, multi_gnu ((multi_iff _).1 g2) h2⟩

theorem step_unique {s rest rest' : Bytes} {part part' : GnuPart} (h : Step s part rest) (h' : Step s part' rest') :
    part = part' ∧ rest = rest' := by
  obtain ⟨n, i, h1, h2⟩ := step_iff.1 h
  obtain ⟨n', i', h1', h2'⟩ := step_iff.1 h'
  rw [h1] at h1'
  cases h1'
  rw [h2] at h2'
  cases h2'
  exact ⟨rfl, rfl⟩

theorem step_ne {s rest : Bytes} {part : GnuPart} (h : Step s part rest) : s ≠ [] := by
  obtain ⟨neg, r, h1, h2⟩ := h
  rintro rfl
  cases h1 with
  | absent _ => exact gnuText_ne h2 rfl

theorem relative_iff {s : Bytes} {l : List GnuPart} : RelativeTime s l ↔
    ∃ part rest, Step s part rest ∧ (rest = [] ∧ l = [part] ∨ ∃ l', l = part :: l' ∧ RelativeTime rest l') := by
  constructor
  · intro h
    cases h with
    | last h1 h2 => exact ⟨_, _, ⟨_, _, h1, h2⟩, Or.inl ⟨rfl, rfl⟩⟩
    | more h1 h2 h3 => exact ⟨_, _, ⟨_, _, h1, h2⟩, Or.inr ⟨_, rfl, h3⟩⟩
  · rintro ⟨part, rest, ⟨neg, r, h1, h2⟩, ⟨rfl, rfl⟩ | ⟨l', rfl, h3⟩⟩
    · exact .last h1 h2
    · exact .more h1 h2 h3

theorem relative_ne {s : Bytes} {l : List GnuPart} (h : RelativeTime s l) : s ≠ [] := by
  obtain ⟨_, _, h, -⟩ := relative_iff.1 h
  exact step_ne h

/-- a text has at most one reading -/
theorem relative_unique {s : Bytes} {l l' : List GnuPart} (h : RelativeTime s l) (h' : RelativeTime s l') : l = l' := by
  induction h generalizing l' with
  | last h1 h2 =>
    obtain ⟨p, r, k1, k2⟩ := relative_iff.1 h'
    obtain ⟨rfl, rfl⟩ := step_unique ⟨_, _, h1, h2⟩ k1
    rcases k2 with ⟨-, rfl⟩ | ⟨l', rfl, h3⟩
    · rfl
    · exact absurd rfl (relative_ne h3)
  | more h1 h2 h3 ih =>
    obtain ⟨p, r, k1, k2⟩ := relative_iff.1 h'
    obtain ⟨rfl, rfl⟩ := step_unique ⟨_, _, h1, h2⟩ k1
    rcases k2 with ⟨rfl, -⟩ | ⟨l', rfl, k3⟩
    · exact absurd rfl (relative_ne h3)
    · rw [ih k3]

/-- what the loop yields -/
def LoopResult (n : Nat) (s : Bytes) (T : GnuTotal) (x : R Totals) : Prop :=
  (∃ l t, RelativeTime s l ∧ x = .ok t ∧ MeansTotal t (l.foldl GnuTotal.add T)) ∨
    ((¬ ∃ l, RelativeTime s l) ∧ ∃ e, x = fail e ∧ ErrOk n e)

theorem loop_result {I s : Bytes} {c : Cursor} (fuel : Nat) {t : Totals} {T : GnuTotal} (ht : MeansTotal t T)
    (h : At I 0 c s) (hs : s ≠ []) (hf : I.length < c.pos + fuel) :
    LoopResult I.length s T (fuzzyLoop plain fuel t c) := by
  induction fuel generalizing t T c s with
  | zero => have := h.inv.pos; omega
  | succ fuel ih =>
    have hcur : c.cur.isSome = true := by
      cases s with
      | nil => exact absurd rfl hs
      | cons a l => rw [h.cons]; rfl
    have ha := template_at plain_ok.cfg rfl .multiple h
    have hsafe := templateParse_safe plain_ok .multiple h.inv hcur
    unfold fuzzyLoop
    cases hx : templateParse .multiple plain c with
    | error e =>
      rw [hx] at ha hsafe
      cases hy : L.template .multiple plain s with
      | some y => rw [hy] at ha; exact ha.elim
      | none =>
        right
        constructor
        · rintro ⟨l, hl⟩
          obtain ⟨p, r, h1, -⟩ := relative_iff.1 hl
          obtain ⟨n, i, h2, -⟩ := step_iff.1 h1
          rw [hy] at h2
          cases h2
        · cases e with
          | err e => exact ⟨e, rfl, hsafe⟩
          | panic p => exact hsafe.elim
    | ok o =>
      obtain ⟨r, next⟩ := o
      rw [hx] at ha hsafe
      cases hy : L.template .multiple plain s with
      | none => rw [hy] at ha; exact ha.elim
      | some y =>
        obtain ⟨⟨neg, item⟩, rest⟩ := y
        rw [hy] at ha
        obtain ⟨r', m1, m2⟩ := (template_iff _ _ _).1 hy
        have hi := multi_ok ((multi_iff _).1 m2)
        have hres := item_result rfl ha.1 hi
        rw [ok_bind]
        simp only
        have hstep : ∀ {part rest'}, Step s part rest' →
            partOf neg (L.point (L.afterSign CONFIG s)) item = some part ∧ rest' = rest := by
          intro part rest' h1
          obtain ⟨n, i, h2, h3⟩ := step_iff.1 h1
          rw [hy] at h2
          cases h2
          exact ⟨h3, rfl⟩
        cases hp : partOf neg (L.point (L.afterSign CONFIG s)) item with
        | none =>
          have hres : Result _ (partOf neg (L.point (L.afterSign CONFIG s)) item) := hres
          rw [hp] at hres
          obtain ⟨e, hres⟩ := hres
          rw [hres]
          right
          constructor
          · rintro ⟨l, hl⟩
            obtain ⟨p, r, h1, -⟩ := relative_iff.1 hl
            have := (hstep h1).1
            rw [hp] at this
            cases this
          · exact ⟨_, rfl, trivial⟩
        | some part =>
          have hres : Result _ (partOf neg (L.point (L.afterSign CONFIG s)) item) := hres
          rw [hp] at hres
          obtain ⟨o, hres, ho⟩ := hres
          have st : Step s part rest := step_iff.2 ⟨_, _, hy, hp⟩
          obtain ⟨t', g1, g2⟩ := addOutput_total ht ho
          rw [hres, ok_bind, g1, ok_bind]
          cases next with
          | none =>
            have hr : rest = [] := ha.2.2
            subst hr
            exact Or.inl ⟨[part], t', relative_iff.2 ⟨_, _, st, Or.inl ⟨rfl, rfl⟩⟩, rfl, g2⟩
          | some c' =>
            obtain ⟨hr, hat⟩ : rest ≠ [] ∧ At I 1 c' rest := ha.2.2
            have hm := hsafe.2 c' rfl
            rcases ih g2 (hat.le (Nat.zero_le _)) hr (by have := hm.2.1; omega) with ⟨l, t2, k1, k2, k3⟩ | ⟨k1, e, k2, k3⟩
            · exact Or.inl ⟨part :: l, t2, relative_iff.2 ⟨_, _, st, Or.inr ⟨l, rfl, k1⟩⟩, k2, k3⟩
            · refine Or.inr ⟨?_, e, k2, k3⟩
              rintro ⟨l, hl⟩
              obtain ⟨p, r, h1, h2⟩ := relative_iff.1 hl
              obtain ⟨-, rfl⟩ := hstep h1
              rcases h2 with ⟨rfl, -⟩ | ⟨l', -, h3⟩
              · exact hr rfl
              · exact k1 ⟨l', h3⟩

/-! ## The buffer -/

theorem fuzzyLoop_sim {e : Env} (hco : Coherent .multiple e) (n : Nat) (t : Totals) (c : Cursor) (hr : BufOk e.cfg c) :
    fuzzyLoop e.buffered n t c = fuzzyLoop e.unbuffered n t c.erase := by
  apply Sim.eq
  induction n generalizing t c with
  | zero => exact Sim.panic _
  | succ n ih =>
    unfold fuzzyLoop
    refine (templateParse_sim .multiple hco c hr).bind ?_
    rintro ⟨r, nx⟩ ⟨r', nx'⟩ ⟨h1, h2⟩
    simp only at h1 h2 ⊢
    subst h1
    refine Sim.bind_same (x := parseReprFuzzy r) (fun parsed _ => ?_)
    refine Sim.bind_same (fun d' _ => ?_)
    match nx, nx', h2 with
    | none, none, _ => exact rfl
    | some c1, some c2, h' =>
      obtain ⟨rfl, h'⟩ := h'
      exact ih d' c1 (h' trivial)

/-- the result of `parse_fuzzy` on a text without white space around it -/
theorem fuzzy_result {s : Bytes} (hs : utf8Valid s = true) (hne : s ≠ []) :
    LoopResult s.length s ⟨0, 0, 0⟩ (fuzzyLoop (env CONFIG) (s.length + 1) ⟨0, 0, Duration.ZERO⟩ (Cursor.new s)) := by
  have e : fuzzyLoop (env CONFIG) (s.length + 1) ⟨0, 0, Duration.ZERO⟩ (Cursor.new s) =
      fuzzyLoop plain (s.length + 1) ⟨0, 0, Duration.ZERO⟩ (Cursor.new s) :=
    fuzzyLoop_sim (e := env CONFIG) (Or.inl fun b h => h) _ _ (Cursor.new s) (fun p w n h => by cases h)
  rw [e]
  exact loop_result _ ⟨rfl, rfl, by decide, rfl⟩ ⟨Inv.new hs, Cursor.rest_new s, Nat.zero_le _⟩ hne (by show _ < 0 + _; omega)

end Fundu.Gnu
