import Verif.Spec.Errors
import Verif.Proofs.ListGrammarWords
import Verif.Proofs.Text
/-! # What the errors of the parser say about the text is true -/
namespace Fundu
open Spec

/-- every error of `x` satisfies `P` -/
def Diag {α} (P : ParseError → Prop) (x : R α) : Prop := ∀ e, x = fail e → P e

namespace Diag
variable {α β : Type} {P : ParseError → Prop}

theorem ok (a : α) : Diag P (.ok a) := by intro e h; cases h
theorem pure (a : α) : Diag P (pure a : R α) := by intro e h; cases h
theorem panic (p : Panic) : Diag P (panic p : R α) := by intro e h; cases h
theorem fail {e : ParseError} (h : P e) : Diag P (fail e : R α) := by intro e' h'; cases h'; exact h
theorem liftP (x : Except Panic α) : Diag P (liftP x) := by
  intro e h
  cases x <;> cases h

theorem bind {x : R α} {f : α → R β} (hx : Diag P x) (hf : ∀ a, x = .ok a → Diag P (f a)) : Diag P (x >>= f) := by
  intro e h
  match x, hx, hf with
  | .ok a, _, hf => exact hf a rfl e h
  | .error (.err e'), hx, _ => cases h; exact hx _ rfl
  | .error (.panic p), _, _ => cases h

theorem of_safe {n : Nat} {x : R α} {Q : α → Prop} {f : α → R β} (hx : Diag P x) (hs : Safe n x Q)
    (hf : ∀ a, Q a → Diag P (f a)) : Diag P (x >>= f) :=
  hx.bind (fun a ha => hf a (hs.of_ok ha))
end Diag

section
variable {I : Bytes} {c : Cursor} {cfg : Config} {units : TimeUnitsLike} {numerals : Option NumbersLike}

/-- the part of the input in front of the cursor -/
def before (I : Bytes) (c : Cursor) : Bytes := I.take c.pos

theorem before_split (hc : Inv I c) : I = before I c ++ c.rest := by
  unfold before Cursor.rest
  rw [hc.input]; exact (List.take_append_drop _ _).symm

theorem before_length (hc : Inv I c) : (before I c).length = c.pos := by
  unfold before
  rw [List.length_take, Nat.min_eq_left hc.pos]

theorem before_advanceBy (hc : Inv I c) (k : Nat) : before I (c.advanceBy k) = before I c ++ c.rest.take k := by
  unfold before Cursor.rest
  rw [hc.input, Cursor.pos_advanceBy, List.take_add]

theorem before_advance (hc : Inv I c) {b : UInt8} (hb : c.cur = some b) : before I c.advance = before I c ++ [b] := by
  rw [Cursor.advance_eq, before_advanceBy hc, Cursor.rest_cons hb]; rfl

theorem valid_head {r : Bytes} (h : utf8Valid r = true) : ∀ x, r.head? = some x → isCont x = false := by
  intro x hx
  cases r with
  | nil => cases hx
  | cons a l =>
    simp only [List.head?_cons, Option.some.injEq] at hx
    subst hx
    unfold isCont
    by_contra hcont
    simp at hcont
    unfold utf8Valid at h
    rw [if_neg (by omega)] at h
    rcases l with _ | ⟨b, l⟩
    · cases h
    · simp only at h
      have h2 : utf8Two a b = false := by
        simp [utf8Two]; intros; omega
      rw [h2] at h
      simp only [Bool.false_eq_true, if_false] at h
      rcases l with _ | ⟨d, l⟩
      · cases h
      · simp only at h
        have h3 : utf8Three a b d = false := by
          simp [utf8Three]; intros; omega
        rw [h3] at h
        simp only [Bool.false_eq_true, if_false] at h
        rcases l with _ | ⟨f, l⟩
        · cases h
        · simp [utf8Four] at h; omega

theorem texts_at {a r : Bytes} (hI : utf8Valid (a ++ r) = true) (hr : utf8Valid r = true) : IsText a ∧ IsText r := by
  rw [isText_iff, isText_iff]
  exact ⟨utf8Valid_left hI (valid_head hr), hr⟩

theorem claim_syntax (hI : utf8Valid I = true) (hc : Inv I c) {reason : Reason}
    (h : SyntaxClaim cfg (before I c) c.rest reason) : Claim cfg units numerals I (.syntax c.pos reason) := by
  have := texts_at (a := before I c) (r := c.rest) (by rw [← before_split hc]; exact hI) hc.valid
  exact ⟨before I c, c.rest, before_split hc, before_length hc, this.1, this.2, h⟩

theorem claim_timeUnit (hI : utf8Valid I = true) (hc : Inv I c) {reason : Reason}
    (h : TimeUnitClaim cfg units numerals (before I c) c.rest reason) :
    Claim cfg units numerals I (.timeUnit c.pos reason) := by
  have := texts_at (a := before I c) (r := c.rest) (by rw [← before_split hc]; exact hI) hc.valid
  exact ⟨before I c, c.rest, before_split hc, before_length hc, this.1, this.2, h⟩

theorem rest_starts {p : UInt8 → Prop} {b : UInt8} (hb : c.cur = some b) (h : p b) : StartsWith p c.rest :=
  ⟨b, _, Cursor.rest_cons hb, h⟩

theorem rest_ne {b : UInt8} (hb : c.cur = some b) : c.rest ≠ [] := by rw [Cursor.rest_cons hb]; simp

/-! ## Delimiters and connections -/

/-- `d` is one of the delimiters of the settings -/
def IsDelim (cfg : Config) (d : Delimiter) : Prop := d = cfg.innerDelimiter ∨ d = cfg.outerDelimiter

theorem tryConsumeDelimiter_diag (hI : utf8Valid I = true) {d : Delimiter} (hd : IsDelim cfg d) (hc : Inv I c) {b : UInt8}
    (hb : c.cur = some b) (hdb : d b = true) : Diag (Claim cfg units numerals I) (c.tryConsumeDelimiter d) := by
  by_cases hp : c.pos = 0
  · unfold Cursor.tryConsumeDelimiter
    rw [Cursor.assertDelimiter_ok d c b hb hdb, ok_bind, if_pos hp]
    refine Diag.fail ?_
    rw [← hp]
    refine claim_syntax hI hc ⟨?_, rest_starts hb ?_⟩
    · unfold before; rw [hp]; rfl
    · rcases hd with rfl | rfl
      · exact Or.inl hdb
      · exact Or.inr hdb
  · rw [Cursor.tryConsumeDelimiter_eq d c b hb hdb hp]
    by_cases h : (c.advanceBy (c.delims d).length).rest = []
    · rw [if_pos h]
      refine Diag.fail (claim_syntax hI hc ⟨?_, rest_ne hb, ?_⟩)
      · intro h0
        have := before_length hc
        rw [h0] at this
        exact hp this.symm
      · have hall : ∀ x ∈ c.rest, d x = true := by
          intro x hx
          have : c.rest = c.delims d := by
            rw [Cursor.rest_advanceBy] at h
            have h1 := List.take_append_drop (c.delims d).length c.rest
            rw [h, List.append_nil, Cursor.delims_take] at h1
            exact h1.symm
          rw [this] at hx
          exact takeWhile_mem hx
        rcases hd with rfl | rfl
        · exact Or.inl hall
        · exact Or.inr hall
    · rw [if_neg h]; exact Diag.ok _

theorem nextIs_same (hc : Inv I c) {w : Bytes} (h : c.nextIs w = true) :
    SameText (c.rest.take w.length) w ∧ w.length ≤ c.rest.length := by
  rw [Cursor.nextIs_eq c w hc.pos'] at h
  simp only [startsWith, Bool.and_eq_true, decide_eq_true_eq] at h
  exact ⟨(sameText_iff _ _).mpr h.2, h.1⟩

theorem nextIs_before (hc : Inv I c) {w : Bytes} (h : c.nextIs w = true) :
    EndsWithText (before I (c.advanceBy w.length)) w := by
  exact ⟨before I c, c.rest.take w.length, before_advanceBy hc _, (nextIs_same hc h).1⟩

theorem isNextDuration_iff (b : UInt8) : NextDuration b ↔ isNextDuration b = true := by
  unfold NextDuration isNextDuration
  simp only [Bool.or_eq_true, decide_eq_true_eq, isDigit_iff]
  tauto

theorem consumeConjunction_diag (hI : utf8Valid I = true) (ho : CfgOk cfg) (hc : Inv I c) (ws : List Bytes)
    (hw : ∀ w ∈ ws, w ∈ cfg.conjunctions.getD []) :
    Diag (Claim cfg units numerals I) (consumeConjunction cfg.outerDelimiter c.pos c ws) := by
  induction ws with
  | nil => exact Diag.ok _
  | cons w ws ih =>
    unfold consumeConjunction
    by_cases h : c.nextIs w = true
    · rw [if_pos h]
      have hmem := hw w (by simp)
      have hi := Cursor.nextIs_inv (ho.conjunctions w hmem) hc h
      unfold afterConjunction
      cases hb : (c.advanceBy w.length).cur with
      | none =>
        refine Diag.fail (claim_syntax hI hc ⟨hmem, ?_⟩)
        have h1 := (Cursor.cur_none_iff _).mp hb
        rw [Cursor.rest_advanceBy] at h1
        have h2 := (nextIs_same hc h).1
        have h3 := List.take_append_drop w.length c.rest
        rw [h1, List.append_nil] at h3
        rwa [h3] at h2
      | some b =>
        simp only
        by_cases hdb : cfg.outerDelimiter b = true
        · rw [if_pos hdb]
          exact tryConsumeDelimiter_diag hI (Or.inr rfl) hi hb hdb
        · rw [if_neg hdb]
          by_cases hn : isNextDuration b = true
          · rw [if_pos hn]; exact Diag.ok _
          · rw [if_neg hn]
            refine Diag.fail (claim_syntax hI hi ⟨⟨w, hmem, nextIs_before hc h⟩, rest_starts hb rfl, by simpa using hdb, ?_⟩)
            rw [isNextDuration_iff]; exact hn
    · rw [if_neg h]
      exact ih (fun x hx => hw x (by simp [hx]))

theorem tryConnection_diag (hI : utf8Valid I = true) (ho : CfgOk cfg) (hc : Inv I c) {b : UInt8} (hb : c.cur = some b)
    (hdb : cfg.outerDelimiter b = true) : Diag (Claim cfg units numerals I) (tryConnection cfg c) := by
  unfold tryConnection tryConsumeConnection
  rw [Cursor.assertDelimiter_ok _ c b hb hdb, ok_bind]
  refine (tryConsumeDelimiter_diag hI (Or.inr rfl) hc hb hdb).of_safe
    (Cursor.tryConsumeDelimiter_safe ho.outer hc hb hdb) (fun c' hc' => ?_)
  exact consumeConjunction_diag hI ho hc'.1 _ (fun w hw => hw)

theorem consumeConnectionIfAny_diag (hI : utf8Valid I = true) (ho : CfgOk cfg) (hc : Inv I c) :
    Diag (Claim cfg units numerals I) (consumeConnectionIfAny cfg c) := by
  unfold consumeConnectionIfAny
  cases hb : c.cur with
  | none => exact Diag.ok _
  | some b =>
    simp only
    by_cases h : cfg.outerDelimiter b = true
    · rw [if_pos h]; exact tryConnection_diag hI ho hc hb h
    · rw [if_neg h]; exact Diag.ok _

theorem checkEnd_diag (hI : utf8Valid I = true) (hc : Inv I c) : Diag (Claim cfg units numerals I) c.checkEnd := by
  unfold Cursor.checkEnd
  cases h : c.cur with
  | none => exact Diag.ok _
  | some b =>
    simp only [hc.getRemainderStr, ok_bind]
    exact Diag.fail (claim_syntax hI hc ⟨rfl, rest_ne h⟩)

theorem connectionOutput_diag (hI : utf8Valid I = true) (ho : CfgOk cfg) (hc : Inv I c) {b : UInt8} (hb : c.cur = some b)
    (hdb : cfg.outerDelimiter b = true) (r : DurationRepr) :
    Diag (Claim cfg units numerals I) (tryConnection cfg c >>= fun c => (pure (r, some c) : R Output)) :=
  (tryConnection_diag hI ho hc hb hdb).bind (fun _ _ => Diag.pure _)

theorem finalize_diag (hI : utf8Valid I = true) (ho : CfgOk cfg) (mode : Mode) (r : DurationRepr) (hc : Inv I c) :
    Diag (Claim cfg units numerals I) (finalize mode cfg r c) := by
  cases mode with
  | single => exact (checkEnd_diag hI hc).bind (fun _ _ => Diag.pure _)
  | multiple =>
    unfold finalize finalizeMultiple
    cases hb : c.cur with
    | none => exact Diag.ok _
    | some b =>
      simp only
      by_cases h : cfg.outerDelimiter b = true
      · rw [if_pos h]; exact connectionOutput_diag hI ho hc hb h r
      · rw [if_neg h]; exact Diag.ok _

/-! ## Infinity -/

theorem same_lower {b x : UInt8} (h : toLower b = toLower x) : SameText [b] [x] := by
  simp [SameText, lower_eq, h]

theorem endsWith_step {x : Bytes} {b y : UInt8} (hc : Inv I c) (hx : EndsWithText (before I c) x) (hb : c.cur = some b)
    (h : toLower b = toLower y) : EndsWithText (before I c.advance) (x ++ [y]) := by
  obtain ⟨l, w, h1, h2⟩ := hx
  refine ⟨l, w ++ [b], ?_, ?_⟩
  · rw [before_advance hc hb, h1, List.append_assoc]
  · unfold SameText at *
    rw [List.map_append, List.map_append, h2]
    simp [lower_eq, h]

theorem inityLoop_diag (hI : utf8Valid I = true) (hc : Inv I c) (x l : Bytes) (hl : b! "infinity" = x ++ l)
    (h3 : 3 < x.length ∨ (3 ≤ x.length ∧ c.cur.isSome = true)) (hx : EndsWithText (before I c) x) :
    Diag (Claim cfg units numerals I) (inityLoop c l) := by
  induction l generalizing c x with
  | nil => exact Diag.ok _
  | cons y l ih =>
    have hy : y ∈ b! "infinity" := by rw [hl]; simp
    have hylow : toLower y = y ∧ y.toNat < 128 := by
      revert hy
      simp only [List.mem_cons, List.not_mem_nil, or_false]
      rintro (rfl | rfl | rfl | rfl | rfl | rfl | rfl | rfl) <;> decide
    unfold inityLoop
    cases hb : c.cur with
    | none =>
      refine Diag.fail (claim_syntax hI hc ⟨(Cursor.cur_none_iff _).mp hb, x, y :: l, hl, ?_, by simp, hx⟩)
      rcases h3 with h3 | h3
      · exact h3
      · rw [hb] at h3; cases h3.2
    | some b =>
      simp only
      by_cases h : toLower b = toLower y
      · rw [if_pos h]
        refine ih (hc.advance hb (ascii_of_toLower h hylow.2)) (x ++ [y]) (by rw [hl, List.append_assoc]; rfl) ?_
          (endsWith_step hc hx hb h)
        left
        rw [List.length_append]
        simp only [List.length_singleton]
        omega
      · rw [if_neg h]
        refine Diag.fail (claim_syntax hI hc ⟨x, y, l, hl, by omega, hx, rest_starts hb rfl, ?_⟩)
        rw [lower_eq]; intro hh; exact h (by rw [hh, hylow.1])

theorem inityLoopMultiple_diag (hI : utf8Valid I = true) (hc : Inv I c) (c0 : Cursor) (hc0 : Inv I c0)
    (w0 w z l : Bytes) (hl : b! "inity" = z ++ l) (h0 : c0.rest = w0 ++ (w ++ c.rest)) (hpos : c.pos = c0.pos + w0.length + w.length)
    (hw0 : SameText w0 (b! "inf")) (hw : SameText w z) (hz : z ≠ [] ∨ c.cur.isSome = true)
    (hx : EndsWithText (before I c) (b! "inf" ++ z)) :
    Diag (Claim cfg units numerals I) (inityLoopMultiple (c0.pos + w0.length) c l) := by
  have hlen0 : w0.length = 3 := by
    have := congrArg List.length hw0
    simpa using this
  induction l generalizing c w z with
  | nil => exact Diag.ok _
  | cons y l ih =>
    have hy : y ∈ b! "inity" := by rw [hl]; simp
    have hylow : toLower y = y ∧ y.toNat < 128 := by
      revert hy
      simp only [List.mem_cons, List.not_mem_nil, or_false]
      rintro (rfl | rfl | rfl | rfl | rfl) <;> decide
    unfold inityLoopMultiple
    cases hb : c.cur with
    | none =>
      have hr := (Cursor.cur_none_iff _).mp hb
      rw [hr, List.append_nil] at h0
      refine (Diag.liftP _).bind (fun p hp => ?_)
      have hp' : p = c0.pos := by
        rw [subUsize, if_pos (by omega), liftP_ok] at hp
        cases hp; omega
      subst hp'
      refine Diag.bind ?_ (fun t ht => ?_)
      · unfold Cursor.getCurrentStrUnwrap
        refine (Diag.liftP _).bind (fun r _ => ?_)
        split
        · exact Diag.ok _
        · exact Diag.panic _
      · have ht' : t = w := by
          unfold Cursor.getCurrentStrUnwrap at ht
          have hs := Cursor.sliceR_rest (c0.advanceBy w0.length) w.length ?_ ?_
          · rw [Cursor.rest_advanceBy, h0, List.drop_left, List.take_length] at hs
            have e1 : (c0.advanceBy w0.length).input = c.input := by rw [hc.input]; exact hc0.input
            have e2 : (c0.advanceBy w0.length).pos = c0.pos + w0.length := rfl
            rw [e1, e2, ← hpos] at hs
            rw [hs, ok_bind] at ht
            split at ht
            · cases ht; rfl
            · cases ht
          · show c0.pos + w0.length ≤ c0.input.length
            have := hc0.restLength
            rw [h0, List.length_append] at this
            have h1 := hc0.pos'
            rw [hc0.input] at *
            omega
          · rw [Cursor.rest_advanceBy, h0, List.drop_left]
        subst ht'
        refine Diag.fail (claim_syntax hI hc0 ⟨w0, z, y :: l, h0, hw0, hl, ?_, by simp, hw⟩)
        rcases hz with hz | hz
        · exact hz
        · rw [hb] at hz; cases hz
    | some b =>
      simp only
      by_cases h : toLower b = toLower y
      · rw [if_pos h]
        refine ih (hc.advance hb (ascii_of_toLower h hylow.2)) (w ++ [b]) (z ++ [y]) (by rw [hl, List.append_assoc]; rfl) ?_ ?_ ?_ ?_ ?_
        · rw [h0, Cursor.rest_cons hb, Cursor.advance_eq]; simp
        · show c.pos + 1 = _
          rw [List.length_append, hpos]; simp; omega
        · unfold SameText at *
          rw [List.map_append, List.map_append, hw]
          simp [lower_eq, h]
        · left; simp
        · rw [← List.append_assoc]; exact endsWith_step hc hx hb h
      · rw [if_neg h]
        refine Diag.fail (claim_syntax hI hc ⟨b! "inf" ++ z, y, l, ?_, ?_, hx, rest_starts hb rfl, ?_⟩)
        · rw [List.append_assoc, ← hl]; rfl
        · rw [List.length_append]; simp
        · rw [lower_eq]; intro hh; exact h (by rw [hh, hylow.1])

/-- the whole word has been read if the loop succeeds -/
theorem inityLoopMultiple_read (hc : Inv I c) (start : Nat) (x l : Bytes) (hl : ∀ y ∈ l, y.toNat < 128)
    (hx : EndsWithText (before I c) x) {c' : Cursor} (h : inityLoopMultiple start c l = .ok c') :
    Inv I c' ∧ EndsWithText (before I c') (x ++ l) := by
  induction l generalizing c x with
  | nil => cases h; rw [List.append_nil]; exact ⟨hc, hx⟩
  | cons y l ih =>
    unfold inityLoopMultiple at h
    cases hb : c.cur with
    | none =>
      rw [hb] at h
      simp only at h
      exfalso
      cases h1 : (liftP (subUsize start 3) : R Nat) with
      | error e => rw [h1] at h; cases h
      | ok p =>
        rw [h1, ok_bind] at h
        cases h2 : c.getCurrentStrUnwrap start with
        | error e => rw [h2] at h; cases h
        | ok t => rw [h2] at h; cases h
    | some b =>
      rw [hb] at h
      simp only at h
      by_cases hy : toLower b = toLower y
      · rw [if_pos hy] at h
        have := ih (hc.advance hb (ascii_of_toLower hy (hl y (by simp)))) (x ++ [y]) (fun z hz => hl z (by simp [hz]))
          (endsWith_step hc hx hb hy) h
        rwa [List.append_assoc] at this
      · rw [if_neg hy] at h; cases h

theorem parseInfinityRemainder_diag (hI : utf8Valid I = true) (ho : CfgOk cfg) (mode : Mode) (r : DurationRepr)
    (hc : Inv I c) (hn : c.nextIs (b! "inf") = true) :
    Diag (Claim cfg units numerals I) (parseInfinityRemainder mode cfg r (c.advanceBy 3)) := by
  have hi : Inv I (c.advanceBy 3) := Cursor.nextIs_inv inf_valid hc hn
  have hbef : EndsWithText (before I (c.advanceBy 3)) (b! "inf") := nextIs_before hc hn
  obtain ⟨hsame, hlen⟩ := nextIs_same hc hn
  cases mode with
  | single =>
    unfold parseInfinityRemainder infinitySingle
    cases hb : (c.advanceBy 3).cur with
    | none => exact Diag.ok _
    | some b =>
      simp only
      refine (inityLoop_diag hI hi (b! "inf") (b! "inity") rfl (Or.inr ⟨by decide, by rw [hb]; rfl⟩) hbef).of_safe
        (inityLoop_safe hi _ inity_ascii) (fun c' hc' => ?_)
      exact (checkEnd_diag hI hc'.1).bind (fun _ _ => Diag.pure _)
  | multiple =>
    unfold parseInfinityRemainder infinityMultiple
    cases hb : (c.advanceBy 3).cur with
    | none => exact Diag.ok _
    | some b =>
      simp only
      by_cases h : cfg.outerDelimiter b = true
      · rw [if_pos h]; exact connectionOutput_diag hI ho hi hb h _
      · rw [if_neg h]
        have hw0 : (c.rest.take 3).length = 3 := by rw [List.length_take]; exact Nat.min_eq_left hlen
        have hd := inityLoopMultiple_diag (cfg := cfg) (units := units) (numerals := numerals) hI hi c hc (c.rest.take 3) [] []
          (b! "inity") rfl (by rw [Cursor.rest_advanceBy]; simp) (by rw [hw0]; rfl) hsame rfl (Or.inr (by rw [hb]; rfl)) hbef
        rw [hw0] at hd
        refine Diag.bind hd (fun c' hc' => ?_)
        obtain ⟨g1, g2⟩ := inityLoopMultiple_read hi _ (b! "inf") (b! "inity") inity_ascii hbef hc'
        unfold afterInfinity
        cases hb' : c'.cur with
        | none => exact Diag.ok _
        | some b' =>
          simp only
          by_cases h' : cfg.outerDelimiter b' = true
          · rw [if_pos h']; exact connectionOutput_diag hI ho g1 hb' h' _
          · rw [if_neg h']
            exact Diag.fail (claim_syntax hI g1 ⟨g2, rest_starts hb' rfl, by simpa using h'⟩)

/-! ## Words -/

end

section
variable {I : Bytes} {env : Env} {c : Cursor}

/-- what the errors of the parser claim -/
abbrev Claims (env : Env) (I : Bytes) : ParseError → Prop := Claim env.cfg env.units env.numerals I

/-- the scan does not have errors, and finds what is in front of the cursor -/
structure ScanOk (env : Env) : Prop where
  noError : ∀ I d c e, AsciiOnly d → Inv I c → env.scan d c ≠ fail e
  word : ∀ I d c w c', AsciiOnly d → Inv I c → env.scan d c = .ok (w, c') → w = c.rest.take w.length

theorem lookupRemainder_diag (t : TimeUnitsLike) (hc : Inv I c) : Diag (Claims env I) (lookupRemainder t c) := by
  unfold lookupRemainder
  rw [hc.getRemainderStrUnchecked, ok_bind]
  cases t.get c.rest with
  | none => exact Diag.pure _
  | some u => exact Diag.pure _

theorem scan_diag (hs : ScanOk env) {d : Delimiter} (hd : AsciiOnly d) (hc : Inv I c) : Diag (Claims env I) (env.scan d c) :=
  fun e h => absurd h (hs.noError I d c e hd hc)

theorem utf8Unchecked_diag (b : Bytes) : Diag (Claims env I) (utf8Unchecked b) := by
  unfold utf8Unchecked
  split
  · exact Diag.ok _
  · exact Diag.panic _

theorem parseKeyword_diag (hI : utf8Valid I = true) (he : EnvOk env) (hs : ScanOk env) (mode : Mode) (hc : Inv I c) :
    Diag (Claims env I) (parseKeyword mode env c) := by
  unfold parseKeyword
  cases hk : env.keywords with
  | none => exact Diag.ok _
  | some k =>
    cases mode with
    | single => exact lookupRemainder_diag k hc
    | multiple =>
      simp only
      unfold parseKeywordMultiple
      refine (scan_diag hs (wordEnd_ascii he.cfg) hc).of_safe (he.scan I c _ (wordEnd_ascii he.cfg) hc) ?_
      rintro ⟨w, c'⟩ ⟨h1, h2, h3⟩
      simp only at h1 h2 h3 ⊢
      split
      · exact Diag.pure _
      · refine (utf8Unchecked_diag w).bind (fun x _ => ?_)
        unfold keywordFound
        split
        · exact Diag.ok _
        · exact (consumeConnectionIfAny_diag hI he.cfg h1).bind (fun _ _ => Diag.pure _)

theorem parseTimeUnitSingle_diag (hI : utf8Valid I = true) (he : EnvOk env) (hc : Inv I c) :
    Diag (Claims env I) (parseTimeUnitSingle env c) := by
  unfold parseTimeUnitSingle
  refine Diag.bind ?_ (fun _ _ => ?_)
  · unfold assertSome
    split
    · exact Diag.ok _
    · exact Diag.panic _
  · split
    · unfold parseTimeUnitAgo
      rw [Cursor.advanceTo_eq _ c hc.pos', ok_bind]
      simp only
      have hi := Cursor.inv_word he.cfg.inner hc
      refine (utf8Unchecked_diag _).bind (fun x _ => ?_)
      split
      · exact Diag.pure _
      · unfold unitFoundSingle
        split
        · exact Diag.ok _
        · unfold agoSingle
          cases hb : (c.advanceBy (c.word env.cfg.innerDelimiter).length).cur with
          | none => exact Diag.ok _
          | some b =>
            simp only
            refine (tryConsumeDelimiter_diag hI (Or.inl rfl) hi hb (Cursor.cur_advanceBy_word _ c hb)).bind (fun _ _ => ?_)
            split <;> exact Diag.pure _
    · exact lookupRemainder_diag _ hc

theorem agoMultiple_diag (hI : utf8Valid I = true) (hc : Inv I c) (u : Unit') :
    Diag (Claims env I) (agoMultiple env.cfg u c) := by
  unfold agoMultiple
  cases hb : c.cur with
  | none => exact Diag.ok _
  | some b =>
    simp only
    by_cases h : (env.cfg.allowAgo && env.cfg.innerDelimiter b) = true
    · rw [if_pos h]
      simp only [Bool.and_eq_true] at h
      refine (tryConsumeDelimiter_diag hI (Or.inl rfl) hc hb h.2).bind (fun _ _ => ?_)
      split <;> exact Diag.pure _
    · rw [if_neg h]; exact Diag.ok _

theorem parseTimeUnitMultiple_diag (hI : utf8Valid I = true) (he : EnvOk env) (hs : ScanOk env) (hc : Inv I c) :
    Diag (Claims env I) (parseTimeUnitMultiple env c) := by
  unfold parseTimeUnitMultiple
  refine Diag.bind ?_ (fun _ _ => ?_)
  · unfold assertSome
    split
    · exact Diag.ok _
    · exact Diag.panic _
  · refine (scan_diag hs (unitEnd_ascii he.cfg) hc).of_safe (he.scan I c _ (unitEnd_ascii he.cfg) hc) ?_
    rintro ⟨w, c'⟩ ⟨h1, h2, h3⟩
    simp only at h1 h2 h3 ⊢
    split
    · exact Diag.pure _
    · refine (utf8Unchecked_diag w).bind (fun x _ => ?_)
      unfold unitFoundMultiple
      split
      · exact Diag.ok _
      · rename_i u _
        refine (agoMultiple_diag hI h1 u).of_safe (agoMultiple_safe he h1 u) ?_
        rintro ⟨u', c2⟩ ⟨g1, -⟩
        exact (consumeConnectionIfAny_diag hI he.cfg g1).bind (fun _ _ => Diag.pure _)

theorem parseTimeUnit_diag (hI : utf8Valid I = true) (he : EnvOk env) (hs : ScanOk env) (mode : Mode) (hc : Inv I c) :
    Diag (Claims env I) (parseTimeUnit mode env c) := by
  cases mode with
  | single => exact parseTimeUnitSingle_diag hI he hc
  | multiple => exact parseTimeUnitMultiple_diag hI he hs hc

/-- what has been read if a numeral has been found -/
theorem parseNumeral_diag (hI : utf8Valid I = true) (he : EnvOk env) (hs : ScanOk env) (hc : Inv I c) :
    Diag (Claims env I) (parseNumeral env c) ∧ ∀ o, parseNumeral env c = .ok o →
      (o.1 = none → o.2.pos = c.pos) ∧
      ∀ id q, o.1 = some (id, q) → TimeUnitClaim.NumeralBefore env.cfg env.numerals (before I o.2) o.2.rest id := by
  unfold parseNumeral
  cases hn : env.numerals with
  | none =>
    refine ⟨Diag.ok _, ?_⟩
    intro o ho; cases ho
    exact ⟨fun _ => rfl, by intro id q h; cases h⟩
  | some n =>
    simp only
    have hsafe := he.scan I c _ he.cfg.inner hc
    cases hsc : env.scan env.cfg.innerDelimiter c with
    | error f =>
      rw [hsc] at hsafe
      match f, hsafe, hsc with
      | .err e, _, hsc => exact absurd hsc (hs.noError I _ c e he.cfg.inner hc)
    | ok x =>
      obtain ⟨w, c'⟩ := x
      rw [hsc] at hsafe
      obtain ⟨h1, h2, h3⟩ := hsafe
      have hword := hs.word I _ c w c' he.cfg.inner hc hsc
      rw [ok_bind]
      simp only at h1 h2 h3 ⊢
      by_cases hw : w.isEmpty = true
      · rw [if_pos hw]
        refine ⟨Diag.pure _, ?_⟩
        intro o ho; cases ho
        have : w.length = 0 := by simpa using hw
        exact ⟨fun _ => by show c'.pos = c.pos; omega, by intro id q h; cases h⟩
      · rw [if_neg hw, utf8Unchecked_ok h2, ok_bind]
        cases hg : n w with
        | none =>
          refine ⟨Diag.ok _, ?_⟩
          intro o ho; cases ho
          exact ⟨fun _ => rfl, by intro id q h; cases h⟩
        | some m =>
          unfold numeralFound
          simp only
          cases hb : c'.cur with
          | none =>
            refine ⟨Diag.ok _, ?_⟩
            intro o ho; cases ho
            exact ⟨fun _ => rfl, by intro id q h; cases h⟩
          | some b =>
            simp only
            by_cases hd : env.cfg.innerDelimiter b = true
            · rw [if_pos hd]
              have hsafe := Cursor.tryConsumeDelimiter_safe he.cfg.inner h1 hb hd
              refine ⟨(tryConsumeDelimiter_diag hI (Or.inl rfl) h1 hb hd).bind (fun _ _ => Diag.pure _), ?_⟩
              intro o ho
              have hp : c'.pos ≠ 0 := by have := isEmpty_false_length hw; omega
              rw [Cursor.tryConsumeDelimiter_eq _ c' b hb hd hp] at ho hsafe
              by_cases hr : (c'.advanceBy (c'.delims env.cfg.innerDelimiter).length).rest = []
              · rw [if_pos hr] at ho; cases ho
              · rw [if_neg hr, ok_bind] at ho
                cases ho
                refine ⟨(fun h => by cases h), ?_⟩
                intro id q h
                cases h
                refine ⟨⟨n, m, rfl, hg⟩, hr, before I c, c'.delims env.cfg.innerDelimiter, ?_, (isText_iff _).mpr h2, ?_, ?_, ?_⟩
                · show before I (c'.advanceBy _) = _
                  rw [before_advanceBy h1, Cursor.delims_take]
                  congr 1
                  have : before I c' = before I (c.advanceBy w.length) := by unfold before; rw [h3]; rfl
                  rw [this, before_advanceBy hc, ← hword]
                · intro h0; rw [h0] at hw; exact hw rfl
                · intro h0
                  rw [Cursor.delims, Cursor.rest_cons hb, List.takeWhile_cons, if_pos hd] at h0
                  cases h0
                · intro x hx; exact takeWhile_mem hx
            · rw [if_neg hd]
              refine ⟨Diag.ok _, ?_⟩
              intro o ho; cases ho
              exact ⟨fun _ => rfl, by intro id q h; cases h⟩

/-! ## Numbers -/

theorem fractionDigits_diag (hI : utf8Valid I = true) (whole : Option Range) (hc : Inv I c) (hb : c.cur = some 46) :
    Diag (Claims env I) (fractionDigits whole c.advance) := by
  have hi := hc.advance hb (by decide)
  have hsub : ∀ {x : R (Bool × Option Range × Cursor)} (_ : ¬ StartsWith IsDigit c.advance.rest),
      Diag (Claims env I) (liftP (subUsize c.advance.pos 1) >>= fun pos =>
        (fail (.syntax pos .wholeOrFractionMustBePresent) : R (Bool × Option Range × Cursor))) := by
    intro _ hst
    have : c.advance.pos = c.pos + 1 := rfl
    rw [this, subUsize, if_pos (Nat.le_add_left _ _), liftP_ok, ok_bind]
    refine Diag.fail ?_
    show Claims env I (.syntax c.pos _)
    exact claim_syntax hI hc ⟨_, Cursor.rest_cons hb, hst⟩
  unfold fractionDigits
  cases hb' : c.advance.cur with
  | none =>
    simp only
    split
    · refine hsub (x := fail .empty) ?_
      rw [(Cursor.cur_none_iff _).mp hb']
      rintro ⟨_, _, h, _⟩; cases h
    · exact Diag.ok _
  | some b =>
    simp only
    by_cases hd : isDigit b = true
    · rw [if_pos hd, Cursor.parseDigits_eq _ hi.pos' b hb' hd, ok_bind]; exact Diag.pure _
    · rw [if_neg hd]
      split
      · refine hsub (x := fail .empty) ?_
        rw [Cursor.rest_cons hb']
        rintro ⟨_, _, h, h2⟩
        cases h
        exact hd ((isDigit_iff _).mpr h2)
      · exact Diag.ok _

theorem parseNumberFraction_diag (hI : utf8Valid I = true) (whole : Option Range) (hc : Inv I c) :
    Diag (Claims env I) (parseNumberFraction whole env.cfg.disableFraction c) := by
  unfold parseNumberFraction
  cases hb : c.cur with
  | none => exact Diag.ok _
  | some b =>
    simp only
    by_cases h : b = 46
    · rw [if_pos h]
      subst h
      by_cases hd : env.cfg.disableFraction = true
      · rw [if_pos hd]
        exact Diag.fail (claim_syntax hI hc ⟨hd, rest_starts hb rfl⟩)
      · rw [if_neg hd]; exact fractionDigits_diag hI whole hc hb
    · rw [if_neg h]; exact Diag.ok _

/-- a sign has been read, or nothing -/
theorem parseSignIsNegative_read (hc : Inv I c) {o : Option Bool × Cursor} (h : parseSignIsNegative c = .ok o) :
    Inv I o.2 ∧ c.cur.isSome = true ∧
    ((o.1 = none ∧ o.2 = c ∧ c.cur ≠ some 43 ∧ c.cur ≠ some 45) ∨
      (o.1 = some false ∧ c.cur = some 43 ∧ o.2 = c.advance) ∨ (o.1 = some true ∧ c.cur = some 45 ∧ o.2 = c.advance)) := by
  unfold parseSignIsNegative at h
  cases hb : c.cur with
  | none => rw [hb] at h; cases h
  | some b =>
    rw [hb] at h
    simp only at h
    by_cases h1 : b = 43
    · rw [if_pos h1] at h; cases h; subst h1
      exact ⟨hc.advance hb (by decide), rfl, Or.inr (Or.inl ⟨rfl, rfl, rfl⟩)⟩
    · rw [if_neg h1] at h
      by_cases h2 : b = 45
      · rw [if_pos h2] at h; cases h; subst h2
        exact ⟨hc.advance hb (by decide), rfl, Or.inr (Or.inr ⟨rfl, rfl, rfl⟩)⟩
      · rw [if_neg h2] at h; cases h
        exact ⟨hc, rfl, Or.inl ⟨rfl, rfl, by simpa using h1, by simpa using h2⟩⟩

theorem parseSignIsNegative_diag (h : c.cur = none → Claims env I (.syntax c.pos .unexpectedEnd)) :
    Diag (Claims env I) (parseSignIsNegative c) := by
  unfold parseSignIsNegative
  cases hb : c.cur with
  | none => exact Diag.fail (h hb)
  | some b => simp only; split <;> [exact Diag.ok _; (split <;> exact Diag.ok _)]

theorem parseNumberSign_diag (hI : utf8Valid I = true) (hc : Inv I c) (hs : c.cur.isSome = true) :
    Diag (Claims env I) (parseNumberSign env.cfg c) := by
  unfold parseNumberSign
  refine (parseSignIsNegative_diag (fun h => by rw [h] at hs; cases hs)).bind ?_
  rintro ⟨s, c'⟩ ho
  obtain ⟨h1, -, h2⟩ := parseSignIsNegative_read hc ho
  simp only at h1 h2 ⊢
  unfold afterSign
  cases s with
  | none => exact Diag.ok _
  | some neg =>
    simp only
    have hends : EndsWith SignByte (before I c') := by
      rcases h2 with h2 | h2 | h2
      · cases h2.1
      · rw [h2.2.2]; exact ⟨_, _, before_advance hc h2.2.1, Or.inl rfl⟩
      · rw [h2.2.2]; exact ⟨_, _, before_advance hc h2.2.1, Or.inr rfl⟩
    cases hb : c'.cur with
    | none => exact Diag.fail (claim_syntax hI h1 ⟨(Cursor.cur_none_iff _).mp hb, hends⟩)
    | some b =>
      simp only
      by_cases h : (env.cfg.allowSignDelimiter && env.cfg.innerDelimiter b) = true
      · rw [if_pos h]
        simp only [Bool.and_eq_true] at h
        exact (tryConsumeDelimiter_diag hI (Or.inl rfl) h1 hb h.2).bind (fun _ _ => Diag.pure _)
      · rw [if_neg h]; exact Diag.ok _

theorem exponentLetter_ascii {x : UInt8} (h : ExponentLetter x) : x.toNat < 128 := by
  rcases h with rfl | rfl <;> decide

theorem parseExponent_diag (hI : utf8Valid I = true) (hd : env.cfg.disableExponent = false) (hc : Inv I c) {x : UInt8}
    (hb : c.cur = some x) (hx : ExponentLetter x) : Diag (Claims env I) (parseExponent c.advance) := by
  have hi := hc.advance hb (exponentLetter_ascii hx)
  have hends : EndsWith ExponentLetter (before I c.advance) := ⟨_, _, before_advance hc hb, hx⟩
  unfold parseExponent
  refine (parseSignIsNegative_diag (fun h => claim_syntax hI hi ⟨(Cursor.cur_none_iff _).mp h, hends⟩)).bind ?_
  rintro ⟨s, c'⟩ ho
  obtain ⟨h1, h0, h2⟩ := parseSignIsNegative_read hi ho
  simp only at h1 h2 ⊢
  have hloop := exponentLoop_eq (s.getD false) c'.input.length 0 c' (by rw [Cursor.rest_length]; omega)
    (by rw [signed_zero]; decide)
  rw [signed_zero] at hloop
  have hI' := before_split h1
  have hdig : c'.rest = c'.digits ++ c'.rest.drop c'.digits.length := by
    conv_lhs => rw [← List.take_append_drop c'.digits.length c'.rest, Cursor.digits_take]
  have hnot : ¬ StartsWith IsDigit (c'.rest.drop c'.digits.length) := by
    rw [Cursor.digits, Cursor.takeWhile_drop]
    rw [not_startsWith_iff digit_iff]
    exact headIs_dropWhile _ _
  rw [hloop]
  split
  · rw [ok_bind]
    have hid := inv_digits h1
    have hp : (c'.advanceBy c'.digits.length).pos = c'.pos + c'.digits.length := rfl
    simp only [hp, subUsize]
    rw [if_pos (Nat.le_add_right _ _), liftP_ok, ok_bind]
    split
    · exact Diag.pure _
    · rename_i hlen
      have hl0 : c'.digits.length = 0 := by omega
      rw [hl0] at hid ⊢
      have hexp : (s = none ∧ c' = c.advance) ∨ EndsWithExponentSign (before I c') := by
        rcases h2 with h2 | h2 | h2
        · exact Or.inl ⟨h2.1, h2.2.1⟩
        · refine Or.inr ⟨before I c, x, 43, ?_, hx, Or.inl rfl⟩
          rw [h2.2.2, before_advance hi h2.2.1, before_advance hc hb]; simp
        · refine Or.inr ⟨before I c, x, 45, ?_, hx, Or.inr rfl⟩
          rw [h2.2.2, before_advance hi h2.2.1, before_advance hc hb]; simp
      rw [Cursor.advanceBy_zero] at *
      by_cases hcur : c'.cur.isNone = true
      · rw [if_pos hcur]
        rw [Option.isNone_iff_eq_none] at hcur
        refine Diag.fail (claim_syntax hI h1 ⟨(Cursor.cur_none_iff _).mp hcur, ?_⟩)
        rcases hexp with ⟨-, h⟩ | h
        · rw [← h, hcur] at h0; cases h0
        · exact h
      · rw [if_neg hcur]
        refine Diag.fail (claim_syntax hI h1 ⟨?_, ?_, ?_⟩)
        · intro h; exact hcur (by rw [(Cursor.cur_none_iff _).mpr h]; rfl)
        · rw [hl0] at hnot; exact hnot
        · rcases hexp with ⟨-, h⟩ | h
          · rw [h]; exact Or.inl hends
          · exact Or.inr h
  · rename_i hov
    refine Diag.bind (Diag.fail ?_) (fun _ h => by cases h)
    rw [Nat.zero_mul, Nat.zero_add, isI16_iff] at hov
    rw [hdig] at hI'
    rcases h2 with h2 | h2 | h2
    · rw [h2.1] at hov ⊢
      refine ⟨hd, before I c, x, [], c'.digits, _, ?_, hx, Or.inl rfl, Cursor.digits_all c', hnot, ?_⟩
      · rw [h2.2.1, before_advance hc hb] at hI'
        rw [h2.2.1]; exact hI'.trans (by simp)
      · simp [signed] at hov; omega
    · rw [h2.1] at hov ⊢
      refine ⟨hd, before I c, x, [43], c'.digits, _, ?_, hx, Or.inr rfl, Cursor.digits_all c', hnot, ?_⟩
      · rw [h2.2.2, before_advance hi h2.2.1, before_advance hc hb] at hI'
        rw [h2.2.2]; exact hI'.trans (by simp)
      · simp [signed] at hov; omega
    · rw [h2.1] at hov ⊢
      refine ⟨hd, before I c, x, [45], c'.digits, _, ?_, hx, rfl, Cursor.digits_all c', hnot, ?_⟩
      · rw [h2.2.2, before_advance hi h2.2.1, before_advance hc hb] at hI'
        rw [h2.2.2]; exact hI'.trans (by simp)
      · simp [signed] at hov; omega

theorem parseNumberExponent_diag (hI : utf8Valid I = true) (hc : Inv I c) :
    Diag (Claims env I) (parseNumberExponent env.cfg.disableExponent c) := by
  unfold parseNumberExponent
  cases hb : c.cur with
  | none => exact Diag.ok _
  | some b =>
    simp only
    by_cases h : (decide (b = 101) || decide (b = 69)) = true
    · rw [if_pos h]
      have hx : ExponentLetter b := by simpa [ExponentLetter] using h
      by_cases hd : env.cfg.disableExponent = true
      · rw [if_pos hd]; exact Diag.fail (claim_syntax hI hc ⟨hd, rest_starts hb hx⟩)
      · rw [if_neg hd]
        exact (parseExponent_diag hI (by simpa using hd) hc hb hx).bind (fun _ _ => Diag.pure _)
    · rw [if_neg h]; exact Diag.ok _

theorem parseNumberDelimiter_diag (hI : utf8Valid I = true) (hc : Inv I c) {d : Option Delimiter}
    (hd : ∀ x, d = some x → IsDelim env.cfg x) : Diag (Claims env I) (parseNumberDelimiter d c) := by
  unfold parseNumberDelimiter
  cases hb : c.cur with
  | none => exact Diag.ok _
  | some b =>
    cases d with
    | none => exact Diag.ok _
    | some d =>
      simp only
      by_cases h : d b = true
      · rw [if_pos h]
        exact (tryConsumeDelimiter_diag hI (hd d rfl) hc hb h).bind (fun _ _ => Diag.pure _)
      · rw [if_neg h]; exact Diag.ok _

theorem parseNumberTimeUnit_diag (hI : utf8Valid I = true) (he : EnvOk env) (hs : ScanOk env) (mode : Mode) (hc : Inv I c) :
    Diag (Claims env I) (parseNumberTimeUnit mode env c) := by
  unfold parseNumberTimeUnit
  cases hb : c.cur with
  | none => exact Diag.ok _
  | some b =>
    cases mode with
    | single =>
      simp only [numberTimeUnitSingle]
      by_cases h : (!env.units.isEmpty) = true
      · rw [if_pos h]
        have hsafe := parseTimeUnit_safe he .single hc hb
        refine (parseTimeUnit_diag hI he hs .single hc).bind ?_
        rintro ⟨u, c'⟩ ho
        have hpost := hsafe.of_ok ho
        obtain ⟨h1, h2, h3, -⟩ := hpost
        cases u with
        | some u => exact Diag.ok _
        | none =>
          simp only at h1 h2 h3 ⊢
          unfold unitOrError
          simp only
          rw [h1.getRemainderStr, ok_bind]
          have hcur := cur_of_pos hc h1 (h3 trivial)
          have hrest : c'.rest = c.rest := by
            unfold Cursor.rest
            rw [h1.input, hc.input, h3 trivial]
          refine Diag.fail (claim_timeUnit hI h1 ⟨rfl, rest_ne (hcur.trans hb), by simpa using h, ?_⟩)
          rintro ⟨u, rest, hu⟩
          rw [unitSingle_iff, hrest] at hu
          obtain ⟨o, ho2, ho3⟩ := (unitSingle_at he.cfg ⟨hc, rfl, Nat.zero_le _⟩ (rest_ne hb)).of_ok ho
          rw [hu] at ho2
          cases ho2
          cases ho3.1
      · rw [if_neg h, hc.getRemainderStrUnchecked, ok_bind]
        exact Diag.fail (claim_timeUnit hI hc ⟨rfl, rest_ne hb, by simpa using h⟩)
    | multiple =>
      simp only [numberTimeUnitMultiple]
      split
      · exact (parseTimeUnit_diag hI he hs .multiple hc).bind (fun _ _ => Diag.pure _)
      · exact Diag.ok _

theorem parseAfterWhole_diag (hI : utf8Valid I = true) (he : EnvOk env) (hs : ScanOk env) (mode : Mode) (r : DurationRepr)
    (hc : Inv I c) : Diag (Claims env I) (parseAfterWhole mode env r c) := by
  unfold parseAfterWhole
  refine (parseNumberFraction_diag hI r.whole hc).of_safe (parseNumberFraction_safe r.whole _ hc) ?_
  rintro ⟨go, f, c1⟩ ⟨h1, -⟩
  simp only at h1 ⊢
  split
  · exact Diag.pure _
  · unfold parseExponentPart
    refine (parseNumberExponent_diag hI h1).of_safe (parseNumberExponent_safe _ h1) ?_
    rintro ⟨go, e, c2⟩ ⟨g1, -⟩
    simp only at g1 ⊢
    split
    · exact Diag.pure _
    · unfold parseDelimiterPart
      have hd : ∀ x, (if env.cfg.allowTimeUnitDelimiter then some env.cfg.innerDelimiter else none) = some x →
          x = env.cfg.innerDelimiter := by
        intro x hx
        split at hx <;> cases hx
        rfl
      refine (parseNumberDelimiter_diag hI g1 (fun x hx => Or.inl (hd x hx))).of_safe
        (parseNumberDelimiter_safe (fun x hx => by rw [hd x hx]; exact he.cfg.inner) g1) ?_
      rintro ⟨go, c3⟩ ⟨k1, -⟩
      simp only at k1 ⊢
      split
      · exact Diag.pure _
      · unfold parseUnitPart
        refine (parseNumberTimeUnit_diag hI he hs mode k1).of_safe (parseNumberTimeUnit_safe he mode k1) ?_
        rintro ⟨go, u, c4⟩ ⟨l1, -⟩
        simp only at l1 ⊢
        split
        · exact Diag.pure _
        · exact finalize_diag hI he.cfg mode _ l1

/-! ## Template -/

theorem parseNumeralWord_diag (hI : utf8Valid I = true) (he : EnvOk env) (hs : ScanOk env) (mode : Mode) (r : DurationRepr)
    (hc : Inv I c) (hw : WordStart env.cfg c.rest) : Diag (Claims env I) (parseNumeralWord mode env r c) := by
  unfold parseNumeralWord
  obtain ⟨hd, hp⟩ := parseNumeral_diag hI he hs hc
  refine hd.bind ?_
  rintro ⟨o, c1⟩ ho
  obtain ⟨h1, -, h3⟩ := (parseNumeral_safe he hc).of_ok ho
  obtain ⟨hp1, hp2⟩ := hp _ ho
  simp only at h1 h3 hp1 hp2 ⊢
  unfold afterNumeral
  cases o with
  | none =>
    simp only
    rw [h1.getRemainderStr, ok_bind]
    have hrest : c1.rest = c.rest := by
      unfold Cursor.rest
      rw [h1.input, hc.input, hp1 rfl]
    rw [hrest]
    exact Diag.fail ⟨(isText_iff _).mpr hc.valid, hw, before I c, before_split hc⟩
  | some o =>
    obtain ⟨id, q⟩ := o
    simp only
    obtain ⟨b, hb⟩ := Option.isSome_iff_exists.mp (h3 _ rfl).1
    refine (parseTimeUnit_diag hI he hs mode h1).of_safe (parseTimeUnit_safe he mode h1 hb) ?_
    rintro ⟨u, c2⟩ ⟨g1, -, g3, -⟩
    simp only at g1 g3 ⊢
    unfold numeralUnit
    cases u with
    | some u => exact finalize_diag hI he.cfg mode _ g1
    | none =>
      simp only
      have hclaim := hp2 id q rfl
      have e1 : before I c2 = before I c1 := by unfold before; rw [g3 rfl]
      have e2 : c2.rest = c1.rest := by
        unfold Cursor.rest
        rw [h1.input, g1.input, g3 rfl]
      rw [← e1, ← e2] at hclaim
      split
      · rename_i hemp
        exact Diag.fail (claim_timeUnit hI g1 ⟨hemp, hclaim⟩)
      · rename_i hemp
        exact Diag.fail (claim_timeUnit hI g1 ⟨by simpa using hemp, hclaim⟩)

theorem parseUnitWord_diag (hI : utf8Valid I = true) (he : EnvOk env) (hs : ScanOk env) (mode : Mode) (r : DurationRepr)
    (hc : Inv I c) (hw : WordStart env.cfg c.rest) {b : UInt8} (hb : c.cur = some b) :
    Diag (Claims env I) (parseUnitWord mode env r c) := by
  unfold parseUnitWord
  split
  · refine (parseTimeUnit_diag hI he hs mode hc).of_safe (parseTimeUnit_safe he mode hc hb) ?_
    rintro ⟨u, c1⟩ ⟨h1, -⟩
    simp only at h1 ⊢
    unfold afterUnitWord
    cases u with
    | some u => exact finalize_diag hI he.cfg mode _ h1
    | none =>
      refine parseNumeralWord_diag hI he hs mode r (hc.reset h1) ?_
      have : (c1.reset c.pos).rest = c.rest := by
        simp [Cursor.rest, Cursor.reset, hc.input, h1.input]
      rw [this]; exact hw
  · exact parseNumeralWord_diag hI he hs mode r hc hw

theorem parseWord_diag (hI : utf8Valid I = true) (he : EnvOk env) (hs : ScanOk env) (mode : Mode) (r : DurationRepr)
    (hc : Inv I c) (hw : WordStart env.cfg c.rest) {b : UInt8} (hb : c.cur = some b) :
    Diag (Claims env I) (parseWord mode env r c) := by
  unfold parseWord
  refine (parseKeyword_diag hI he hs mode hc).of_safe (parseKeyword_safe he mode hc hb) ?_
  rintro ⟨u, c1⟩ ⟨h1, h2, h3, h4⟩
  simp only at h1 h2 h3 h4 ⊢
  unfold afterKeyword
  cases u with
  | some u => exact finalize_diag hI he.cfg mode _ h1
  | none =>
    refine parseUnitWord_diag hI he hs mode r h1 ?_ (by rw [cur_of_pos hc h1 (h3 rfl)]; exact hb)
    have : c1.rest = c.rest := by
      unfold Cursor.rest
      rw [h1.input, hc.input, h3 rfl]
    rw [this]; exact hw

theorem parseBody_diag (hI : utf8Valid I = true) (he : EnvOk env) (hs : ScanOk env) (mode : Mode) (r : DurationRepr)
    (hc : Inv I c) {b : UInt8} (hb : c.cur = some b) : Diag (Claims env I) (parseBody mode env r c) := by
  unfold parseBody
  rw [hb]
  simp only
  by_cases hd : isDigit b = true
  · rw [if_pos hd]
    unfold parseWhole
    rw [Cursor.parseDigitsStripZeros_eq c hc.pos' b hb hd, ok_bind]
    exact parseAfterWhole_diag hI he hs mode _ (inv_digits hc)
  · rw [if_neg hd]
    by_cases h46 : b = 46
    · rw [if_pos h46]; exact parseAfterWhole_diag hI he hs mode _ hc
    · rw [if_neg h46]
      by_cases hi : (!env.cfg.disableInfinity && c.nextIs (b! "inf")) = true
      · rw [if_pos hi]
        simp only [Bool.and_eq_true] at hi
        exact parseInfinityRemainder_diag hI he.cfg mode r hc hi.2
      · rw [if_neg hi]
        refine parseWord_diag hI he hs mode r hc ⟨rest_ne hb, ?_, ?_, ?_⟩ hb
        · rw [Cursor.rest_cons hb]
          rintro ⟨_, _, h, h2⟩
          cases h
          exact hd ((isDigit_iff _).mpr h2)
        · rw [Cursor.rest_cons hb]
          rintro ⟨_, _, h, h2⟩
          cases h
          exact h46 h2
        · intro hinf
          rintro ⟨rest, x, h1, h2⟩
          apply hi
          rw [Bool.and_eq_true]
          refine ⟨by rw [hinf]; rfl, ?_⟩
          rw [Cursor.nextIs_eq c _ hc.pos', h1]
          have hl : x.length = 3 := by simpa using congrArg List.length h2
          simp only [startsWith, Bool.and_eq_true, decide_eq_true_eq]
          refine ⟨by simp [hl], ?_⟩
          rw [← sameText_iff]
          have : (b! "inf").length = x.length := hl.symm
          rw [this, List.take_left]
          exact h2

theorem templateParse_diag (hI : utf8Valid I = true) (he : EnvOk env) (hs : ScanOk env) (mode : Mode) (hc : Inv I c)
    (hcur : c.cur.isSome = true) : Diag (Claims env I) (templateParse mode env c) := by
  obtain ⟨b, hb⟩ := Option.isSome_iff_exists.mp hcur
  unfold templateParse
  rw [hb]
  refine (parseNumberSign_diag hI hc hcur).of_safe (parseNumberSign_safe he.cfg hc hb) ?_
  rintro ⟨neg, c1⟩ ⟨h1, -, h3⟩
  obtain ⟨b', hb'⟩ := Option.isSome_iff_exists.mp h3
  exact parseBody_diag hI he hs mode _ h1 hb'

theorem parseRepr_diag (r : DurationRepr) : Diag (Claims env I) (parseRepr env.cfg r) := by
  unfold parseRepr
  refine (Diag.liftP _).bind (fun d _ => ?_)
  split
  · rename_i h
    refine Diag.fail ?_
    simp only [rejectNegative, Bool.and_eq_true] at h
    show env.cfg.allowNegative = false
    simpa using h.1
  · exact Diag.pure _

theorem parseMultipleLoop_diag (hI : utf8Valid I = true) (he : EnvOk env) (hs : ScanOk env) (fuel : Nat) (d : Duration)
    (hc : Inv I c) (hcur : c.cur.isSome = true) : Diag (Claims env I) (parseMultipleLoop env fuel d c) := by
  induction fuel generalizing d c with
  | zero => exact Diag.panic _
  | succ fuel ih =>
    unfold parseMultipleLoop
    refine (templateParse_diag hI he hs .multiple hc hcur).of_safe (templateParse_safe he .multiple hc hcur) ?_
    rintro ⟨r, next⟩ ⟨h1, h2⟩
    simp only at h1 h2 ⊢
    refine (parseRepr_diag r).bind (fun p _ => ?_)
    refine Diag.bind ?_ (fun d' _ => ?_)
    · unfold accumulate
      split
      · exact Diag.ok _
      · split
        · exact Diag.ok _
        · exact Diag.liftP _
    · cases next with
      | none => exact Diag.pure _
      | some c' =>
        obtain ⟨g1, g2, g3⟩ := h2 c' rfl
        exact ih d' g1 g3

theorem parseWith_diag (hI : utf8Valid I = true) (he : EnvOk env) (hs : ScanOk env) :
    Diag (Claims env I) (parseWith env I) := by
  by_cases hne : I = []
  · subst hne
    rw [parseWith_empty]
    exact Diag.fail rfl
  · have hcur : (Cursor.new I).cur.isSome = true := by
      cases I with
      | nil => exact absurd rfl hne
      | cons a l => rfl
    unfold parseWith
    split
    · exact parseMultipleLoop_diag hI he hs _ _ (Inv.new hI) hcur
    · unfold parseSingle
      exact (templateParse_diag hI he hs .single (Inv.new hI) hcur).bind (fun _ _ => parseRepr_diag _)

theorem bufferedAdvanceTo_word {d : Delimiter} (hc : Inv I c) {w : Bytes} {c' : Cursor}
    (h : c.bufferedAdvanceTo d = .ok (w, c')) : w = c.rest.take w.length := by
  cases hb : c.buffered d with
  | none =>
    rw [Cursor.bufferedAdvanceTo_none d c hc.pos' hb] at h
    cases h
    exact (Cursor.word_take d c).symm
  | some v =>
    unfold Cursor.bufferedAdvanceTo at h
    rw [hb] at h
    cases h
    have key : ∀ p n, c.buffer = some (p, w, n) → p = c.pos → w = c.rest.take w.length := by
      intro p n h1 h2
      subst h2
      have := (hc.buffer _ _ _ h1).2.1
      rw [Cursor.rest, hc.input]; exact this
    unfold Cursor.buffered at hb
    split at hb
    · rename_i p buf n h1
      split at hb
      · rename_i hh
        cases hb
        simp at hh
        exact key p _ h1 hh.1
      · cases hb
    · rename_i p buf h1
      split at hb
      · rename_i hh
        cases hb
        exact key p _ h1 hh
      · cases hb
    · cases hb

theorem scanOk_buffered (h : env.scan = fun d c => c.bufferedAdvanceTo d) : ScanOk env where
  noError := by
    intro I d c e hd hc hh
    rw [h] at hh
    have hh' : c.bufferedAdvanceTo d = fail e := hh
    cases hb : c.buffered d with
    | none => rw [Cursor.bufferedAdvanceTo_none d c hc.pos' hb] at hh'; cases hh'
    | some v => unfold Cursor.bufferedAdvanceTo at hh'; rw [hb] at hh'; cases hh'
  word := by
    intro I d c w c' hd hc hh
    rw [h] at hh
    exact bufferedAdvanceTo_word hc hh

end
end Fundu
