import Verif.Proofs.Errors
import Verif.Proofs.GnuLoop
/-! # What the errors of `fundu-gnu` say about the text is true -/
namespace Fundu.Gnu
open Fundu Fundu.Spec

theorem scanOk_plain {e : Env} (h : e.scan = fun d c => c.advanceTo d) : ScanOk e where
  noError := by
    intro I d c er hd hc hh
    rw [h] at hh
    have hh' : c.advanceTo d = fail er := hh
    rw [Cursor.advanceTo_eq d c hc.pos'] at hh'
    cases hh'
  word := by
    intro I d c w c' hd hc hh
    rw [h] at hh
    have hh' : c.advanceTo d = .ok (w, c') := hh
    rw [Cursor.advanceTo_eq d c hc.pos'] at hh'
    cases hh'
    exact (Cursor.word_take d c).symm

/-- the errors of one duration are about its fraction -/
def ReprError (r : DurationRepr) (e : ParseError) : Prop :=
  ∃ f, r.fract = some f ∧
    ((e = .invalidInput .fractionWithoutWhole ∧ r.whole = none) ∨
      (e = .invalidInput .fractionWithoutFraction ∧ r.whole.isSome = true ∧ f.isEmpty = true) ∨
      e = .invalidInput .fractionOnlyWithSeconds)

theorem diag_map {α β} {P : ParseError → Prop} {x : R α} (f : α → β) (h : Diag P x) : Diag P (f <$> x) := by
  intro e he
  match x, h, he with
  | .error (.err e'), h, he => cases he; exact h _ rfl

theorem scaled_diag {P : ParseError → Prop} (r : DurationRepr) (w : Range) (f : Nat → Except Panic Nat) (m : Multiplier) :
    Diag P (scaled r w f m) := by
  unfold scaled
  refine (Diag.liftP _).bind (fun o _ => ?_)
  cases o with
  | none => exact Diag.pure _
  | some s => exact Diag.liftP _

theorem parseRepr_diag (r : DurationRepr) : Diag (ReprError r) (parseRepr r) := by
  unfold parseRepr
  simp only
  split
  · split
    · exact Diag.liftP _
    · split
      · exact Diag.liftP _
      · exact Diag.panic _
  · rename_i f hw hf
    split
    · exact Diag.fail ⟨f, hf, Or.inl ⟨rfl, hw⟩⟩
    · exact Diag.fail ⟨f, hf, Or.inr (Or.inr rfl)⟩
  · exact (Diag.liftP _).bind (fun _ _ => scaled_diag _ _ _ _)
  · rename_i w f hw hf
    split
    · split
      · rename_i he
        exact Diag.fail ⟨f, hf, Or.inr (Or.inl ⟨rfl, by rw [hw]; rfl, he⟩)⟩
      · exact (Diag.liftP _).bind (fun _ _ => scaled_diag _ _ _ _)
    · exact Diag.fail ⟨f, hf, Or.inr (Or.inr rfl)⟩

theorem fuzzyUnit_diag (r : DurationRepr) : Diag (ReprError r) (fuzzyUnit r) := by
  unfold fuzzyUnit
  split
  · rename_i h
    obtain ⟨f, hf⟩ := Option.isSome_iff_exists.mp h
    exact Diag.fail ⟨f, hf, Or.inr (Or.inr rfl)⟩
  · unfold fuzzyNumber
    split
    · split
      · exact (Diag.liftP _).bind (fun _ _ => Diag.pure _)
      · exact Diag.pure _
    · refine (Diag.liftP _).bind (fun o _ => ?_)
      unfold fuzzyValue
      split
      · split
        · split
          · exact Diag.liftP _
          · exact Diag.pure _
        · exact Diag.pure _
      · exact Diag.pure _

theorem parseReprFuzzy_diag (r : DurationRepr) : Diag (ReprError r) (parseReprFuzzy r) := by
  unfold parseReprFuzzy
  split
  · exact diag_map _ (fuzzyUnit_diag r)
  · split
    · exact diag_map _ (fuzzyUnit_diag r)
    · exact diag_map _ (parseRepr_diag r)

/-- what the errors of `parse_fuzzy` claim about the trimmed text -/
def GnuClaims (I : Bytes) (e : ParseError) : Prop :=
  Claims plain I e ∨ ∃ reason, e = .invalidInput reason ∧ FractionClaim I reason

theorem endsWith_digits {a W : Bytes} (hW : AllDigits W) (hne : W ≠ []) : EndsWith IsDigit (a ++ W) := by
  refine ⟨a ++ W.dropLast, W.getLast hne, ?_, hW _ (List.getLast_mem hne)⟩
  rw [List.append_assoc, List.dropLast_append_getLast hne]

theorem number_text {cfg : Config} {units : TimeUnitsLike} {keywords : Option TimeUnitsLike} {numerals : Option NumbersLike}
    {s rest W F : Bytes} {e : Int} {u : Option Unit'} (h : MultiText cfg units keywords numerals s (.number W F e u) rest) :
    ∃ r, NumberText cfg s W F e r := by
  cases h with
  | numberEnd h => exact ⟨_, h⟩
  | numberUnit h _ _ _ => exact ⟨_, h⟩
  | number h _ _ _ _ => exact ⟨_, h⟩

theorem sign_suffix {s r : Bytes} {neg : Bool} (h : SignPart CONFIG s neg r) : ∃ a, s = a ++ r := by
  have hd : ∀ {x y : Bytes}, AfterDelims CONFIG.allowSignDelimiter CONFIG.innerDelimiter x y → ∃ a, x = a ++ y := by
    intro x y h
    have h : ∃ ds, Split (CONFIG.innerDelimiter · = true) x ds y := h
    obtain ⟨ds, h⟩ := h
    exact ⟨ds, h.1⟩
  cases h with
  | absent h1 h2 => exact ⟨[], rfl⟩
  | plus h1 h2 => obtain ⟨a, rfl⟩ := hd h1; exact ⟨43 :: a, rfl⟩
  | minus h1 h2 => obtain ⟨a, rfl⟩ := hd h1; exact ⟨45 :: a, rfl⟩

theorem reprError_claim {I s rest : Bytes} {c : Cursor} {r : DurationRepr} {next : Option Cursor} {neg : Bool} {item : Item}
    (h : At I 0 c s) (hy : L.template .multiple plain s = some ((neg, item), rest))
    (ha : IsRepr I CONFIG neg (L.point (L.afterSign CONFIG s)) item r) {e : ParseError} (he : ReprError r e) :
    ∃ reason, e = .invalidInput reason ∧ FractionClaim I reason := by
  obtain ⟨f, hf, he⟩ := he
  obtain ⟨r', m1, m2⟩ := (template_iff _ _ _).1 hy
  have hm := (multi_iff _).1 m2
  have hs : L.afterSign CONFIG s = r' := sign_after m1
  rw [hs] at ha
  obtain ⟨a0, hs0⟩ : ∃ a, s = a ++ r' := sign_suffix m1
  have hI : I = before I c ++ (a0 ++ r') := by
    conv_lhs => rw [before_split h.inv, h.rest, hs0]
  cases item with
  | infinity =>
    obtain ⟨r0, h1, rfl⟩ := ha
    exfalso
    cases hm with
    | inf h => cases h
    | infinity h => cases h
  | word u => obtain ⟨r0, h1, h2, h3, rfl⟩ := ha; rw [show (withUnit r0 (some u)).fract = none from h3] at hf; cases hf
  | numeral q u =>
    obtain ⟨r0, h1, h2, h3, rfl⟩ := ha
    rw [show (withUnit { r0 with numeral := some q } (some u)).fract = none from h3] at hf; cases hf
  | number W F x u =>
    obtain ⟨r0, h1, h2, h3, h4, h5, h6, rfl⟩ := ha
    have ef : (withUnit r0 u).fract = r0.fract := by cases u <;> rfl
    have ew : (withUnit r0 u).whole = r0.whole := by cases u <;> rfl
    rw [ef] at hf
    rw [ew] at he
    obtain ⟨rr, r1, r2, k1, k2, k3⟩ := number_text hm
    have hpt : L.point r' = true := by rw [← h5, hf]; rfl
    have k1' := (split_iff digit_iff _ _ _).1 k1
    have hpt' : StartsWith (· = 46) r1 := by
      rw [startsWith_iff (q := fun b => b = 46) (by simp), k1'.2]; exact hpt
    cases k2 with
    | absent _ hn => exact absurd hpt' hn
    | present hd hsp hor =>
      rename_i q
      have hI' : I = (before I c ++ a0 ++ W) ++ 46 :: q := by
        exact hI.trans (by rw [k1.1]; simp)
      rcases he with ⟨rfl, hw⟩ | ⟨rfl, hw, hemp⟩ | rfl
      · refine ⟨_, rfl, _, q, hI', ?_⟩
        have hW := h2.1.1 hw
        have hF : F ≠ [] := by
          rcases hor with h | h
          · exact absurd hW h
          · exact h
        cases hFF : F with
        | nil => exact absurd hFF hF
        | cons b l =>
          rw [hFF] at hsp
          exact ⟨b, l ++ r2, by rw [hsp.1]; rfl, hsp.2.1 b (by simp)⟩
      · refine ⟨_, rfl, _, q, hI', ?_, ?_⟩
        · refine endsWith_digits k1.2.1 ?_
          intro h0
          rw [h2.1.2 h0] at hw; cases hw
        · have hF : F = [] := by
            have hsl := h3.1
            rw [hf] at hsl
            have hsl : DurationRepr.rangeSlice I f = .ok F := hsl
            unfold DurationRepr.rangeSlice at hsl
            obtain ⟨g1, g2, g3, -⟩ := slice_inv hsl
            rw [g3]
            have : f.stop = f.start := by simpa [Range.isEmpty] using hemp
            rw [this]
            simp
          rw [hF] at hsp
          have := hsp.1
          rw [List.nil_append] at this
          rw [this]; exact hsp.2.2
      · exact ⟨_, rfl, _, q, hI'⟩

theorem addOutput_diag {P : ParseError → Prop} (t : Totals) (o : FuzzyOutput) : Diag P (addOutput t o) := by
  unfold addOutput
  split
  · refine Diag.bind ?_ (fun _ _ => Diag.pure _)
    unfold addDuration
    split
    · exact Diag.ok _
    · split
      · exact Diag.ok _
      · exact Diag.liftP _
  · exact Diag.pure _
  · exact Diag.pure _

theorem fuzzyLoop_diag {I s : Bytes} {c : Cursor} (hI : utf8Valid I = true) (fuel : Nat) (t : Totals)
    (h : At I 0 c s) (hs : s ≠ []) : Diag (GnuClaims I) (fuzzyLoop plain fuel t c) := by
  induction fuel generalizing t c s with
  | zero => exact Diag.panic _
  | succ fuel ih =>
    have hcur : c.cur.isSome = true := by
      cases s with
      | nil => exact absurd rfl hs
      | cons a l => rw [h.cons]; rfl
    unfold fuzzyLoop
    have ha := template_at plain_ok.cfg rfl .multiple h
    have hd := templateParse_diag hI plain_ok (scanOk_plain rfl) .multiple h.inv hcur
    refine Diag.bind (fun e he => Or.inl (hd e he)) ?_
    rintro ⟨r, next⟩ ho
    obtain ⟨y, hy, ha⟩ := ha.of_ok ho
    obtain ⟨⟨neg, item⟩, rest⟩ := y
    refine Diag.bind (fun e he => Or.inr ?_) (fun out _ => ?_)
    · exact reprError_claim (next := next) h hy ha.1 (parseReprFuzzy_diag r e he)
    · refine (addOutput_diag t out).bind (fun t' _ => ?_)
      cases next with
      | none => exact Diag.pure _
      | some c' =>
        obtain ⟨hr, hat⟩ : rest ≠ [] ∧ At I 1 c' rest := ha.2.2
        exact ih t' (hat.le (Nat.zero_le _)) hr

theorem fuzzy_diag {s : Bytes} (hs : utf8Valid s = true) :
    Diag (GnuClaims s) (fuzzyLoop (env CONFIG) (s.length + 1) ⟨0, 0, Duration.ZERO⟩ (Cursor.new s)) := by
  have e : fuzzyLoop (env CONFIG) (s.length + 1) ⟨0, 0, Duration.ZERO⟩ (Cursor.new s) =
      fuzzyLoop plain (s.length + 1) ⟨0, 0, Duration.ZERO⟩ (Cursor.new s) :=
    fuzzyLoop_sim (e := env CONFIG) (Or.inl fun b h => h) _ _ (Cursor.new s) (fun p w n h => by cases h)
  rw [e]
  by_cases hne : s = []
  · subst hne
    exact Diag.fail (Or.inl rfl)
  · exact fuzzyLoop_diag hs _ _ ⟨Inv.new hs, Cursor.rest_new s, Nat.zero_le _⟩ hne

end Fundu.Gnu
