import Verif.Proofs.ExponentError
import Verif.Spec.Mistakes
/-! # The parser reports the mistakes: parts of durations -/
namespace Fundu
open Spec Cursor

variable {I : Bytes} {p : Nat} {c : Cursor} {s : Bytes} {cfg : Config} {env : Env} {f : Fault}

/-- fails with the error of the fault -/
def Fails (I : Bytes) {α : Type} (x : R α) (f : Fault) : Prop := x = fail (f.error I)

theorem Fails.bind {α β : Type} {x : R α} (h : Fails I x f) (g : α → R β) : Fails I (x >>= g) f := by
  unfold Fails at *
  rw [h]; rfl

theorem Fails.ok {α β : Type} {x : R α} {a : α} {g : α → R β} (hx : x = .ok a) (h : Fails I (g a) f) :
    Fails I (x >>= g) f := by
  unfold Fails at *
  rw [hx, ok_bind, h]

theorem At.position (h : At I p c s) : c.pos = I.length - s.length := by
  have h1 := h.inv.restLength
  rw [h.rest] at h1
  have h2 := h.inv.pos
  omega

theorem fails_syntax {α : Type} (h : At I p c s) (reason : Reason) :
    Fails I (fail (.syntax c.pos reason) : R α) (.syntax s reason) := by
  unfold Fails Fault.error
  rw [h.position]

theorem fails_timeUnit {α : Type} (h : At I p c s) (reason : Reason) :
    Fails I (fail (.timeUnit c.pos reason) : R α) (.timeUnit s reason) := by
  unfold Fails Fault.error
  rw [h.position]

theorem dropWhile_nil_iff {d : UInt8 → Bool} {l : Bytes} : l.dropWhile d = [] ↔ ∀ b ∈ l, d b = true := by
  induction l with
  | nil => simp
  | cons b l ih =>
    rw [List.dropWhile_cons]
    split
    · rename_i hb
      rw [ih]
      simp [hb]
    · rename_i hb
      simp [hb]

theorem onlyDelims_iff {d : Delimiter} : OnlyDelims d s ↔ L.headIs d s = true ∧ s.dropWhile d = [] := by
  unfold OnlyDelims
  constructor
  · rintro ⟨h1, h2⟩
    refine ⟨?_, dropWhile_nil_iff.mpr h2⟩
    cases s with
    | nil => exact absurd rfl h1
    | cons b l => exact h2 b (by simp)
  · rintro ⟨h1, h2⟩
    refine ⟨?_, dropWhile_nil_iff.mp h2⟩
    rintro rfl
    cases h1

theorem delims_fails {d : Delimiter} (hd : AsciiOnly d) (h : At I p c s) (hp : 1 ≤ p) (ho : OnlyDelims d s) :
    Fails I (c.tryConsumeDelimiter d) (.syntax s .delimiterAtEnd) := by
  obtain ⟨h1, h2⟩ := onlyDelims_iff.mp ho
  cases hs : s with
  | nil => subst hs; cases h1
  | cons b l =>
    rw [← hs]
    have hb : d b = true := by rw [hs] at h1; exact h1
    have hc : c.cur = some b := by rw [hs] at h; exact h.cons
    rw [tryConsumeDelimiter_eq d c b hc hb (by have := h.pos; omega)]
    rw [(h.delims hd).rest, if_pos h2]
    exact fails_syntax h _

/-! ## Signs and numbers -/

theorem sign_fails (ho : CfgOk cfg) (h : At I 0 c s) (hm : SignMistake cfg s f) : Fails I (parseNumberSign cfg c) f := by
  cases hm with
  | @noNumber b hb =>
    unfold parseNumberSign
    have h1 : At I 1 c.advance [] := h.advance (by rcases hb with rfl | rfl <;> decide)
    unfold parseSignIsNegative
    rw [h.cons]
    rcases hb with rfl | rfl
    · exact Fails.ok rfl (by unfold afterSign; simp only [h1.nil]; exact fails_syntax h1 _)
    · exact Fails.ok rfl (by unfold afterSign; simp only [h1.nil]; exact fails_syntax h1 _)
  | @delimiters b r hb ha hr =>
    unfold parseNumberSign
    have h1 : At I 1 c.advance r := h.advance (by rcases hb with rfl | rfl <;> decide)
    have key : ∀ neg, Fails I (afterSign cfg c.advance (some neg)) (.syntax r .delimiterAtEnd) := by
      intro neg
      unfold afterSign
      cases hr' : r with
      | nil => exact absurd hr' hr.1
      | cons x l =>
        have hx : cfg.innerDelimiter x = true := hr.2 x (by rw [hr']; simp)
        rw [← hr']
        have hc : c.advance.cur = some x := by rw [hr'] at h1; exact h1.cons
        simp only [hc, ha, hx, Bool.and_self, if_true]
        exact (delims_fails ho.inner h1 (Nat.le_refl _) hr).bind _
    unfold parseSignIsNegative
    rw [h.cons]
    rcases hb with rfl | rfl
    · exact Fails.ok rfl (key false)
    · exact Fails.ok rfl (key true)

theorem fract_fails {whole : Option Range} {W : Bytes} (hw : IsWhole I whole W) (h : At I 0 c s)
    (hm : FractionMistake cfg W s f) : Fails I (parseNumberFraction whole cfg.disableFraction c) f := by
  unfold parseNumberFraction
  cases hm with
  | @disabled r hd =>
    rw [h.cons, hd]
    exact fails_syntax h _
  | @noDigits r hd hW hr =>
    rw [h.cons, hd]
    have hwn : whole.isNone = true := by rw [hw.1.mpr hW]; rfl
    have h1 : At I 1 c.advance r := h.advance (by decide)
    have hpos : c.advance.pos - 1 = c.pos := Nat.add_sub_cancel ..
    have hsub : liftP (subUsize c.advance.pos 1) = .ok c.pos := by
      unfold subUsize
      rw [if_pos h1.pos, hpos]; rfl
    simp only [if_true, Bool.false_eq_true, if_false]
    unfold fractionDigits
    cases r with
    | nil =>
      rw [h1.nil, hwn]
      exact Fails.ok hsub (fails_syntax h _)
    | cons x l =>
      rw [h1.cons, hwn]
      have hx : ¬ isDigit x = true := fun hx => hr ⟨x, l, rfl, (digit_iff x).mpr hx⟩
      simp only [if_neg hx, if_true]
      exact Fails.ok hsub (fails_syntax h _)

theorem exp_fails (h : At I 1 c s) (hm : ExponentMistake cfg s f) :
    Fails I (parseNumberExponent cfg.disableExponent c) f := by
  have hlet {x : UInt8} (hx : ExponentLetter x) : (decide (x = 101) || decide (x = 69)) = true ∧ x.toNat < 128 := by
    rcases hx with rfl | rfl <;> exact ⟨rfl, by decide⟩
  cases hm with
  | @disabled x r hx hd =>
    unfold parseNumberExponent
    rw [h.cons, hd]
    simp only [if_pos (hlet hx).1, if_true]
    exact fails_syntax h _
  | @endOfText x hx hd =>
    have h1 := h.advance (hlet hx).2
    unfold parseNumberExponent
    rw [h.cons, hd]
    simp only [if_pos (hlet hx).1, Bool.false_eq_true, if_false]
    unfold parseExponent parseSignIsNegative
    rw [h1.nil]
    exact ((fails_syntax h1 _).bind _).bind _
  | @onlySign x b hx hd hb =>
    have h1 := h.advance (hlet hx).2
    obtain ⟨sg, c1, e1, e2, h2⟩ := parseSign_exp (h1.le (by omega)) (by simp)
    have e : L.expSign [b] = (decide (b = 45), []) := by rcases hb with rfl | rfl <;> rfl
    rw [e] at h2
    unfold parseNumberExponent
    rw [h.cons, hd]
    simp only [if_pos (hlet hx).1, Bool.false_eq_true, if_false]
    refine Fails.bind ?_ _
    unfold parseExponent
    refine Fails.ok e1 ?_
    simp only
    have e3 := exponentLoop_eq (sg.getD false) c1.input.length 0 c1 (by rw [Cursor.rest_length]; omega)
      (by rw [signed_zero]; decide)
    rw [signed_zero, h2.digits_eq] at e3
    simp only [List.takeWhile_nil, decimal, Nat.zero_mul, Nat.add_zero, List.length_nil, signed_zero] at e3
    rw [if_pos (by decide), advanceBy_zero] at e3
    refine Fails.ok e3 ?_
    simp only
    refine Fails.ok (a := 0) (by unfold subUsize; rw [if_pos (Nat.le_refl _), Nat.sub_self]; rfl) ?_
    simp only [Nat.lt_irrefl, if_false, h2.nil, Option.isNone_none, if_true]
    exact fails_syntax h2 _
  | @noDigit x r neg r' hx hd hs hne hr =>
    have h1 := h.advance (hlet hx).2
    have hrn : r ≠ [] := by
      rintro rfl
      cases hs
      exact hne rfl
    obtain ⟨sg, c1, e1, e2, h2⟩ := parseSign_exp (h1.le (by omega)) hrn
    rw [(expSign_iff neg).mp hs] at h2
    rw [startsWith_iff digit_iff] at hr
    have hr' : L.headIs isDigit r' = false := by simpa using hr
    unfold parseNumberExponent
    rw [h.cons, hd]
    simp only [if_pos (hlet hx).1, Bool.false_eq_true, if_false]
    refine Fails.bind ?_ _
    unfold parseExponent
    refine Fails.ok e1 ?_
    simp only
    have e3 := exponentLoop_eq (sg.getD false) c1.input.length 0 c1 (by rw [Cursor.rest_length]; omega)
      (by rw [signed_zero]; decide)
    rw [signed_zero, h2.digits_eq, takeWhile_of_head hr'] at e3
    simp only [decimal, Nat.zero_mul, Nat.add_zero, List.length_nil, signed_zero] at e3
    rw [if_pos (by decide), advanceBy_zero] at e3
    refine Fails.ok e3 ?_
    simp only
    refine Fails.ok (a := 0) (by unfold subUsize; rw [if_pos (Nat.le_refl _), Nat.sub_self]; rfl) ?_
    have hc : c1.cur.isNone = false := by
      cases r' with
      | nil => exact absurd rfl hne
      | cons y l => rw [h2.cons]; rfl
    simp only [Nat.lt_irrefl, if_false, hc, Bool.false_eq_true]
    exact fails_syntax h2 _
  | @overflow x r neg r' E rest hx hd hs hE hi =>
    rw [hd]
    have := parseNumberExponent_overflow h hx hs hE hi
    unfold Fails
    rw [this]
    cases neg <;> rfl

/-! ## Connections -/

theorem afterConj_fails {r w r' : Bytes} (ho : CfgOk cfg) (h : At I p c r') (hp : 1 ≤ p) {start : Cursor} {q : Nat}
    (hs : At I q start r) (hm : ConjunctionMistake cfg r w r' f) :
    Fails I (afterConjunction cfg.outerDelimiter start.pos w c) f := by
  unfold afterConjunction
  cases hm with
  | endOfText => rw [h.nil]; exact fails_syntax hs _
  | delimiters hd =>
    cases hr : r' with
    | nil => exact absurd hr hd.1
    | cons b l =>
      rw [← hr]
      have hb : cfg.outerDelimiter b = true := hd.2 b (by rw [hr]; simp)
      have hc : c.cur = some b := by rw [hr] at h; exact h.cons
      simp only [hc, hb, if_true]
      exact delims_fails ho.outer h hp hd
  | @notSeparated b t hb hn =>
    rw [nextDuration_iff] at hn
    rw [h.cons]
    simp only [hb, Bool.false_eq_true, if_false, if_neg hn]
    exact fails_syntax h _

theorem conj_fails {r w r' : Bytes} (ho : CfgOk cfg) (h : At I p c r) (hp : 1 ≤ p) {before after : List Bytes}
    (hv : utf8Valid w = true) (h1 : ∀ v ∈ before, ¬ ∃ r', AfterWord v r r') (h2 : AfterWord w r r') (hm : ConjunctionMistake cfg r w r' f) :
    Fails I (consumeConjunction cfg.outerDelimiter c.pos c (before ++ w :: after)) f := by
  induction before with
  | nil =>
    simp only [List.nil_append]
    unfold consumeConjunction
    rw [afterWord_iff] at h2
    obtain ⟨h2, rfl⟩ := h2
    rw [h.nextIs, if_pos h2]
    exact afterConj_fails ho (h.skip hv h2) (by omega) h hm
  | cons v vs ih =>
    simp only [List.cons_append]
    unfold consumeConjunction
    have := h1 v (by simp)
    rw [exists_afterWord_iff] at this
    rw [h.nextIs, if_neg this]
    exact ih (fun v hv => h1 v (by simp [hv]))

theorem connectionMistake_head (hm : ConnectionMistake cfg s f) : L.headIs cfg.outerDelimiter s = true := by
  cases hm with
  | delimiters h => exact (onlyDelims_iff.mp h).1
  | conjunction h1 h2 =>
    rw [splitDelim_iff] at h1
    by_contra hc
    exact h2 (by rw [h1.1]; exact takeWhile_of_head (by simpa using hc))

theorem tryConnection_fails (ho : CfgOk cfg) (h : At I p c s) (hp : 1 ≤ p) (hm : ConnectionMistake cfg s f) :
    Fails I (tryConnection cfg c) f := by
  have hh := connectionMistake_head hm
  unfold tryConnection tryConsumeConnection
  cases hs : s with
  | nil => subst hs; cases hh
  | cons b l =>
    have hc : c.cur = some b := by rw [hs] at h; exact h.cons
    have hb : cfg.outerDelimiter b = true := by rw [hs] at hh; exact hh
    refine Fails.ok (assertDelimiter_ok _ c b hc hb) ?_
    cases hm with
    | delimiters hd => exact (delims_fails ho.outer h hp hd).bind _
    | @conjunction ds r before w after r' _ h1 h2 h3 h4 h5 h6 h7 =>
      rw [splitDelim_iff] at h1
      obtain ⟨rfl, rfl⟩ := h1
      obtain ⟨c', hx, h'⟩ := (skipDelims_sim ho.outer h hp hh).some ((skipDelims_iff ..).mpr ⟨rfl, h3⟩)
      refine Fails.ok hx ?_
      rw [h4]
      refine conj_fails ho h' hp ?_ h5 h6 h7
      exact ho.conjunctions w (by rw [h4]; simp)

theorem conn_fails (ho : CfgOk cfg) (h : At I p c s) (hp : 1 ≤ p) (hm : ConnectionMistake cfg s f) :
    Fails I (consumeConnectionIfAny cfg c) f := by
  have hh := connectionMistake_head hm
  unfold consumeConnectionIfAny
  cases hs : s with
  | nil => subst hs; cases hh
  | cons b l =>
    have hc : c.cur = some b := by rw [hs] at h; exact h.cons
    have hb : cfg.outerDelimiter b = true := by rw [hs] at hh; exact hh
    simp only [hc, hb, if_true]
    exact tryConnection_fails ho h hp hm

theorem connOut_fails (ho : CfgOk cfg) (h : At I p c s) (hp : 1 ≤ p) (hm : ConnectionMistake cfg s f) (r : DurationRepr) :
    Fails I (tryConnection cfg c >>= fun c => pure (r, some c)) f :=
  (tryConnection_fails ho h hp hm).bind _

theorem finalizeMultiple_fails (ho : CfgOk cfg) (h : At I p c s) (hp : 1 ≤ p) (hm : ConnectionMistake cfg s f)
    (r : DurationRepr) : Fails I (finalize .multiple cfg r c) f := by
  have hh := connectionMistake_head hm
  simp only [finalize]
  unfold finalizeMultiple
  cases hs : s with
  | nil => subst hs; cases hh
  | cons b l =>
    have hc : c.cur = some b := by rw [hs] at h; exact h.cons
    have hb : cfg.outerDelimiter b = true := by rw [hs] at hh; exact hh
    simp only [hc, hb, if_true]
    exact connOut_fails ho h hp hm r

theorem checkEnd_fails (h : At I p c s) (hs : s ≠ []) : Fails I c.checkEnd (.syntax s (.expectedEndOfInput s)) := by
  unfold checkEnd
  obtain ⟨b, l, hs'⟩ := List.exists_cons_of_ne_nil hs
  have hc : c.cur = some b := by rw [hs'] at h; exact h.cons
  simp only [hc]
  refine Fails.ok h.inv.getRemainderStr ?_
  rw [h.rest]
  exact fails_syntax h _

theorem finalizeSingle_fails (h : At I p c s) (hs : s ≠ []) (r : DurationRepr) :
    Fails I (finalize .single cfg r c) (.syntax s (.expectedEndOfInput s)) :=
  (checkEnd_fails h hs).bind _

/-! ## Time units -/

/-- a mistake in a single time unit makes the parser fail, there or when it checks for the end -/
theorem unitSingle_fails {α : Type} (ho : CfgOk env.cfg) (h : At I p c s) (hs : s ≠ [])
    (hm : UnitSingleMistake env.cfg env.units s f) (k : Option Unit' × Cursor → R α)
    (hk : ∀ u c' r, At I 0 c' r → 1 ≤ c'.pos → r ≠ [] → Fails I (k (some u, c')) (.syntax r (.expectedEndOfInput r))) :
    Fails I (parseTimeUnit .single env c >>= k) f := by
  cases hm with
  | @delimiters w r u ha h1 h2 h3 h4 =>
    refine Fails.bind ?_ _
    rw [splitWord_iff] at h1
    obtain ⟨rfl, rfl⟩ := h1
    simp only [parseTimeUnit]
    unfold parseTimeUnitSingle
    refine Fails.ok (assertSome_ok h hs) ?_
    rw [if_pos ha]
    unfold parseTimeUnitAgo
    refine Fails.ok (advanceTo_eq _ c h.pos') ?_
    simp only [h.word_eq]
    refine Fails.ok (utf8Unchecked_ok (h.word_valid ho.inner)) ?_
    have hw : ¬ (L.word env.cfg.innerDelimiter s).isEmpty = true := by simpa using h2
    rw [if_neg hw, h3]
    simp only [unitFoundSingle]
    have h5 := h.afterWord ho.inner
    have h6 := (word_pos hw).2
    unfold agoSingle
    obtain ⟨b, l, hb⟩ := List.exists_cons_of_ne_nil h4.1
    have hc : (c.advanceBy (L.word env.cfg.innerDelimiter s).length).cur = some b := by rw [hb] at h5; exact h5.cons
    simp only [hc]
    exact (delims_fails ho.inner h5 (by omega) h4).bind _
  | @more u r hu hr =>
    rw [unitSingle_iff] at hu
    obtain ⟨⟨u', c'⟩, hx, h1, h2, h3⟩ := (unitSingle_at ho h hs).some hu
    simp only at h1 h2 h3
    subst h1
    exact Fails.ok hx (hk _ _ _ h2.zero (h3 rfl) hr)

theorem unitMulti_fails (ho : CfgOk env.cfg) (hsc : env.scan = fun d c => c.advanceTo d) (h : At I p c s) (hs : s ≠ [])
    (hm : UnitMultiMistake env.cfg env.units s f) : Fails I (parseTimeUnit .multiple env c) f := by
  have key : ∀ u r, WordIn (UnitEnd env.cfg) env.units s u r → (∀ c', At I (p + 1) c' r →
      Fails I (unitFoundMultiple env.cfg c c' (some u)) f) → Fails I (parseTimeUnit .multiple env c) f := by
    intro u r hw hk
    rw [wordIn_iff unitEnd_iff] at hw
    obtain ⟨h1, h2, rfl⟩ := hw
    simp only [parseTimeUnit]
    unfold parseTimeUnitMultiple
    refine Fails.ok (assertSome_ok h hs) ?_
    refine Fails.ok (scan_eq hsc _ h) ?_
    have hw : ¬ (L.word (unitEnd env.cfg) s).isEmpty = true := by simpa using h1
    simp only
    rw [if_neg hw]
    refine Fails.ok (utf8Unchecked_ok (h.word_valid (unitEnd_ascii ho))) ?_
    rw [h2]
    exact hk _ ((h.afterWord (unitEnd_ascii ho)).le (by have := (word_pos hw).2; omega))
  cases hm with
  | @delimiters u r h1 h2 h3 =>
    refine key _ _ h1 (fun c' h' => ?_)
    unfold unitFoundMultiple
    refine Fails.bind ?_ _
    unfold agoMultiple
    obtain ⟨b, l, hb⟩ := List.exists_cons_of_ne_nil h3.1
    have hc : c'.cur = some b := by rw [hb] at h'; exact h'.cons
    have hbd : env.cfg.innerDelimiter b = true := h3.2 b (by rw [hb]; simp)
    simp only [hc, h2, hbd, Bool.and_self, if_true]
    exact (delims_fails ho.inner h' (by omega) h3).bind _
  | @connection u m m' r r' _ h1 h2 h3 =>
    refine key _ _ h1 (fun c' h' => ?_)
    unfold unitFoundMultiple
    rw [agoMultiple_iff u] at h2
    obtain ⟨⟨u', c2⟩, hx, -, h5⟩ := (agoMultiple_at ho h' (by omega) (u, m)).some h2
    refine Fails.ok hx ?_
    exact (conn_fails ho h5 (by omega) h3).bind _

theorem keywordMultiple_fails (ho : CfgOk env.cfg) (hsc : env.scan = fun d c => c.advanceTo d) (h : At I p c s)
    {k : TimeUnitsLike} {u : Unit'} {r : Bytes} (hk : env.keywords = some k) (hw : WordIn (KeywordEnd env.cfg) k s u r)
    (hm : ConnectionMistake env.cfg r f) : Fails I (parseKeyword .multiple env c) f := by
  rw [wordIn_iff keywordEnd_iff] at hw
  obtain ⟨h1, h2, rfl⟩ := hw
  unfold parseKeyword
  rw [hk]
  simp only
  unfold parseKeywordMultiple
  refine Fails.ok (scan_eq hsc _ h) ?_
  have hw : ¬ (L.word (wordEnd env.cfg) s).isEmpty = true := by simpa using h1
  simp only
  rw [if_neg hw]
  refine Fails.ok (utf8Unchecked_ok (h.word_valid (wordEnd_ascii ho))) ?_
  rw [h2]
  have h3 := h.afterWord (wordEnd_ascii ho)
  simp only [keywordFound]
  exact (conn_fails ho h3 (by have := (word_pos hw).2; omega) hm).bind _

end Fundu
