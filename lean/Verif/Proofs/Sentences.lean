import Verif.Proofs.Spans
import Verif.Spec.Sentences
/-!
# Phrases are sequences of durations of the grammar
-/
namespace Fundu.Props
open Fundu Fundu.Spec

/-- an ASCII letter -/
def IsLetter (b : UInt8) : Prop := (65 ≤ b.toNat ∧ b.toNat ≤ 90) ∨ (97 ≤ b.toNat ∧ b.toNat ≤ 122)

theorem lower_nonletter {a b : UInt8} (h : lower a = lower b) (hb : ¬ IsLetter b) : a = b := by
  have e : lower b = b := by
    unfold lower; unfold IsLetter at hb; rw [if_neg (by omega)]
  rw [e] at h
  unfold lower at h
  by_cases ha : 65 ≤ a.toNat ∧ a.toNat ≤ 90
  · rw [if_pos ha] at h
    exfalso
    apply hb
    right
    rw [← h, UInt8.toNat_add]
    have : (32 : UInt8).toNat = 32 := rfl
    omega
  · rw [if_neg ha] at h
    exact h

theorem sameText_cons {a b : UInt8} {s t : Bytes} : SameText (a :: s) (b :: t) ↔ lower a = lower b ∧ SameText s t := by
  unfold SameText; simp

theorem sameText_length {s t : Bytes} (h : SameText s t) : s.length = t.length := by
  have := congrArg List.length h
  simpa using this

theorem sameText_trans {s t r : Bytes} (h : SameText s t) (h' : SameText t r) : SameText s r := Eq.trans h h'
theorem sameText_symm {s t : Bytes} (h : SameText s t) : SameText t s := Eq.symm h

theorem nextDuration_nonletter {b : UInt8} (h : NextDuration b) : ¬ IsLetter b := by
  unfold IsLetter
  rcases h with h | rfl | rfl
  · unfold IsDigit at h; omega
  · decide
  · decide

/-- words which match the start of a text: `x` is a word (no byte satisfies `stop`), after it there is a byte satisfying
`stop` or nothing; `v` is another word which matches the start of the text -/
theorem match_cases {stop : UInt8 → Prop} (hstop : ∀ b, stop b → ¬ IsLetter b) {x tail v r : Bytes}
    (hx : ∀ b ∈ x, ¬ stop b) (ht : tail = [] ∨ StartsWith stop tail) (hv : ∀ b ∈ v, ¬ stop b)
    (h : AfterWord v (x ++ tail) r) : ∃ x1 x2, x = x1 ++ x2 ∧ SameText x1 v ∧ r = x2 ++ tail := by
  obtain ⟨y, hy, hyv⟩ := h
  induction x generalizing v y with
  | nil =>
    cases y with
    | nil => exact ⟨[], [], rfl, hyv, hy.symm⟩
    | cons c y =>
      exfalso
      rw [List.nil_append] at hy
      rcases ht with rfl | ⟨b, l, rfl, hb⟩
      · cases hy
      · rw [List.cons_append] at hy
        injection hy with h1 _
        subst h1
        cases v with
        | nil => cases hyv
        | cons e v =>
          have := lower_nonletter (sameText_cons.1 hyv).1.symm (hstop _ hb)
          exact hv e (by simp) (this ▸ hb)
  | cons b x ih =>
    cases y with
    | nil => exact ⟨[], b :: x, rfl, hyv, hy.symm⟩
    | cons c y =>
      rw [List.cons_append, List.cons_append] at hy
      injection hy with h1 h2
      subst h1
      cases v with
      | nil => cases hyv
      | cons e v =>
        obtain ⟨k1, k2⟩ := sameText_cons.1 hyv
        obtain ⟨x1, x2, g1, g2, g3⟩ := ih (v := v) (fun d hd => hx d (by simp [hd])) (fun d hd => hv d (by simp [hd])) y h2 k2
        exact ⟨b :: x1, x2, by rw [g1]; rfl, sameText_cons.2 ⟨k1, g2⟩, g3⟩

/-- the first element of a list with a property -/
theorem first_split {α : Type} {P : α → Prop} {l : List α} {w : α} (hw : w ∈ l) (h : P w) :
    ∃ before v after, l = before ++ v :: after ∧ (∀ y ∈ before, ¬ P y) ∧ P v := by
  induction l with
  | nil => cases hw
  | cons a l ih =>
    by_cases ha : P a
    · exact ⟨[], a, l, rfl, by simp, ha⟩
    · have hw' : w ∈ l := by
        rcases List.mem_cons.1 hw with rfl | h'
        · exact absurd h ha
        · exact h'
      obtain ⟨before, v, after, h1, h2, h3⟩ := ih hw'
      refine ⟨a :: before, v, after, by rw [h1]; rfl, ?_, h3⟩
      intro y hy
      rcases List.mem_cons.1 hy with rfl | hy
      · exact ha
      · exact h2 y hy

/-- the multiplier `p` stands for `x` nanoseconds -/
def WordLength (p : Multiplier) (x : Int) : Prop :=
  -18 ≤ p.exponent ∧ p.exponent ≤ 19 ∧ (p.coefficient : ℚ) * 10 ^ p.exponent * 10 ^ 9 = x

/-- what is needed of a parser to read the phrases -/
structure StyleOk (cfg : Config) (units : TimeUnitsLike) (keywords : Option TimeUnitsLike) (numerals : Option NumbersLike)
    (f : Style) : Prop where
  format : FormatOk cfg units keywords f.toSpanFormat
  letters : ∀ b, f.space b → ¬ IsLetter b
  signGaps : f.signGaps → cfg.allowSignDelimiter = true
  ago : f.ago ↔ cfg.allowAgo = true
  words : f.words = cfg.conjunctions.getD []
  conjunctions : Conjunctions f
  default : Length cfg.defaultUnit.multiplier f.defaultLength
  infinite : f.infinite ↔ cfg.disableInfinity = false
  keyword : ∀ w x, f.keywords w x → PhraseWord f w ∧ ∃ k u m, keywords = some k ∧ k.get w = some (u, m) ∧ Fits u.multiplier m ∧
    WordLength (product u.multiplier m) x
  /-- a numeral is neither a keyword nor a unit which could stand without a number -/
  numeral : ∀ w q, f.numerals w q → PhraseWord f w ∧ (∀ k, keywords = some k → k.get w = none) ∧
    (cfg.numberIsOptional = true → units.get w = none) ∧ ∃ n, numerals = some n ∧ n w = some ⟨q, 0⟩
  /-- the products of numerals and units are not too large -/
  products : ∀ w q, f.numerals w q → ∀ id len, f.ids id len → ∀ u m, units.get id = some (u, m) →
    Fits ⟨q, 0⟩ u.multiplier ∧ Fits (product ⟨q, 0⟩ u.multiplier) m ∧ Fits (product ⟨q, 0⟩ u.multiplier) (negated m)

variable {cfg : Config} {units : TimeUnitsLike} {keywords : Option TimeUnitsLike} {numerals : Option NumbersLike} {f : Style}

/-- the bytes that end words -/
def Stop (f : Style) (b : UInt8) : Prop := f.space b ∨ NextDuration b

theorem stop_nonletter (hf : StyleOk cfg units keywords numerals f) : ∀ b, Stop f b → ¬ IsLetter b :=
  fun b h => h.elim (hf.letters b) nextDuration_nonletter

theorem stop_keywordEnd (hf : StyleOk cfg units keywords numerals f) {b : UInt8} : Stop f b ↔ KeywordEnd cfg b :=
  or_congr (hf.format.outer b) Iff.rfl

theorem stop_unitEnd (hf : StyleOk cfg units keywords numerals f) {b : UInt8} : Stop f b ↔ UnitEnd cfg b := by
  unfold Stop UnitEnd
  rw [← hf.format.outer b, ← hf.format.inner b]
  tauto

theorem startsNumber_stop {rest : Bytes} (h : StartsNumber rest) : StartsWith (Stop f) rest := by
  obtain ⟨b, l, rfl, hb⟩ := h
  exact ⟨b, l, rfl, Or.inr hb⟩

theorem gap_stop {gap rest : Bytes} (h : f.Gap gap) (h' : gap ≠ [] ∨ StartsNumber rest) : StartsWith (Stop f) (gap ++ rest) := by
  cases gap with
  | nil => exact startsNumber_stop (h'.resolve_left (by simp))
  | cons b l => exact ⟨b, l ++ rest, rfl, Or.inl (h b (by simp))⟩

theorem joint_stop {joint rest : Bytes} (h : Joint f rest joint) : StartsWith (Stop f) (joint ++ rest) := by
  cases h with
  | gap h1 h2 => exact gap_stop h1 h2
  | word h1 h2 => rw [List.append_assoc]; exact gap_stop h1 (Or.inl h2)

/-- how a phrase may start: the text is not empty, does not start with white space, is not the word `ago` and does not start
with a conjunction -/
structure Start (cfg : Config) (f : Style) (s : Bytes) : Prop where
  ne : s ≠ []
  space : ¬ StartsWith f.space s
  ago : f.ago → ¬ ∃ r, AgoText cfg s r
  words : ∀ w ∈ f.words, ¬ ∃ r, AfterWord w s r

theorem start_head (hf : StyleOk cfg units keywords numerals f) {b : UInt8} {l : Bytes} (h1 : ¬ f.space b) (h2 : lower b ≠ 97)
    (h3 : ∀ w ∈ f.words, w.head?.map lower ≠ some (lower b)) : Start cfg f (b :: l) where
  ne := by simp
  space := by rw [startsWith_cons]; exact h1
  ago := by
    rintro - ⟨r, ⟨y, hy, hy2⟩, -⟩
    cases y with
    | nil => cases hy2
    | cons c y =>
      rw [List.cons_append] at hy
      injection hy with hy _
      subst hy
      exact h2 ((sameText_cons.1 hy2).1.trans (by decide))
  words := by
    rintro w hw ⟨r, y, hy, hy2⟩
    have hne := (hf.conjunctions.letters w hw).1
    cases w with
    | nil => exact absurd rfl hne
    | cons e w =>
      cases y with
      | nil => cases hy2
      | cons c y =>
        rw [List.cons_append] at hy
        injection hy with hy _
        subst hy
        exact h3 _ hw (congrArg some (sameText_cons.1 hy2).1.symm)

theorem start_next (hf : StyleOk cfg units keywords numerals f) {b : UInt8} {l : Bytes} (h : NextDuration b) : Start cfg f (b :: l) := by
  have hl := nextDuration_nonletter h
  have e : lower b = b := by unfold lower; unfold IsLetter at hl; rw [if_neg (by omega)]
  refine start_head hf (fun hs => (hf.format.spaces b hs).1 h) ?_ ?_
  · rw [e]
    rintro rfl
    exact hl (by unfold IsLetter; decide)
  · intro w hw hh
    cases w with
    | nil => cases hh
    | cons c w =>
      have : lower c = lower b := Option.some.inj hh
      have := lower_nonletter this hl
      subst this
      exact ((hf.conjunctions.letters _ hw).2 c (by simp)).2 h

/-- a conjunction in any case -/
theorem word_letters (hf : StyleOk cfg units keywords numerals f) {w x : Bytes} (hw : w ∈ f.words) (hx : SameText x w) :
    x ≠ [] ∧ ∀ b ∈ x, ¬ Stop f b := by
  obtain ⟨h1, h2⟩ := hf.conjunctions.letters w hw
  have h2' : ∀ b ∈ w, ¬ Stop f b := fun b hb => fun h => h.elim (h2 b hb).1 (h2 b hb).2
  refine ⟨?_, ?_⟩
  · rintro rfl
    exact h1 (List.eq_nil_of_length_eq_zero (by rw [← sameText_length hx]; rfl))
  · intro b hb hs
    obtain ⟨i, hi, rfl⟩ := List.getElem_of_mem hb
    have hl := sameText_length hx
    have e : lower (x[i]) = lower (w[i]'(by omega)) := by
      unfold SameText at hx
      have := congrArg (fun l : Bytes => l[i]?) hx
      simp only [List.getElem?_map] at this
      rw [List.getElem?_eq_getElem hi, List.getElem?_eq_getElem (by omega)] at this
      exact Option.some.inj this
    have := lower_nonletter e.symm (stop_nonletter hf _ hs)
    exact h2' _ (List.getElem_mem _) (this ▸ hs)

theorem ago_no_stop (hf : StyleOk cfg units keywords numerals f) : ∀ b ∈ b! "ago", ¬ Stop f b := by
  intro b hb h
  refine stop_nonletter hf b h ?_
  have : ∀ b ∈ b! "ago", IsLetter b := by unfold IsLetter; decide
  exact this b hb

/-- a word in front of white space, a digit, a sign or the end can start a phrase -/
theorem word_start (hf : StyleOk cfg units keywords numerals f) {w r : Bytes} (hne : w ≠ [])
    (hl : ∀ b ∈ w, ¬ f.space b ∧ ¬ NextDuration b) (ha : f.ago → ¬ SameText w (b! "ago"))
    (hw : ∀ v ∈ f.words, ¬ ∃ r, AfterWord v w r) (hr : r = [] ∨ StartsWith (Stop f) r) : Start cfg f (w ++ r) := by
  have hl' : ∀ b ∈ w, ¬ Stop f b := fun b hb h => h.elim (hl b hb).1 (hl b hb).2
  refine ⟨by simp [hne], ?_, ?_, ?_⟩
  · cases w with
    | nil => exact absurd rfl hne
    | cons b w => rw [List.cons_append, startsWith_cons]; exact (hl b (by simp)).1
  · rintro hago ⟨t, h1, h2⟩
    obtain ⟨x1, x2, rfl, k1, k2⟩ := match_cases (stop_nonletter hf) hl' hr (ago_no_stop hf) h1
    cases x2 with
    | nil => exact ha hago (by rwa [List.append_nil])
    | cons b x2 =>
      subst k2
      rcases h2 with h2 | ⟨c, l, h2, h3⟩
      · cases h2
      · cases h2
        exact hl' b (by simp) ((stop_keywordEnd hf).2 h3)
  · rintro v hv ⟨t, h⟩
    obtain ⟨x1, x2, e, k1, -⟩ := match_cases (stop_nonletter hf) hl' hr (word_letters hf hv rfl).2 h
    exact hw v hv ⟨x2, x1, e, k1⟩

theorem digits_head {W r : Bytes} (hW : AllDigits W) (hne : W ≠ []) : ∃ b l, W ++ r = b :: l ∧ NextDuration b := by
  cases W with
  | nil => exact absurd rfl hne
  | cons b l => exact ⟨b, l ++ r, rfl, Or.inl (hW b (by simp))⟩

theorem id_start (hf : StyleOk cfg units keywords numerals f) {id r : Bytes} {len : Nat} (hb : f.bare) (h : f.ids id len)
    (hr : r = [] ∨ StartsWith (Stop f) r) : Start cfg f (id ++ r) := by
  obtain ⟨g1, g2, g3⟩ := hf.format.idText _ _ h
  refine word_start hf g1 g2 ?_ (fun v hv => hf.conjunctions.notUnit hb v hv _ _ h) hr
  rintro - hs
  cases id with
  | nil => exact absurd rfl g1
  | cons b l => exact (g3 b rfl).2.2.2.2 ((sameText_cons.1 hs).1.trans (by decide))

theorem span_start (hf : StyleOk cfg units keywords numerals f) {t r : Bytes} {x : Int} (h : SpanText f.toSpanFormat t x)
    (hr : r = [] ∨ StartsWith (Stop f) r) : Start cfg f (t ++ r) := by
  cases h with
  | number h1 h2 =>
    rw [List.append_assoc]
    obtain ⟨b, l, e, h⟩ := digits_head (r := _) h1 h2
    rw [e]; exact start_next hf h
  | fraction h1 h2 =>
    rw [List.append_assoc]
    obtain ⟨b, l, e, h⟩ := digits_head (r := _) h1 h2
    rw [e]; exact start_next hf h
  | unit hb h => exact id_start hf hb h hr

theorem numeral_start (hf : StyleOk cfg units keywords numerals f) {w r : Bytes} {q : Int} (h : f.numerals w q)
    (hr : r = [] ∨ StartsWith (Stop f) r) : Start cfg f (w ++ r) := by
  obtain ⟨k, -⟩ := hf.numeral w q h
  exact word_start hf k.ne k.letters k.ago (fun v hv => hf.conjunctions.notNumeral v hv _ _ h) hr

theorem amount_start (hf : StyleOk cfg units keywords numerals f) {t r : Bytes} {ago : Bool} {x : Int} (h : Amount f t ago x)
    (hr : r = [] ∨ StartsWith (Stop f) r) : Start cfg f (t ++ r) := by
  cases h with
  | plain h => exact span_start hf h hr
  | ago _ h hg hne => 
    rw [List.append_assoc, List.append_assoc]
    exact span_start hf h (Or.inr (gap_stop hg (Or.inl hne)))
  | keyword h =>
    obtain ⟨k, -⟩ := hf.keyword _ _ h
    exact word_start hf k.ne k.letters k.ago (fun v hv => hf.conjunctions.notKeyword v hv _ _ h) hr
  | numeral h hg hne =>
    rw [List.append_assoc, List.append_assoc]
    exact numeral_start hf h (Or.inr (gap_stop hg (Or.inl hne)))
  | numeralAgo _ h hg hne =>
    rw [List.append_assoc, List.append_assoc]
    exact numeral_start hf h (Or.inr (gap_stop hg (Or.inl hne)))

theorem infinity_letters {t : Bytes} (h : SameText t (b! "inf") ∨ SameText t (b! "infinity")) : t ≠ [] ∧ ∀ b ∈ t, IsLetter b := by
  refine ⟨(fun e => by subst e; rcases h with h | h <;> cases h), ?_⟩
  have key : ∀ (t w : Bytes), SameText t w → (∀ b ∈ w, IsLetter b) → ∀ b ∈ t, IsLetter b := by
    intro t
    induction t with
    | nil => intro _ _ _ b hb; cases hb
    | cons c t ih =>
      intro w hw hl b hb
      cases w with
      | nil => cases hw
      | cons e w =>
        obtain ⟨h1, h2⟩ := sameText_cons.1 hw
        rcases List.mem_cons.1 hb with rfl | hb
        · by_contra hnl
          have := lower_nonletter h1.symm hnl
          exact hnl (this ▸ hl e (by simp))
        · exact ih w h2 (fun c hc => hl c (by simp [hc])) b hb
  have l1 : ∀ b ∈ b! "inf", IsLetter b := by unfold IsLetter; decide
  have l2 : ∀ b ∈ b! "infinity", IsLetter b := by unfold IsLetter; decide
  rcases h with h | h
  · exact key _ _ h l1
  · exact key _ _ h l2

theorem infinity_start (hf : StyleOk cfg units keywords numerals f) {t r : Bytes} (hi : f.infinite)
    (h : SameText t (b! "inf") ∨ SameText t (b! "infinity")) (hr : r = [] ∨ StartsWith (Stop f) r) : Start cfg f (t ++ r) := by
  obtain ⟨hne, hl⟩ := infinity_letters h
  refine word_start hf hne (fun b hb => ⟨fun hs => hf.letters b hs (hl b hb), fun hn => nextDuration_nonletter hn (hl b hb)⟩) ?_ ?_ hr
  · rintro - hs
    rcases h with h | h
    · have := sameText_trans (sameText_symm h) hs; revert this; decide
    · have := sameText_trans (sameText_symm h) hs; revert this; decide
  · rintro v hv ⟨x2, x1, e, hx⟩
    refine hf.conjunctions.notInfinity hi v hv ⟨(b! "infinity").drop x1.length, (b! "infinity").take x1.length,
      (List.take_append_drop ..).symm, sameText_trans (sameText_symm ?_) hx⟩
    have hp : x1 = t.take x1.length := by rw [e, List.take_left' rfl]
    have hlen : x1.length ≤ t.length := by rw [e]; simp
    rcases h with h | h
    · have h8 : x1.length ≤ 3 := by have := sameText_length h; simp at this; omega
      have e2 : (b! "infinity").take x1.length = (b! "inf").take x1.length := by
        generalize x1.length = n at h8
        have : ∀ n ≤ 3, (b! "infinity").take n = (b! "inf").take n := by decide
        exact this n h8
      rw [e2]
      unfold SameText at h ⊢
      rw [List.map_take, ← h, ← List.map_take, ← hp]
    · unfold SameText at h ⊢
      rw [List.map_take, ← h, ← List.map_take, ← hp]

theorem number_start (hf : StyleOk cfg units keywords numerals f) {t r : Bytes} {x : Int} (h : PlainNumber f t x) :
    Start cfg f (t ++ r) := by
  cases h with
  | whole h1 h2 =>
    obtain ⟨b, l, e, h⟩ := digits_head (r := r) h1 h2
    rw [e]; exact start_next hf h
  | fraction h1 h2 =>
    rw [List.append_assoc]
    obtain ⟨b, l, e, h⟩ := digits_head (r := _) h1 h2
    rw [e]; exact start_next hf h

theorem sign_start (hf : StyleOk cfg units keywords numerals f) {sign r : Bytes} {neg : Bool} (h : SignPhrase f sign neg)
    (hr : Start cfg f r) : Start cfg f (sign ++ r) := by
  cases h with
  | absent => exact hr
  | plus _ _ => exact start_next hf (Or.inr (Or.inl rfl))
  | minus _ _ => exact start_next hf (Or.inr (Or.inr rfl))

theorem phrases_start (hf : StyleOk cfg units keywords numerals f) {s : Bytes} {l : List (Bool × Int)} (h : Phrases f s l) :
    Start cfg f s := by
  cases h with
  | last h1 h2 => exact sign_start hf h1 (by have := amount_start (r := []) hf h2 (Or.inl rfl); rwa [List.append_nil] at this)
  | more h1 h2 h3 => exact sign_start hf h1 (amount_start hf h2 (Or.inr (joint_stop h3)))
  | lastNumber h1 h2 => exact sign_start hf h1 (by have := number_start (r := []) hf h2; rwa [List.append_nil] at this)
  | moreNumber h1 h2 => exact sign_start hf h1 (number_start hf h2)
  | lastInfinity h1 h2 h3 =>
    exact sign_start hf h1 (by have := infinity_start (r := []) hf h2 h3 (Or.inl rfl); rwa [List.append_nil] at this)
  | moreInfinity h1 h2 h3 _ h5 => exact sign_start hf h1 (infinity_start hf h2 h3 (Or.inr (joint_stop h5)))

/-- the sign of a phrase -/
theorem phrase_sign (hf : StyleOk cfg units keywords numerals f) {sign r : Bytes} {neg : Bool} (h : SignPhrase f sign neg)
    (hr : Start cfg f r) (hs : ¬ StartsWith (fun b => b = 43 ∨ b = 45) r) : SignPart cfg (sign ++ r) neg r := by
  have hd : ∀ {gap : Bytes}, f.Gap gap → gap = [] ∨ f.signGaps →
      AfterDelims cfg.allowSignDelimiter cfg.innerDelimiter (gap ++ r) r := by
    intro gap h1 h2
    have hns : ¬ StartsWith (cfg.innerDelimiter · = true) r := by
      rintro ⟨b, l, rfl, hb⟩
      exact hr.space ⟨b, l, rfl, (hf.format.inner b).2 hb⟩
    unfold AfterDelims
    by_cases ha : cfg.allowSignDelimiter = true
    · rw [if_pos ha]
      exact ⟨gap, split_of (fun b hb => (hf.format.inner b).1 (h1 b hb)) hns⟩
    · rw [if_neg ha]
      rcases h2 with rfl | h2
      · rfl
      · exact absurd (hf.signGaps h2) ha
  cases h with
  | absent => exact .absent hr.ne hs
  | plus h1 h2 => exact .plus (hd h1 h2) hr.ne
  | minus h1 h2 => exact .minus (hd h1 h2) hr.ne

/-- what follows an amount -/
inductive Follow (cfg : Config) (f : Style) : Bytes → Bytes → Prop
  | done : Follow cfg f [] []
  | joint {joint rest : Bytes} : Joint f rest joint → Start cfg f rest → Follow cfg f (joint ++ rest) rest

theorem follow_stop {x rest : Bytes} (h : Follow cfg f x rest) : x = [] ∨ StartsWith (Stop f) x := by
  cases h with
  | done => exact Or.inl rfl
  | joint h hr => exact Or.inr (joint_stop h)

theorem stop_end {p : UInt8 → Prop} {x : Bytes} (hp : ∀ b, Stop f b → p b) (h : x = [] ∨ StartsWith (Stop f) x) :
    ¬ StartsWith (¬ p ·) x := by
  rcases h with rfl | ⟨b, l, rfl, hb⟩
  · exact not_startsWith_nil
  · rw [startsWith_cons]; exact fun h => h (hp b hb)

theorem start_inner (hf : StyleOk cfg units keywords numerals f) {r : Bytes} (h : ¬ StartsWith f.space r) :
    ¬ StartsWith (cfg.innerDelimiter · = true) r := by
  rintro ⟨b, l, rfl, hb⟩
  exact h ⟨b, l, rfl, (hf.format.inner b).2 hb⟩

theorem start_outer (hf : StyleOk cfg units keywords numerals f) {r : Bytes} (h : ¬ StartsWith f.space r) :
    ¬ StartsWith (cfg.outerDelimiter · = true) r := by
  rintro ⟨b, l, rfl, hb⟩
  exact h ⟨b, l, rfl, (hf.format.outer b).2 hb⟩

/-- a conjunction is not `ago` -/
theorem word_not_ago (hf : StyleOk cfg units keywords numerals f) (ha : f.ago) {w x gap rest : Bytes} (hw : w ∈ f.words) (hx : SameText x w)
    (hg : f.Gap gap) (hn : gap ≠ [] ∨ StartsNumber rest) : ¬ ∃ r, AgoText cfg (x ++ (gap ++ rest)) r := by
  rintro ⟨r, h1, h2⟩
  obtain ⟨hne, hl⟩ := word_letters hf hw hx
  obtain ⟨x1, x2, rfl, k1, k2⟩ := match_cases (stop_nonletter hf) hl (Or.inr (gap_stop hg hn)) (ago_no_stop hf) h1
  cases x2 with
  | nil =>
    rw [List.append_nil] at hx
    exact hf.conjunctions.notAgo ha w hw (sameText_trans (sameText_symm hx) k1)
  | cons b x2 =>
    subst k2
    rcases h2 with h2 | ⟨c, l, h2, h3⟩
    · cases h2
    · cases h2
      exact hl b (by simp) ((stop_keywordEnd hf).2 h3)

/-- there is no `ago` after the amount -/
theorem follow_ago (hf : StyleOk cfg units keywords numerals f) {x rest : Bytes} (h : Follow cfg f x rest)
    (m : Multiplier) : AgoPart cfg x m m x := by
  by_cases ha : cfg.allowAgo = true
  swap
  · exact .absent fun h => absurd h ha
  cases h with
  | done => exact .absent fun _ => not_startsWith_nil
  | joint h hr =>
    cases h with
    | gap h1 h2 =>
      rename_i gap
      by_cases hg : gap = []
      · subst hg
        obtain ⟨b, l, rfl, hb⟩ := h2.resolve_left (by simp)
        exact .absent fun _ => start_inner hf (start_next hf hb).space
      · refine .other ha (split_of (fun c hc => (hf.format.inner c).1 (h1 c hc)) (start_inner hf hr.space)) hg hr.ne ?_
        exact hr.ago (hf.ago.2 ha)
    | word h1 h2 h3 h4 h5 h6 =>
      rename_i gap w x gap'
      obtain ⟨hne, hl⟩ := word_letters hf h3 h4
      rw [List.append_assoc, List.append_assoc]
      refine .other ha (split_of (fun c hc => (hf.format.inner c).1 (h1 c hc)) ?_) h2 ?_
        (word_not_ago hf (hf.ago.2 ha) h3 h4 h5 h6)
      · refine start_inner hf ?_
        cases x with
        | nil => exact absurd rfl hne
        | cons b x => rw [List.cons_append, startsWith_cons]; exact fun h => hl b (by simp) (Or.inl h)
      · cases x with
        | nil => exact absurd rfl hne
        | cons b x => simp

/-- the connection to the next phrase -/
theorem follow_connection (hf : StyleOk cfg units keywords numerals f) {x rest : Bytes} (h : Follow cfg f x rest) :
    Connection cfg x rest := by
  cases h with
  | done => exact .absent not_startsWith_nil
  | joint h hr =>
    cases h with
    | gap h1 h2 =>
      rename_i gap
      by_cases hg : gap = []
      · subst hg
        exact .absent (start_outer hf hr.space)
      · refine .delims (split_of (fun c hc => (hf.format.outer c).1 (h1 c hc)) (start_outer hf hr.space)) hg hr.ne ?_
        rw [← hf.words]
        exact hr.words
    | word h1 h2 h3 h4 h5 h6 =>
      rename_i gap w x gap'
      obtain ⟨hne, hl⟩ := word_letters hf h3 h4
      rw [List.append_assoc, List.append_assoc]
      have hw : ∃ r, AfterWord w (x ++ (gap' ++ rest)) r := ⟨gap' ++ rest, x, rfl, h4⟩
      obtain ⟨before, v, after, k1, k2, r, k3⟩ := first_split (P := fun w => ∃ r, AfterWord w (x ++ (gap' ++ rest)) r) h3 hw
      have hv : v ∈ f.words := by rw [k1]; simp
      have hvl := (word_letters hf hv (rfl : SameText v v)).2
      obtain ⟨x1, x2, e, k4, k5⟩ := match_cases (stop_nonletter hf) hl (Or.inr (gap_stop h5 h6)) hvl k3
      have hx2 : x2 = [] := by
        -- `v` is the start of `w`
        have hlen := sameText_length h4
        have : SameText v (w.take x1.length) := by
          have e1 : SameText (x.take x1.length) (w.take x1.length) := by
            unfold SameText at h4 ⊢
            rw [List.map_take, List.map_take, h4]
          rw [e, List.take_left'] at e1
          · exact sameText_trans (sameText_symm k4) e1
          · rfl
        have := hf.conjunctions.distinct v hv w h3 _ _ (List.take_append_drop x1.length w).symm this
        have hd := congrArg List.length this
        rw [List.length_drop, ← hlen, e, List.length_append] at hd
        refine List.eq_nil_of_length_eq_zero ?_
        simpa using hd
      subst hx2
      rw [List.nil_append] at k5
      subst k5
      refine .conjunction (split_of (fun c hc => (hf.format.outer c).1 (h1 c hc)) ?_) h2 (by rw [← hf.words]; exact k1) k2 k3
        (split_of (fun c hc => (hf.format.outer c).1 (h5 c hc)) (start_outer hf hr.space)) hr.ne ?_
      · refine start_outer hf ?_
        cases x with
        | nil => exact absurd rfl hne
        | cons b x => rw [List.cons_append, startsWith_cons]; exact fun h => hl b (by simp) (Or.inl h)
      · intro hg
        obtain ⟨b, l, h, hb⟩ := h6.resolve_left (by simp [hg])
        exact ⟨b, l, h, hb⟩

/-- the multiplier with or without `ago` -/
def agoMultiplier (ago : Bool) (m : Multiplier) : Multiplier := if ago then negated m else m

theorem length_coefficient {u : TimeUnit} {m : Multiplier} {len : Nat} (h : Length (product u.multiplier m) len) :
    m.coefficient ≠ -2 ^ 63 := by
  intro hc
  have h1 := h.1
  unfold product at h1
  simp only [hc] at h1
  revert h1
  cases u <;> decide

theorem ago_exponent (u : TimeUnit) (ago : Bool) (m : Multiplier) :
    (product u.multiplier (agoMultiplier ago m)).exponent = (product u.multiplier m).exponent := by
  cases ago <;> rfl

theorem ago_fits {u : TimeUnit} {m : Multiplier} {len : Nat} (h : Length (product u.multiplier m) len) (hf : Fits u.multiplier m)
    (ago : Bool) : Fits u.multiplier (agoMultiplier ago m) := by
  cases ago with
  | false => exact hf
  | true => exact fits_negated hf (length_coefficient h)

theorem signed_value {u : TimeUnit} {m : Multiplier} {len : Nat} (h : Length (product u.multiplier m) len) {neg ago : Bool}
    {W F : Bytes} (hF : F.length ≤ 18) {d : Duration} (hd : Value neg W F 0 (product u.multiplier (agoMultiplier ago m)) d) :
    nanos d = (if neg ^^ ago then -1 else 1) * min maxNanos ⌊literalValue W F 0 * len⌋ ∧
      ((neg ^^ ago) = false → d.isNegative = false) := by
  cases ago with
  | false =>
    refine ⟨by rw [length_value h hF hd]; simp, ?_⟩
    intro hn
    rw [Bool.xor_false] at hn
    subst hn
    exact length_negative h hd
  | true =>
    replace hd : Value neg W F 0 (product u.multiplier (negated m)) d := hd
    rw [product_negated _ _ (length_coefficient h)] at hd
    obtain ⟨d0, hd0⟩ := value_exists neg W F 0 (product u.multiplier m)
    refine ⟨?_, ?_⟩
    · rw [value_negated hd0 hd, length_value h hF hd0]
      cases neg <;> simp
    · intro hn
      have : neg = true := by cases neg <;> simp_all
      subst this
      cases hs : d.isNegative with
      | false => rfl
      | true =>
        have := (hd.2.2.1 hs).2.2
        unfold literalSign at this
        have hp := h.1
        simp only [if_true] at this
        rw [if_pos (by show -(product u.multiplier m).coefficient < 0; omega)] at this
        revert this
        decide

/-- the item with its sign is the amount `y`, negative if `b` -/
def ItemIsSigned (cfg : Config) (i : Bool × Item) (p : Bool × Int) : Prop :=
  ∃ d, Denotes cfg i.1 i.2 d ∧ nanos d = (if p.1 then -1 else 1) * min maxNanos p.2 ∧ 0 ≤ p.2 ∧
    (p.1 = false → d.isNegative = false)

/-- an amount without `ago` in front of `X`, where `X` ends a unit and may contain `ago` -/
theorem span_item_signed {g : SpanFormat} (hf : FormatOk cfg units keywords g) {t X rest : Bytes} {y : Int} (neg ago : Bool)
    (ht : SpanText g t y) (hK : ¬ StartsWith (¬ KeywordEnd cfg ·) X)
    (hX : ∀ id len u m, g.ids id len → units.get id = some (u, m) → UnitMulti cfg units (id ++ X) (u, agoMultiplier ago m) rest) :
    ∃ item, MultiText cfg units keywords numerals (t ++ X) item rest ∧ ItemIsSigned cfg (neg, item) (neg ^^ ago, y) := by
  cases ht with
  | number h1 h2 h3 h4 h5 =>
    rename_i W gap id len
    obtain ⟨u, m, k1, k2, k3⟩ := hf.ids _ _ h5
    obtain ⟨b, r, e, g1, g2, g3, g4⟩ := gap_id hf (x := X) h3 h5
    have e' : W ++ (gap ++ id) ++ X = W ++ (gap ++ (id ++ X)) := by simp
    rw [e']
    refine ⟨.number W [] 0 (some (u, agoMultiplier ago m)), .numberUnit (r := gap ++ (id ++ X)) ?_ (after_gap hf h3 h4 h5)
      hf.nonempty (hX _ _ _ _ h5 k1), ?_⟩
    · rw [e]
      refine ⟨b :: r, b :: r, split_of h1 ?_, .absent h2 ?_, .absent ?_⟩ <;> rw [startsWith_cons]
      · exact fun h => g1 (Or.inl h)
      · exact g2
      · rintro (h | h) <;> contradiction
    · obtain ⟨d, hd⟩ := value_exists neg W [] 0 (product u.multiplier (agoMultiplier ago m))
      obtain ⟨q1, q2⟩ := signed_value k3 (by simp) hd
      refine ⟨d, .numberUnit (ago_fits k3 k2 ago) hd, ?_, by positivity, q2⟩
      rw [q1]
      have e : literalValue W [] 0 * (len : ℚ) = ((decimal W * len : ℤ) : ℚ) := by
        unfold literalValue; simp [decimal]
      rw [e, Int.floor_intCast]
  | fraction h1 h2 h3 h3' hfr h3'' h4 h5 =>
    rename_i W F gap id len
    obtain ⟨u, m, k1, k2, k3⟩ := hf.ids _ _ h5
    obtain ⟨b, r, e, g1, g2, g3, g4⟩ := gap_id hf (x := X) h3'' h5
    have e' : W ++ (46 :: (F ++ (gap ++ id))) ++ X = W ++ (46 :: (F ++ (gap ++ (id ++ X)))) := by simp
    rw [e']
    refine ⟨.number W F 0 (some (u, agoMultiplier ago m)), .numberUnit (r := gap ++ (id ++ X)) ?_ (after_gap hf h3'' h4 h5)
      hf.nonempty (hX _ _ _ _ h5 k1), ?_⟩
    · rw [e]
      refine ⟨46 :: (F ++ b :: r), b :: r, split_of h1 ?_, .present (hf.fraction hfr) (split_of h3 ?_) (Or.inl h2), .absent ?_⟩ <;>
        rw [startsWith_cons]
      · decide
      · exact fun h => g1 (Or.inl h)
      · rintro (h | h) <;> contradiction
    · obtain ⟨d, hd⟩ := value_exists neg W F 0 (product u.multiplier (agoMultiplier ago m))
      obtain ⟨q1, q2⟩ := signed_value k3 h3' hd
      refine ⟨d, .numberUnit (ago_fits k3 k2 ago) hd, ?_, Int.floor_nonneg.2 (by positivity), q2⟩
      rw [q1]
      have e : literalValue W F 0 = (decimal W : ℚ) + (decimal F : ℚ) / 10 ^ F.length := by
        unfold literalValue; simp
      rw [e]
  | unit h1 h2 =>
    rename_i len
    obtain ⟨u, m, k1, k2, k3⟩ := hf.ids _ _ h2
    obtain ⟨g1, g2, g3⟩ := hf.idText _ _ h2
    refine ⟨.word (u, agoMultiplier ago m), .unit ?_ ?_ (hf.bare h1) (hX _ _ _ _ h2 k1), ?_⟩
    · cases t with
      | nil => exact absurd rfl g1
      | cons b l =>
        obtain ⟨q1, -, -, q4, -⟩ := g3 b rfl
        refine ⟨by simp, ?_, ?_, ?_⟩
        · rw [List.cons_append, startsWith_cons]
          exact fun h => (g2 b (by simp)).2 (Or.inl h)
        · rw [List.cons_append, startsWith_cons]
          exact q1
        · rintro - ⟨r, y, hy, hy2⟩
          cases y with
          | nil => cases hy2
          | cons c y =>
            rw [List.cons_append, List.cons_append] at hy
            injection hy with hcb
            subst hcb
            exact q4 ((sameText_cons.1 hy2).1.trans (by decide))
    · rintro k hk ⟨v, r, w, hw1, hw2, hw3⟩
      have : Split (¬ KeywordEnd cfg ·) (t ++ X) t X := by
        refine split_of ?_ hK
        intro b hb
        obtain ⟨k1, k2⟩ := g2 b hb
        rintro (h | h)
        · exact k1 ((hf.outer b).2 h)
        · exact k2 h
      have : w = t := (split_unique hw1 this).1
      subst this
      rw [hf.keywords h1 k hk _ _ h2] at hw3
      cases hw3
    · obtain ⟨d, hd⟩ := value_exists neg (b! "1") [] 0 (product u.multiplier (agoMultiplier ago m))
      obtain ⟨q1, q2⟩ := signed_value k3 (by simp) hd
      refine ⟨d, .word (ago_fits k3 k2 ago) ?_, ?_, by positivity, q2⟩
      · have : decide ((product u.multiplier (agoMultiplier ago m)).exponent ≤ 19) = true := by
          rw [ago_exponent]; exact decide_eq_true k3.2.2.2.1
        rw [this, Bool.and_true]
        exact hd
      · rw [q1]
        have e : literalValue (b! "1") [] 0 * (len : ℚ) = ((len : ℤ) : ℚ) := by
          unfold literalValue; simp [decimal]
        rw [e, Int.floor_intCast]

theorem id_split (hf : StyleOk cfg units keywords numerals f) {id X : Bytes} {len : Nat} (h : f.ids id len)
    (hX : X = [] ∨ StartsWith (Stop f) X) : Split (¬ UnitEnd cfg ·) (id ++ X) id X := by
  refine split_of ?_ (stop_end (fun b h => (stop_unitEnd hf).1 h) hX)
  intro b hb h'
  have := (hf.format.idText id len h).2.1 b hb
  exact ((stop_unitEnd hf).2 h').elim this.1 this.2

/-- the value of a keyword or of a numeral with a unit; `b` says if it is negative -/
theorem word_value {p : Multiplier} {x : Int} (h : WordLength p x) {neg b : Bool} (h1 : b = true → x ≤ 0) (h2 : b = false → 0 ≤ x)
    {d : Duration} (hd : Value neg (b! "1") [] 0 p d) :
    nanos d = (if neg ^^ b then -1 else 1) * min maxNanos |x| ∧ ((neg ^^ b) = false → d.isNegative = false) := by
  obtain ⟨he, -, hx⟩ := h
  have hpos : (0 : ℚ) < 10 ^ p.exponent * 10 ^ 9 := mul_pos (zpow_pos (by norm_num) _) (by norm_num)
  rw [mul_assoc] at hx
  have hs : (p.coefficient < 0 → x < 0) ∧ (0 < p.coefficient → 0 < x) ∧ (p.coefficient = 0 → x = 0) := by
    refine ⟨fun h => ?_, fun h => ?_, fun h => ?_⟩
    · have : (x : ℚ) < 0 := by rw [← hx]; exact mul_neg_of_neg_of_pos (by exact_mod_cast h) hpos
      exact_mod_cast this
    · have : (0 : ℚ) < x := by rw [← hx]; exact mul_pos (by exact_mod_cast h) hpos
      exact_mod_cast this
    · have : (x : ℚ) = 0 := by rw [← hx, h]; simp
      exact_mod_cast this
  have hn := (value_one hd he).2
  have ha : ⌊(|p.coefficient| : ℚ) * 10 ^ p.exponent * 10 ^ 9⌋ = |x| := by
    have : (|p.coefficient| : ℚ) * 10 ^ p.exponent * 10 ^ 9 = ((|x| : ℤ) : ℚ) := by
      rw [Int.cast_abs, ← hx, abs_mul, abs_of_pos hpos, mul_assoc]
    rw [this, Int.floor_intCast]
  rw [ha] at hn
  have hM : min maxNanos 0 = 0 := by decide
  rcases lt_trichotomy p.coefficient 0 with hc | hc | hc
  · have hb : b = true := by
      cases b with
      | true => rfl
      | false => have := h2 rfl; have := hs.1 hc; omega
    subst hb
    refine ⟨?_, fun hneg => ?_⟩
    · rw [hn]; congr 1; unfold literalSign; rw [if_pos hc]; cases neg <;> rfl
    · cases hd' : d.isNegative with
      | false => rfl
      | true =>
        have := (hd.2.2.1 hd').2.2
        unfold literalSign at this
        rw [if_pos hc] at this
        cases neg
        · cases hneg
        · simp at this
  · have hx0 := hs.2.2 hc
    subst hx0
    refine ⟨?_, fun _ => ?_⟩
    · rw [hn, abs_zero, hM]; simp
    · cases hd' : d.isNegative with
      | false => rfl
      | true => exact absurd hc (hd.2.2.1 hd').2.1
  · have hb : b = false := by
      cases b with
      | false => rfl
      | true => have := h1 rfl; have := hs.2.1 hc; omega
    subst hb
    refine ⟨?_, fun hneg => ?_⟩
    · rw [hn]; congr 1; unfold literalSign; rw [if_neg (show ¬ p.coefficient < 0 by omega)]; cases neg <;> rfl
    · cases hd' : d.isNegative with
      | false => rfl
      | true =>
        have := (hd.2.2.1 hd').2.2
        unfold literalSign at this
        rw [if_neg (show ¬ p.coefficient < 0 by omega)] at this
        cases neg
        · simp at this
        · cases hneg

/-- a word can stand at the start of a duration -/
theorem phrase_wordStart (hf : StyleOk cfg units keywords numerals f) {w X : Bytes} (h : PhraseWord f w)
    (hX : X = [] ∨ StartsWith (Stop f) X) : WordStart cfg (w ++ X) := by
  have hl' : ∀ b ∈ w, ¬ Stop f b := fun b hb h' => h'.elim (h.letters b hb).1 (h.letters b hb).2
  have hinf : ∀ b ∈ b! "inf", ¬ Stop f b := by
    intro b hb hs
    have : ∀ b ∈ b! "inf", IsLetter b := by unfold IsLetter; decide
    exact stop_nonletter hf b hs (this b hb)
  refine ⟨by simp [h.ne], ?_, ?_, ?_⟩
  · obtain ⟨g1, g2, -, -⟩ := h
    cases w with
    | nil => exact absurd rfl g1
    | cons b w => rw [List.cons_append, startsWith_cons]; exact fun hd => (g2 b (by simp)).2 (Or.inl hd)
  · obtain ⟨g1, -, g3, -⟩ := h
    cases w with
    | nil => exact absurd rfl g1
    | cons b w => rw [List.cons_append, startsWith_cons]; exact fun hd => g3 ⟨b, w, rfl, hd⟩
  · rintro hi ⟨r, hr⟩
    obtain ⟨x1, x2, e, k1, -⟩ := match_cases (stop_nonletter hf) hl' hX hinf hr
    exact h.inf (hf.infinite.2 hi) ⟨x2, x1, e, k1⟩

theorem phrase_split (hf : StyleOk cfg units keywords numerals f) {w X : Bytes} (h : PhraseWord f w)
    (hX : X = [] ∨ StartsWith (Stop f) X) :
    Split (¬ KeywordEnd cfg ·) (w ++ X) w X ∧ Split (¬ UnitEnd cfg ·) (w ++ X) w X := by
  have hl' : ∀ b ∈ w, ¬ Stop f b := fun b hb h' => h'.elim (h.letters b hb).1 (h.letters b hb).2
  exact ⟨split_of (fun b hb h' => hl' b hb ((stop_keywordEnd hf).2 h')) (stop_end (fun b h => (stop_keywordEnd hf).1 h) hX),
    split_of (fun b hb h' => hl' b hb ((stop_unitEnd hf).2 h')) (stop_end (fun b h => (stop_unitEnd hf).1 h) hX)⟩

/-- a keyword and what follows it -/
theorem keyword_item (hf : StyleOk cfg units keywords numerals f) {w X rest : Bytes} {x : Int} (neg : Bool)
    (hw : f.keywords w x) (h : Follow cfg f X rest) :
    ∃ item, MultiText cfg units keywords numerals (w ++ X) item rest ∧ ItemIsSigned cfg (neg, item) (neg ^^ decide (x < 0), |x|) := by
  obtain ⟨k, K, u, m, e, hk, hfit, hlen⟩ := hf.keyword w x hw
  obtain ⟨d, hd⟩ := value_exists neg (b! "1") [] 0 (product u.multiplier m)
  obtain ⟨q1, q2⟩ := word_value (b := decide (x < 0)) hlen (by simp; omega) (by simp) hd
  refine ⟨.word (u, m), .keyword (phrase_wordStart hf k (follow_stop h)) e
    ⟨w, (phrase_split hf k (follow_stop h)).1, k.ne, hk⟩ (follow_connection hf h), d, .word hfit ?_, q1, abs_nonneg _, q2⟩
  rw [decide_eq_true hlen.2.1, Bool.and_true]
  exact hd

/-- the unit of a numeral, with or without `ago` -/
theorem numeral_item (hf : StyleOk cfg units keywords numerals f) {w gap id X rest : Bytes} {q : Int} {len : Nat} (neg ago : Bool)
    (hw : f.numerals w q) (hg : f.Gap gap) (hne : gap ≠ []) (hid : f.ids id len)
    (hX : ∀ u m, units.get id = some (u, m) → UnitMulti cfg units (id ++ X) (u, agoMultiplier ago m) rest) :
    ∃ item, MultiText cfg units keywords numerals (w ++ (gap ++ (id ++ X))) item rest ∧
      ItemIsSigned cfg (neg, item) (neg ^^ (ago ^^ decide (q < 0)), |q| * len) := by
  obtain ⟨k, hk, hu, n, en, hn⟩ := hf.numeral w q hw
  obtain ⟨u, m, g1, g2, g3⟩ := hf.format.ids _ _ hid
  obtain ⟨p1, p2, p3⟩ := hf.products w q hw id len hid u m g1
  obtain ⟨i1, i2, -⟩ := hf.format.idText _ _ hid
  have hstop : StartsWith (Stop f) (gap ++ (id ++ X)) := gap_stop hg (Or.inl hne)
  have hidX : ¬ StartsWith f.space (id ++ X) ∧ id ++ X ≠ [] := by
    cases id with
    | nil => exact absurd rfl i1
    | cons b l => exact ⟨by rw [List.cons_append, startsWith_cons]; exact (i2 b (by simp)).1, by simp⟩
  have hlenQ : WordLength (product (product ⟨q, 0⟩ u.multiplier) (agoMultiplier ago m)) (if ago then -(q * len) else q * len) := by
    have hc := length_coefficient g3
    obtain ⟨l1, l2, l3, l4, l5⟩ := g3
    unfold product at l1 l2 l3 l4 l5
    simp only at l1 l2 l3 l4 l5
    have e1 : (product (product ⟨q, 0⟩ u.multiplier) (agoMultiplier ago m)).exponent = u.multiplier.exponent + m.exponent := by
      cases ago <;> simp [product, agoMultiplier, negated]
    refine ⟨by rw [e1]; exact l3, by rw [e1]; exact l4, ?_⟩
    rw [e1]
    have e2 : (product (product ⟨q, 0⟩ u.multiplier) (agoMultiplier ago m)).coefficient =
        (if ago then -(q * (u.multiplier.coefficient * m.coefficient)) else q * (u.multiplier.coefficient * m.coefficient)) := by
      cases ago
      · simp [product, agoMultiplier, mul_assoc]
      · simp only [product, agoMultiplier, if_true, negated, if_neg hc]
        ring
    rw [e2]
    have l5' : ((u.multiplier.coefficient * m.coefficient : ℤ) : ℚ) * 10 ^ (u.multiplier.exponent + m.exponent) * 10 ^ 9 = (len : ℚ) := by
      rw [← l5]; ring
    cases ago
    · simp only [Bool.false_eq_true, if_false]
      rw [Int.cast_mul, mul_assoc, mul_assoc, ← mul_assoc ((u.multiplier.coefficient * m.coefficient : ℤ) : ℚ), l5']
      push_cast; rfl
    · simp only [if_true]
      rw [Int.cast_neg, Int.cast_mul, neg_mul, neg_mul, mul_assoc, mul_assoc,
        ← mul_assoc ((u.multiplier.coefficient * m.coefficient : ℤ) : ℚ), l5']
      push_cast; rfl
  obtain ⟨d, hd⟩ := value_exists neg (b! "1") [] 0 (product (product ⟨q, 0⟩ u.multiplier) (agoMultiplier ago m))
  have hL : (0 : ℤ) ≤ len := Int.natCast_nonneg _
  have hq : (q < 0 → q * (len : ℤ) ≤ 0) ∧ (0 ≤ q → 0 ≤ q * (len : ℤ)) :=
    ⟨fun h => mul_nonpos_of_nonpos_of_nonneg (le_of_lt h) hL, fun h => mul_nonneg h hL⟩
  obtain ⟨q1, q2⟩ := word_value (b := ago ^^ decide (q < 0)) hlenQ
    (by
      by_cases h0 : q < 0
      · have := hq.1 h0
        cases ago <;> simp [h0] <;> omega
      · have := hq.2 (by omega)
        cases ago <;> simp [h0] <;> omega)
    (by
      by_cases h0 : q < 0
      · have := hq.1 h0
        cases ago <;> simp [h0] <;> omega
      · have := hq.2 (by omega)
        cases ago <;> simp [h0] <;> omega) hd
  have habs : |if ago then -(q * (len : ℤ)) else q * (len : ℤ)| = |q| * len := by
    cases ago
    · simp [abs_mul]
    · simp [abs_mul]
  rw [habs] at q1
  refine ⟨.numeral ⟨q, 0⟩ (u, agoMultiplier ago m), .numeral (w := w) (r1 := gap ++ (id ++ X)) (ds := gap) (r2 := id ++ X)
    (phrase_wordStart hf k (Or.inr hstop)) ?_ ?_ en ?_ k.ne hn
    (split_of (fun b hb => (hf.format.inner b).1 (hg b hb)) (start_inner hf hidX.1)) hidX.2 (hX u m g1), d, ?_, q1, by positivity, q2⟩
  · rintro K eK ⟨v, r, w', hw1, hw2, hw3⟩
    have : w' = w := (split_unique hw1 (phrase_split hf k (Or.inr hstop)).1).1
    subst this
    rw [hk K eK] at hw3
    cases hw3
  · rintro ho ⟨v, r, w', hw1, hw2, hw3⟩
    have : w' = w := (split_unique hw1 (phrase_split hf k (Or.inr hstop)).2).1
    subst this
    rw [hu ho] at hw3
    cases hw3
  · refine split_of (fun b hb h => (k.letters b hb).1 ((hf.format.inner b).2 h)) ?_
    cases gap with
    | nil => exact absurd rfl hne
    | cons b l =>
      rw [List.cons_append, startsWith_cons]
      exact fun h => h ((hf.format.inner b).1 (hg b (by simp)))
  · refine .numeral p1 (by cases ago; exact p2; exact p3) ?_
    have : decide ((product (product ⟨q, 0⟩ u.multiplier) (agoMultiplier ago m)).exponent ≤ 19) = true := decide_eq_true hlenQ.2.1
    rw [this, Bool.and_true]
    exact hd

theorem id_unit (hf : StyleOk cfg units keywords numerals f) {id X rest : Bytes} {len : Nat} (hid : f.ids id len) (h : Follow cfg f X rest)
    {u : TimeUnit} {m : Multiplier} (hu : units.get id = some (u, m)) : UnitMulti cfg units (id ++ X) (u, agoMultiplier false m) rest :=
  .mk ⟨id, id_split hf hid (follow_stop h), (hf.format.idText id len hid).1, hu⟩ (follow_ago hf h m) (follow_connection hf h)

theorem id_unit_ago (hf : StyleOk cfg units keywords numerals f) {id gap a X rest : Bytes} {len : Nat} (ha : f.ago) (hid : f.ids id len)
    (hg : f.Gap gap) (hgne : gap ≠ []) (hago : SameText a (b! "ago")) (h : Follow cfg f X rest)
    {u : TimeUnit} {m : Multiplier} (hu : units.get id = some (u, m)) :
    UnitMulti cfg units (id ++ (gap ++ (a ++ X))) (u, agoMultiplier true m) rest := by
  have hal : a ≠ [] ∧ ∀ b ∈ a, ¬ f.space b := by
    constructor
    · rintro rfl; cases hago
    · intro b hb hs
      have : ∀ w : Bytes, SameText a w → (∀ c ∈ w, IsLetter c) → IsLetter b := by
        intro w
        clear hago
        induction a generalizing w with
        | nil => cases hb
        | cons c a ih =>
          intro hw hl
          cases w with
          | nil => cases hw
          | cons e w =>
            obtain ⟨h1, h2⟩ := sameText_cons.1 hw
            rcases List.mem_cons.1 hb with rfl | hb
            · by_contra hnl
              have := lower_nonletter h1.symm hnl
              exact hnl (this ▸ hl e (by simp))
            · exact ih hb w h2 fun c hc => hl c (by simp [hc])
      exact hf.letters b hs (this _ hago (by unfold IsLetter; decide))
  have hns : ¬ StartsWith f.space (a ++ X) := by
    cases a with
    | nil => exact absurd rfl hal.1
    | cons b a => rw [List.cons_append, startsWith_cons]; exact hal.2 b (by simp)
  have hstop : StartsWith (Stop f) (gap ++ (a ++ X)) := gap_stop hg (Or.inl hgne)
  refine .mk ⟨id, id_split hf hid (Or.inr hstop), (hf.format.idText id len hid).1, hu⟩
    (.ago (hf.ago.1 ha) (split_of (fun b hb => (hf.format.inner b).1 (hg b hb)) (start_inner hf hns)) hgne
      ⟨⟨a, rfl, hago⟩, ?_⟩) (follow_connection hf h)
  rcases follow_stop h with h | ⟨b, l, h, hb⟩
  · exact Or.inl h
  · exact Or.inr ⟨b, l, h, (stop_keywordEnd hf).1 hb⟩

/-- an amount and what follows it -/
theorem amount_item (hf : StyleOk cfg units keywords numerals f) {t x rest : Bytes} {ago : Bool} {y : Int} (neg : Bool)
    (ht : Amount f t ago y) (h : Follow cfg f x rest) :
    ∃ item, MultiText cfg units keywords numerals (t ++ x) item rest ∧ ItemIsSigned cfg (neg, item) (neg ^^ ago, y) := by
  cases ht with
  | plain ht =>
    exact span_item_signed hf.format neg false ht (stop_end (fun b h => (stop_keywordEnd hf).1 h) (follow_stop h))
      fun id len u m hid hu => id_unit hf hid h hu
  | ago ha ht hg hgne hago =>
    rename_i t gap a
    have e : t ++ (gap ++ a) ++ x = t ++ (gap ++ (a ++ x)) := by simp
    rw [e]
    exact span_item_signed hf.format neg true ht
      (stop_end (fun b h => (stop_keywordEnd hf).1 h) (Or.inr (gap_stop hg (Or.inl hgne))))
      fun id len u m hid hu => id_unit_ago hf ha hid hg hgne hago h hu
  | keyword hw => exact keyword_item hf neg hw h
  | numeral hw hg hne hid =>
    rename_i w gap id q len
    have e : w ++ (gap ++ id) ++ x = w ++ (gap ++ (id ++ x)) := by simp
    rw [e]
    have := numeral_item hf neg false hw hg hne hid fun u m hu => id_unit hf hid h hu
    rwa [Bool.false_xor] at this
  | numeralAgo ha hw hg hne hid hg' hne' hago =>
    rename_i w gap id gap' a q len
    have e : w ++ (gap ++ (id ++ (gap' ++ a))) ++ x = w ++ (gap ++ (id ++ (gap' ++ (a ++ x)))) := by simp
    rw [e]
    have := numeral_item hf neg true hw hg hne hid fun u m hu => id_unit_ago hf ha hid hg' hne' hago h hu
    rwa [Bool.true_xor] at this

/-- infinity and what follows it -/
theorem infinity_item (hf : StyleOk cfg units keywords numerals f) {t X rest : Bytes} (neg : Bool) (hi : f.infinite)
    (ht : SameText t (b! "inf") ∨ SameText t (b! "infinity")) (hX : X = [] ∨ StartsWith f.space X) (h : Follow cfg f X rest) :
    ∃ item, MultiText cfg units keywords numerals (t ++ X) item rest ∧ ItemIsSigned cfg (neg, item) (neg, maxNanos) := by
  have hX' : X = [] ∨ StartsWith (cfg.outerDelimiter · = true) X := by
    rcases hX with h | ⟨b, l, e, hb⟩
    · exact Or.inl h
    · exact Or.inr ⟨b, l, e, (hf.format.outer b).1 hb⟩
  refine ⟨.infinity, ?_, if neg then Duration.MIN else Duration.MAX, .infinity ?_ ?_, ?_, (by show (0:Int) ≤ maxNanos; decide), ?_⟩
  · rcases ht with ht | ht
    · exact .inf (hf.infinite.1 hi) ⟨t, rfl, ht⟩ hX' (follow_connection hf h)
    · have hl := (infinity_letters (Or.inr ht)).2
      have hlen := sameText_length ht
      have e : t = t.take 3 ++ t.drop 3 := (List.take_append_drop 3 t).symm
      have h1 : SameText (t.take 3) (b! "inf") := by
        unfold SameText at ht ⊢
        rw [List.map_take, ht]; decide
      have h2 : SameText (t.drop 3) (b! "inity") := by
        unfold SameText at ht ⊢
        rw [List.map_drop, ht]; decide
      refine .infinity (r' := t.drop 3 ++ X) (r := X) (hf.infinite.1 hi) ⟨t.take 3, by rw [← List.append_assoc, ← e], h1⟩ ?_
        ⟨t.drop 3, rfl, h2⟩ hX' (follow_connection hf h)
      refine start_outer hf ?_
      cases ht' : t.drop 3 with
      | nil => rw [ht'] at h2; cases h2
      | cons b l =>
        rw [List.cons_append, startsWith_cons]
        have : b ∈ t := List.mem_of_mem_drop (i := 3) (by rw [ht']; simp)
        exact fun hs => hf.letters b hs (hl b this)
  · cases neg <;> decide
  · cases neg <;> decide
  · cases neg <;> decide
  · intro hn
    cases neg
    · rfl
    · cases hn

/-- a number without a unit -/
theorem plain_value (hf : StyleOk cfg units keywords numerals f) {t : Bytes} {y : Int} (neg : Bool) (h : PlainNumber f t y) :
    ∃ W F, ItemIsSigned cfg (neg, .number W F 0 none) (neg, y) ∧
      ∀ x, ¬ StartsWith IsDigit x → ¬ StartsWith (· = 46) x → ¬ StartsWith (fun b => b = 101 ∨ b = 69) x →
        NumberText cfg (t ++ x) W F 0 x := by
  have key : ∀ W F : Bytes, F.length ≤ 18 → ∀ y : Int, ⌊literalValue W F 0 * f.defaultLength⌋ = y → 0 ≤ y →
      ItemIsSigned cfg (neg, .number W F 0 none) (neg, y) := by
    intro W F hF y hy h0
    obtain ⟨d, hd⟩ := value_exists neg W F 0 cfg.defaultUnit.multiplier
    refine ⟨d, .number hd, ?_, h0, ?_⟩
    · rw [length_value hf.default hF hd, hy]
    · intro hn
      replace hn : neg = false := hn
      subst hn
      exact length_negative hf.default hd
  cases h with
  | whole h1 h2 =>
    refine ⟨t, [], key _ _ (by simp) _ ?_ (by positivity), ?_⟩
    · have e : literalValue t [] 0 * (f.defaultLength : ℚ) = ((decimal t * f.defaultLength : ℤ) : ℚ) := by
        unfold literalValue; simp [decimal]
      rw [e, Int.floor_intCast]
    · intro x g1 g2 g3
      exact ⟨x, x, split_of h1 g1, .absent h2 g2, .absent g3⟩
  | fraction h1 h2 h3 h4 hfr =>
    rename_i W F
    refine ⟨W, F, key _ _ h4 _ ?_ (Int.floor_nonneg.2 (by positivity)), ?_⟩
    · have e : literalValue W F 0 = (decimal W : ℚ) + (decimal F : ℚ) / 10 ^ F.length := by
        unfold literalValue; simp
      rw [e]
    · intro x g1 g2 g3
      rw [List.append_assoc, List.cons_append]
      refine ⟨46 :: (F ++ x), x, split_of h1 ?_, .present (hf.format.fraction hfr) (split_of h3 g1) (Or.inl h2), .absent g3⟩
      rw [startsWith_cons]; decide

theorem amount_head (hf : StyleOk cfg units keywords numerals f) {t r : Bytes} {ago : Bool} {x : Int} (h : Amount f t ago x) :
    ¬ StartsWith (fun b => b = 43 ∨ b = 45) (t ++ r) := by
  have hd : ∀ {W r : Bytes}, AllDigits W → W ≠ [] → ¬ StartsWith (fun b => b = 43 ∨ b = 45) (W ++ r) := by
    intro W r h1 h2
    cases W with
    | nil => exact absurd rfl h2
    | cons b l =>
      rw [List.cons_append, startsWith_cons]
      have := h1 b (by simp)
      rintro (rfl | rfl) <;> revert this <;> decide
  have key : ∀ {t r : Bytes} {x : Int}, SpanText f.toSpanFormat t x → ¬ StartsWith (fun b => b = 43 ∨ b = 45) (t ++ r) := by
    intro t r x h
    cases h with
    | number h1 h2 => rw [List.append_assoc]; exact hd h1 h2
    | fraction h1 h2 => rw [List.append_assoc]; exact hd h1 h2
    | unit _ h =>
      obtain ⟨g1, g2, -⟩ := hf.format.idText _ _ h
      cases t with
      | nil => exact absurd rfl g1
      | cons b l =>
        rw [List.cons_append, startsWith_cons]
        exact fun h => (g2 b (by simp)).2 (Or.inr h)
  have word : ∀ {w r : Bytes}, PhraseWord f w → ¬ StartsWith (fun b => b = 43 ∨ b = 45) (w ++ r) := by
    intro w r h
    obtain ⟨g1, g2, -⟩ := h
    cases w with
    | nil => exact absurd rfl g1
    | cons b l =>
      rw [List.cons_append, startsWith_cons]
      exact fun h => (g2 b (by simp)).2 (Or.inr h)
  cases h with
  | plain h => exact key h
  | ago _ h => rw [List.append_assoc]; exact key h
  | keyword h => exact word (hf.keyword _ _ h).1
  | numeral h => rw [List.append_assoc]; exact word (hf.numeral _ _ h).1
  | numeralAgo _ h => rw [List.append_assoc]; exact word (hf.numeral _ _ h).1

theorem number_head {t r : Bytes} {x : Int} (h : PlainNumber f t x) : ¬ StartsWith (fun b => b = 43 ∨ b = 45) (t ++ r) := by
  have hd : ∀ {W r : Bytes}, AllDigits W → W ≠ [] → ¬ StartsWith (fun b => b = 43 ∨ b = 45) (W ++ r) := by
    intro W r h1 h2
    cases W with
    | nil => exact absurd rfl h2
    | cons b l =>
      rw [List.cons_append, startsWith_cons]
      have := h1 b (by simp)
      rintro (rfl | rfl) <;> revert this <;> decide
  cases h with
  | whole h1 h2 => exact hd h1 h2
  | fraction h1 h2 => rw [List.append_assoc]; exact hd h1 h2

theorem infinity_head {t r : Bytes} (h : SameText t (b! "inf") ∨ SameText t (b! "infinity")) :
    ¬ StartsWith (fun b => b = 43 ∨ b = 45) (t ++ r) := by
  obtain ⟨h1, h2⟩ := infinity_letters h
  cases t with
  | nil => exact absurd rfl h1
  | cons b l =>
    rw [List.cons_append, startsWith_cons]
    intro hb
    exact nextDuration_nonletter (Or.inr hb) (h2 b (by simp))

theorem joint_space {joint rest : Bytes} (h : Joint f rest joint) (hne : joint ≠ []) : StartsWith f.space (joint ++ rest) := by
  have key : ∀ {gap r : Bytes}, f.Gap gap → gap ≠ [] → StartsWith f.space (gap ++ r) := by
    intro gap r h1 h2
    cases gap with
    | nil => exact absurd rfl h2
    | cons b l => exact ⟨b, l ++ r, rfl, h1 b (by simp)⟩
  cases h with
  | gap h1 _ => exact key h1 hne
  | word h1 h2 => rw [List.append_assoc]; exact key h1 h2

/-- a number without a unit in front of a number or sign -/
theorem plain_item (hf : StyleOk cfg units keywords numerals f) {t gap rest : Bytes} {y : Int} (neg : Bool) (h : PlainNumber f t y)
    (hg : f.Gap gap) (hn : gap ≠ [] ∨ ¬ StartsWith IsDigit rest) (hr : StartsNumber rest) (hs : Start cfg f rest) :
    ∃ item, MultiText cfg units keywords numerals (t ++ (gap ++ rest)) item rest ∧ ItemIsSigned cfg (neg, item) (neg, y) := by
  obtain ⟨W, F, h1, h2⟩ := plain_value hf neg h
  have hhead : ∃ b l, gap ++ rest = b :: l ∧ ¬ IsDigit b ∧ b ≠ 46 ∧ b ≠ 101 ∧ b ≠ 69 := by
    cases gap with
    | cons b l =>
      obtain ⟨k1, k2⟩ := hf.format.spaces b (hg b (by simp))
      exact ⟨b, l ++ rest, rfl, fun h => k1 (Or.inl h), k2⟩
    | nil =>
      obtain ⟨b, l, rfl, hb⟩ := hr
      have hnd : ¬ IsDigit b := fun h => hn.elim (fun h => h rfl) (fun h' => h' ⟨b, l, rfl, h⟩)
      refine ⟨b, l, rfl, hnd, ?_⟩
      rcases hb with hb | rfl | rfl
      · exact absurd hb hnd
      · decide
      · decide
  have hN : NumberText cfg (t ++ (gap ++ rest)) W F 0 (gap ++ rest) := by
    obtain ⟨b, l, e, k1, k2, k3, k4⟩ := hhead
    refine h2 _ ?_ ?_ ?_ <;> rw [e, startsWith_cons]
    · exact k1
    · exact k2
    · rintro (h | h) <;> contradiction
  have hnu : ∀ r', StartsWith (Stop f) r' → ¬ ∃ u r, WordIn (UnitEnd cfg) units r' u r := by
    rintro r' ⟨b, l, rfl, hb⟩ ⟨u, r, w, hw1, hw2, -⟩
    cases w with
    | nil => exact hw2 rfl
    | cons c w =>
      have hc := hw1.2.1 c (by simp)
      have e := hw1.1
      rw [List.cons_append] at e
      injection e with e
      subst e
      exact hc ((stop_unitEnd hf).1 hb)
  by_cases ha : cfg.allowTimeUnitDelimiter = true
  · refine ⟨_, .number (r' := rest) hN ?_ hs.ne (fun _ => hnu _ (startsNumber_stop hr)) (.absent (start_outer hf hs.space)), h1⟩
    unfold AfterDelims
    rw [if_pos ha]
    exact ⟨gap, split_of (fun b hb => (hf.format.inner b).1 (hg b hb)) (start_inner hf hs.space)⟩
  · refine ⟨_, .number (r' := gap ++ rest) hN ?_ ?_ (fun _ => hnu _ (gap_stop hg (Or.inr hr)))
      (follow_connection hf (.joint (.gap hg (Or.inr hr)) hs)), h1⟩
    · unfold AfterDelims
      rw [if_neg ha]
    · obtain ⟨b, l, e, -⟩ := hhead
      rw [e]; simp

/-- phrases are durations of the grammar with these amounts -/
theorem phrases_durations (hf : StyleOk cfg units keywords numerals f) {s : Bytes} {l : List (Bool × Int)} (h : Phrases f s l) :
    ∃ items, Durations cfg units keywords numerals s items ∧ List.Forall₂ (ItemIsSigned cfg) items l := by
  induction h with
  | last h1 h2 =>
    rename_i neg _ _
    obtain ⟨item, g1, g2⟩ := amount_item hf neg h2 .done
    have hs := phrase_sign hf h1 (amount_start (r := []) hf h2 (Or.inl rfl)) (amount_head hf h2)
    rw [List.append_nil] at g1 hs
    exact ⟨[(neg, item)], .last hs g1, .cons g2 .nil⟩
  | more h1 h2 h3 h4 ih =>
    rename_i neg _ _ _
    obtain ⟨items, k1, k2⟩ := ih
    have hst := phrases_start hf h4
    obtain ⟨item, g1, g2⟩ := amount_item hf neg h2 (.joint h3 hst)
    exact ⟨(neg, item) :: items, .more (phrase_sign hf h1 (amount_start hf h2 (Or.inr (joint_stop h3))) (amount_head hf h2)) g1 hst.ne k1, .cons g2 k2⟩
  | lastNumber h1 h2 =>
    rename_i neg _
    obtain ⟨W, F, g1, g2⟩ := plain_value hf neg h2
    have hs := phrase_sign hf h1 (number_start (r := []) hf h2) (number_head h2)
    have hN := g2 [] not_startsWith_nil not_startsWith_nil not_startsWith_nil
    rw [List.append_nil] at hs hN
    exact ⟨[(neg, _)], .last hs (.numberEnd hN), .cons g1 .nil⟩
  | moreNumber h1 h2 h3 h4 h5 h6 ih =>
    rename_i neg _ _
    obtain ⟨items, k1, k2⟩ := ih
    have hst := phrases_start hf h6
    obtain ⟨item, g1, g2⟩ := plain_item hf neg h2 h3 h4 h5 hst
    exact ⟨(neg, item) :: items, .more (phrase_sign hf h1 (number_start hf h2) (number_head h2)) g1 hst.ne k1, .cons g2 k2⟩
  | lastInfinity h1 h2 h3 =>
    rename_i neg
    obtain ⟨item, g1, g2⟩ := infinity_item (X := []) hf neg h2 h3 (Or.inl rfl) .done
    have hs := phrase_sign hf h1 (infinity_start (r := []) hf h2 h3 (Or.inl rfl)) (infinity_head h3)
    rw [List.append_nil] at g1 hs
    exact ⟨[(neg, item)], .last hs g1, .cons g2 .nil⟩
  | moreInfinity h1 h2 h3 h4 h5 h6 ih =>
    rename_i neg _
    obtain ⟨items, k1, k2⟩ := ih
    have hst := phrases_start hf h6
    have hX : StartsWith f.space (_ ++ _) := joint_space h5 h4
    obtain ⟨item, g1, g2⟩ := infinity_item hf neg h2 h3 (Or.inr hX) (.joint h5 hst)
    exact ⟨(neg, item) :: items, .more (phrase_sign hf h1 (infinity_start hf h2 h3 (Or.inr (joint_stop h5))) (infinity_head h3)) g1
      hst.ne k1, .cons g2 k2⟩

/-- the durations of the phrases -/
theorem phrases_values {items : List (Bool × Item)} {l : List (Bool × Int)} (h : List.Forall₂ (ItemIsSigned cfg) items l)
    (ha : cfg.allowNegative = true ∨ ∀ p ∈ l, p.1 = false) :
    ∃ ds, List.Forall₂ (fun i d => Accepted cfg i.1 i.2 d) items ds ∧
      ds.map nanos = l.map fun p => clamp (signedAmount p) := by
  induction h with
  | nil => exact ⟨[], .nil, rfl⟩
  | cons h1 _ ih =>
    rename_i i p items l _
    obtain ⟨ds, k1, k2⟩ := ih (ha.imp_right fun h q hq => h q (by simp [hq]))
    obtain ⟨d, g1, g2, g3, g4⟩ := h1
    refine ⟨d :: ds, .cons ⟨g1, ha.imp_right fun h => g4 (h p (by simp))⟩ k1, ?_⟩
    rw [List.map_cons, List.map_cons, k2, g2]
    congr 1
    have hM : (0 : Int) < maxNanos := by decide
    unfold signedAmount clamp
    cases p.1 <;> simp only [Bool.false_eq_true, if_false, if_true] <;> omega

end Fundu.Props
