import Verif.Proofs.MistakesBody
/-! # What is not in the grammar has a mistake -/
namespace Fundu
open Spec

variable {cfg : Config} {env : Env} {s : Bytes}

theorem skipDelims_none {d : Delimiter} (hh : L.headIs d s = true) (h : L.skipDelims d s = none) : OnlyDelims d s := by
  rw [onlyDelims_iff]
  refine ⟨hh, ?_⟩
  unfold L.skipDelims at h
  by_contra hc
  rw [if_neg hc] at h
  cases h

/-! ## Signs and numbers -/

theorem signRest_none {neg : Bool} {b : UInt8} (hb : SignByte b) (h : L.signRest cfg neg s = none) :
    ∃ f, SignMistake cfg (b :: s) f := by
  unfold L.signRest at h
  split at h
  · rename_i hs
    subst hs
    exact ⟨_, .noNumber hb⟩
  · split at h
    · rename_i ha
      rw [Bool.and_eq_true] at ha
      rw [Option.map_eq_none_iff] at h
      exact ⟨_, .delimiters hb ha.1 (skipDelims_none ha.2 h)⟩
    · cases h

theorem sign_none (hs : s ≠ []) (h : L.sign cfg s = none) : ∃ f, SignMistake cfg s f := by
  unfold L.sign at h
  cases s with
  | nil => exact absurd rfl hs
  | cons b l =>
    simp only at h
    split at h
    · rename_i hb
      exact signRest_none (Or.inl hb) h
    · split at h
      · rename_i hb
        exact signRest_none (Or.inr hb) h
      · cases h

theorem fract_none {W : Bytes} (h : L.fract cfg W s = none) : ∃ f, FractionMistake cfg W s f := by
  unfold L.fract at h
  cases s with
  | nil => cases h
  | cons b l =>
    simp only at h
    split at h
    · rename_i hb
      subst hb
      cases hd : cfg.disableFraction with
      | true => exact ⟨_, .disabled hd⟩
      | false =>
        rw [hd] at h
        simp only [Bool.false_eq_true, if_false] at h
        unfold L.fractDigits at h
        split at h
        · rename_i hh
          refine ⟨_, .noDigits hd hh.1 ?_⟩
          rw [not_startsWith_iff digit_iff]
          exact takeWhile_nil_iff.mp hh.2
        · cases h
    · cases h

theorem exp_none (h : L.exp cfg s = none) : ∃ f, ExponentMistake cfg s f := by
  unfold L.exp at h
  cases s with
  | nil => cases h
  | cons b l =>
    simp only at h
    split at h
    · rename_i hb
      have hx : ExponentLetter b := by simpa [ExponentLetter] using hb
      cases hd : cfg.disableExponent with
      | true => exact ⟨_, .disabled hx hd⟩
      | false =>
        rw [hd] at h
        simp only [Bool.false_eq_true, if_false] at h
        have hsg : ExponentSign l (L.expSign l).1 (L.expSign l).2 := (expSign_iff _).mpr rfl
        generalize (L.expSign l).1 = neg at hsg h
        generalize (L.expSign l).2 = r' at hsg h
        unfold L.expDigits at h
        split at h
        · rename_i hn
          have hnd : ¬ StartsWith IsDigit r' := by
            rw [not_startsWith_iff digit_iff]
            exact takeWhile_nil_iff.mp hn
          by_cases hr : r' = []
          · subst hr
            cases hsg with
            | absent _ => exact ⟨_, .endOfText hx hd⟩
            | plus => exact ⟨_, .onlySign hx hd (Or.inl rfl)⟩
            | minus => exact ⟨_, .onlySign hx hd (Or.inr rfl)⟩
          · exact ⟨_, .noDigit hx hd hsg hr hnd⟩
        · split at h
          · cases h
          · rename_i hn
            exact ⟨_, .overflow hx hd hsg ((splitDigit_iff ..).mpr ⟨rfl, rfl⟩) (by rw [← signed_eq]; exact hn)⟩
    · cases h

/-- the start of a number is a number or has a mistake -/
theorem number_total (h : numHead s) :
    (∃ W F e r, NumberText cfg s W F e r) ∨ ∃ f, NumberMistake cfg s f := by
  have hsp : Split IsDigit s (s.takeWhile isDigit) (s.dropWhile isDigit) := (splitDigit_iff ..).mpr ⟨rfl, rfl⟩
  cases hf : L.fract cfg (s.takeWhile isDigit) (s.dropWhile isDigit) with
  | none =>
    obtain ⟨f, hf⟩ := fract_none hf
    exact Or.inr ⟨f, .fraction hsp hf⟩
  | some o =>
    obtain ⟨F, r⟩ := o
    cases he : L.exp cfg r with
    | none =>
      obtain ⟨f, he⟩ := exp_none he
      refine Or.inr ⟨f, .exponent (F := F) hsp ((fract_iff ..).mpr ⟨?_, hf⟩) he⟩
      cases hd : L.headIs isDigit s with
      | true => exact Or.inl (takeWhile_ne_of_head hd)
      | false =>
        rw [dropWhile_of_head hd]
        exact Or.inr (h.resolve_left (by rw [hd]; simp))
    | some o =>
      obtain ⟨e, t⟩ := o
      exact Or.inl ⟨_, F, e, t, (numberText_iff ..).mpr ⟨h, rfl, r, hf, he⟩⟩

/-- what follows a number -/
theorem numDelim_none (h : L.numDelim cfg s = none) : cfg.allowTimeUnitDelimiter = true ∧ OnlyDelims cfg.innerDelimiter s := by
  unfold L.numDelim at h
  split at h
  · rename_i ha
    rw [Bool.and_eq_true] at ha
    exact ⟨ha.1, skipDelims_none ha.2 h⟩
  · cases h

/-! ## Connections and words -/

theorem afterConj_none {r w : Bytes} (h : L.afterConj cfg.outerDelimiter s = none) : ∃ f, ConjunctionMistake cfg r w s f := by
  unfold L.afterConj at h
  split at h
  · rename_i hs
    subst hs
    exact ⟨_, .endOfText⟩
  · rename_i hs
    split at h
    · rename_i hh
      exact ⟨_, .delimiters (skipDelims_none hh h)⟩
    · rename_i hh
      split at h
      · cases h
      · rename_i hn
        obtain ⟨b, l, rfl⟩ := List.exists_cons_of_ne_nil hs
        refine ⟨_, .notSeparated (by simpa [L.headIs] using hh) ?_⟩
        rw [nextDuration_iff]
        exact hn

theorem conj_none {d : Delimiter} {r : Bytes} {ws : List Bytes} (h : L.conj d r ws = none) :
    ∃ before w after, ws = before ++ w :: after ∧ (∀ v ∈ before, ¬ L.starts v r = true) ∧ L.starts w r = true ∧
        L.afterConj d (r.drop w.length) = none := by
  induction ws with
  | nil => cases h
  | cons w ws ih =>
    simp only [L.conj] at h
    split at h
    · rename_i hw
      exact ⟨[], w, ws, rfl, (fun v hv => by cases hv), hw, h⟩
    · rename_i hw
      obtain ⟨before, v, after, h1, h2, h3, h4⟩ := ih h
      refine ⟨w :: before, v, after, by rw [h1]; rfl, ?_, h3, h4⟩
      intro x hx
      rcases List.mem_cons.mp hx with rfl | hx
      · exact hw
      · exact h2 x hx

theorem conn_none (h : L.conn cfg s = none) : ∃ f, ConnectionMistake cfg s f := by
  unfold L.conn at h
  split at h
  · rename_i hh
    rw [Option.bind_eq_none_iff] at h
    cases hk : L.skipDelims cfg.outerDelimiter s with
    | none => exact ⟨_, .delimiters (skipDelims_none hh hk)⟩
    | some r =>
      obtain ⟨rfl, hr⟩ := (skipDelims_iff ..).mp hk
      obtain ⟨before, w, after, h1, h2, h3, h4⟩ := conj_none (h _ hk)
      obtain ⟨f, hf⟩ := afterConj_none (r := s.dropWhile cfg.outerDelimiter) (w := w) h4
      exact ⟨f, .conjunction ((splitDelim_iff ..).mpr ⟨rfl, rfl⟩) (takeWhile_ne_of_head hh) hr h1
        (fun v hv hs => h2 v hv ((exists_afterWord_iff v _).mp hs)) ((afterWord_iff ..).mpr ⟨h3, rfl⟩) hf⟩
  · cases h

theorem agoSingle_none {u : Unit'} {r : Bytes} (hr : r = [] ∨ L.headIs cfg.innerDelimiter r = true)
    (h : L.agoSingle cfg s u r = none) : OnlyDelims cfg.innerDelimiter r := by
  unfold L.agoSingle at h
  split at h
  · cases h
  · rename_i hne
    cases hk : L.skipDelims cfg.innerDelimiter r with
    | none => exact skipDelims_none (hr.resolve_left hne) hk
    | some t =>
      rw [hk, Option.bind_some] at h
      split at h <;> cases h

theorem afterWord_ends (d : Delimiter) (s : Bytes) : L.afterWord d s = [] ∨ L.headIs d (L.afterWord d s) = true := by
  unfold L.afterWord
  cases hd : s.dropWhile (fun b => !d b) with
  | nil => exact Or.inl rfl
  | cons b l =>
    have := headIs_dropWhile (fun b => !d b) s
    rw [hd] at this
    right
    simpa [L.headIs] using this

theorem unitSingle_total {units : TimeUnitsLike} (h : L.unitSingle cfg units s = none) :
    ∃ f, UnitSingleMistake cfg units s f := by
  unfold L.unitSingle at h
  split at h
  · rename_i ha
    split at h
    · cases h
    · rename_i hw
      cases hg : units.get (L.word cfg.innerDelimiter s) with
      | none => rw [hg] at h; cases h
      | some u =>
        rw [hg] at h
        exact ⟨_, .delimiters ha ((splitWord_iff ..).mpr ⟨rfl, rfl⟩) hw hg (agoSingle_none (afterWord_ends _ _) h)⟩
  · unfold L.lookup at h
    cases hg : units.get s <;> rw [hg] at h <;> cases h

theorem agoMultiple_none {u : Unit'} (h : L.agoMultiple cfg u s = none) :
    cfg.allowAgo = true ∧ OnlyDelims cfg.innerDelimiter s := by
  unfold L.agoMultiple at h
  split at h
  · rename_i ha
    rw [Bool.and_eq_true] at ha
    rw [Option.map_eq_none_iff] at h
    exact ⟨ha.1, skipDelims_none ha.2 h⟩
  · cases h

theorem unitMultiple_total {units : TimeUnitsLike} (h : L.unitMultiple cfg units s = none) :
    ∃ f, UnitMultiMistake cfg units s f := by
  unfold L.unitMultiple at h
  split at h
  · cases h
  · rename_i hw
    cases hg : units.get (L.word (unitEnd cfg) s) with
    | none => rw [hg] at h; cases h
    | some u =>
      obtain ⟨u, m⟩ := u
      rw [hg] at h
      have hwi : WordIn (UnitEnd cfg) units s (u, m) (L.afterWord (unitEnd cfg) s) :=
        (wordIn_iff unitEnd_iff ..).mpr ⟨hw, hg, rfl⟩
      simp only [L.unitFound, L.unitTail] at h
      cases ho : L.agoMultiple cfg (u, m) (L.afterWord (unitEnd cfg) s) with
      | none =>
        obtain ⟨h1, h2⟩ := agoMultiple_none ho
        exact ⟨_, .delimiters hwi h1 h2⟩
      | some o =>
        have hu := agoMultiple_unit ho
        obtain ⟨⟨u', m'⟩, r'⟩ := o
        simp only at hu
        subst hu
        rw [ho, Option.bind_some, Option.map_eq_none_iff] at h
        obtain ⟨f, hf⟩ := conn_none h
        exact ⟨f, .connection hwi ((agoMultiple_iff ..).mpr ho) hf⟩

theorem keywordMultiple_total {k : TimeUnitsLike} (h : L.keywordMultiple cfg k s = none) :
    ∃ u r f, WordIn (KeywordEnd cfg) k s u r ∧ ConnectionMistake cfg r f := by
  unfold L.keywordMultiple at h
  split at h
  · cases h
  · rename_i hw
    cases hg : k.get (L.word (wordEnd cfg) s) with
    | none => rw [hg] at h; cases h
    | some u =>
      rw [hg] at h
      simp only [L.unitFound, L.keywordTail, Option.map_eq_none_iff] at h
      obtain ⟨f, hf⟩ := conn_none h
      exact ⟨u, _, f, (wordIn_iff keywordEnd_iff ..).mpr ⟨hw, hg, rfl⟩, hf⟩

/-! ## Numerals -/

/-- a numeral is absent, or followed by delimiters only, or followed by more -/
theorem numeral_total (n : Option NumbersLike) (s : Bytes) :
    (¬ ∃ w r, NumeralIn cfg n s w r) ∨ (∃ w r, NumeralIn cfg n s w r ∧ OnlyDelims cfg.innerDelimiter r) ∨
      ∃ w r ds t q n', NumeralIn cfg n s w r ∧ Split (cfg.innerDelimiter · = true) r ds t ∧ t ≠ [] ∧
        n = some n' ∧ n' w = some q ∧ Split (¬ cfg.innerDelimiter · = true) s w r ∧ w ≠ [] := by
  by_cases h : ∃ w r, NumeralIn cfg n s w r
  · right
    obtain ⟨w, r, hn⟩ := h
    have hn' := hn
    obtain ⟨n', q, h1, h2, h3, h4, h5⟩ := hn'
    by_cases hd : r.dropWhile cfg.innerDelimiter = []
    · left
      refine ⟨w, r, hn, onlyDelims_iff.mpr ⟨?_, hd⟩⟩
      obtain ⟨-, rfl⟩ := (splitWord_iff ..).mp h2
      exact (afterWord_ends _ _).resolve_left h5
    · right
      exact ⟨w, r, _, _, q, n', hn, (splitDelim_iff ..).mpr ⟨rfl, rfl⟩, hd, h1, h4, h2, h3⟩
  · exact Or.inl h

/-! ## Infinity -/

/-- the text is the start of the word, or the word is the start of the text, or they differ -/
theorem word_total (s w : Bytes) :
    (∃ r, AfterWord w s r) ∨ (∃ y z, w = y ++ z ∧ SameText s y ∧ z ≠ []) ∨
      ∃ x y a z b t, s = x ++ b :: t ∧ w = y ++ a :: z ∧ SameText x y ∧ lower b ≠ lower a := by
  induction w generalizing s with
  | nil => exact Or.inl ⟨s, [], rfl, rfl⟩
  | cons a w ih =>
    cases s with
    | nil => exact Or.inr (Or.inl ⟨[], a :: w, rfl, rfl, by simp⟩)
    | cons b t =>
      by_cases hb : lower b = lower a
      · rcases ih t with ⟨r, x, rfl, hx⟩ | ⟨y, z, rfl, h2, h3⟩ | ⟨x, y, a', z, b', t', rfl, rfl, h3, h4⟩
        · refine Or.inl ⟨r, b :: x, rfl, ?_⟩
          unfold SameText at hx ⊢
          rw [List.map_cons, List.map_cons, hb, hx]
        · refine Or.inr (Or.inl ⟨a :: y, z, rfl, ?_, h3⟩)
          unfold SameText at h2 ⊢
          rw [List.map_cons, List.map_cons, hb, h2]
        · refine Or.inr (Or.inr ⟨b :: x, a :: y, a', z, b', t', rfl, rfl, ?_, h4⟩)
          unfold SameText at h3 ⊢
          rw [List.map_cons, List.map_cons, hb, h3]
      · exact Or.inr (Or.inr ⟨[], [], a, w, b, t, rfl, rfl, rfl, hb⟩)

theorem lower_inity' {y z : Bytes} {b : UInt8} (h : b! "inity" = y ++ b :: z) : lower b = b := by
  rw [lower_eq]; exact lower_inity h

theorem infinitySingle_total (h : L.afterInf .single cfg s = none) : ∃ f, InfinitySingleMistake s f := by
  unfold L.afterInf at h
  simp only at h
  split at h
  · cases h
  · rename_i hn
    simp only [not_or] at hn
    rcases word_total s (b! "inity") with ⟨r, hr⟩ | ⟨y, z, h1, h2, h3⟩ | ⟨x, y, a, z, b, t, rfl, h2, h3, h4⟩
    · refine ⟨_, .more hr ?_⟩
      rintro rfl
      obtain ⟨x, hx, hxs⟩ := hr
      rw [List.append_nil] at hx
      subst hx
      exact hn.2 ((sameText_iff ..).mp hxs)
    · exact ⟨_, .endOfText h1 h2 hn.1 h3⟩
    · exact ⟨_, .character h2 h3 (by rw [lower_inity' h2] at h4; exact h4)⟩

theorem infinityMulti_total {s' : Bytes} (h : L.afterInf .multiple cfg s = none) : ∃ f, InfinityMultiMistake cfg s' s f := by
  unfold L.afterInf at h
  simp only at h
  split at h
  · cases h
  · rename_i hs
    split at h
    · obtain ⟨f, hf⟩ := conn_none h
      exact ⟨f, .connection hf⟩
    · rename_i hh
      have hns : ¬ StartsWith (cfg.outerDelimiter · = true) s := by
        rw [startsWith_iff (delim_iff _)]; exact hh
      rcases word_total s (b! "inity") with ⟨r, hr⟩ | ⟨y, z, h1, h2, h3⟩ | ⟨x, y, a, z, b, t, hx, h2, h3, h4⟩
      · have hr' := hr
        rw [afterWord_iff] at hr'
        rw [if_pos hr'.1] at h
        have h5 : r = s.drop 5 := hr'.2
        rw [← h5] at h
        split at h
        · obtain ⟨f, hf⟩ := conn_none h
          exact ⟨f, .connection' hns hr hf⟩
        · rename_i hc
          simp only [not_or] at hc
          obtain ⟨b, t, rfl⟩ := List.exists_cons_of_ne_nil hc.1
          exact ⟨_, .noDelimiter hns hr (by simpa [L.headIs] using hc.2)⟩
      · exact ⟨_, .endOfText hns h1 h2 hs h3⟩
      · exact ⟨_, .character hns hx h2 h3 (by rw [lower_inity' h2] at h4; exact h4)⟩

/-! ## Whole durations -/

/-- three kinds of texts: words, numbers, infinities -/
theorem text_kinds (hs : s ≠ []) :
    numHead s ∨ (cfg.disableInfinity = false ∧ ∃ r, AfterWord (b! "inf") s r) ∨ WordStart cfg s := by
  by_cases hn : numHead s
  · exact Or.inl hn
  · right
    cases hi : (!cfg.disableInfinity && L.starts (b! "inf") s) with
    | true =>
      rw [Bool.and_eq_true] at hi
      exact Or.inl ⟨by simpa using hi.1, (exists_afterWord_iff ..).mpr hi.2⟩
    | false => exact Or.inr (wordStart_iff.mpr ⟨hs, hn, hi⟩)

theorem unitSingle_cases (units : TimeUnitsLike) (s : Bytes) :
    (∃ u, UnitSingle cfg units s u []) ∨ (∃ f, UnitSingleMistake cfg units s f) ∨ NoUnitSingle cfg units s := by
  cases h : L.unitSingle cfg units s with
  | none => exact Or.inr (Or.inl (unitSingle_total h))
  | some o =>
    obtain ⟨u, x⟩ := o
    cases u with
    | none =>
      have := unitSingle_none_rest h
      subst this
      exact Or.inr (Or.inr (noUnitSingle_iff.mpr h))
    | some u =>
      have hu := (unitSingle_iff ..).mpr h
      by_cases hx : x = []
      · subst hx; exact Or.inl ⟨u, hu⟩
      · exact Or.inr (Or.inl ⟨_, .more hu hx⟩)

theorem unitMulti_cases (units : TimeUnitsLike) (s : Bytes) :
    (∃ u r, UnitMulti cfg units s u r) ∨ (∃ f, UnitMultiMistake cfg units s f) ∨ NoUnitMulti cfg units s := by
  cases h : L.unitMultiple cfg units s with
  | none => exact Or.inr (Or.inl (unitMultiple_total h))
  | some o =>
    obtain ⟨u, x⟩ := o
    cases u with
    | none => exact Or.inr (Or.inr (unitMultiple_none h).2)
    | some u => exact Or.inl ⟨u, x, (unitMulti_iff ..).mpr h⟩

theorem connection_cases (s : Bytes) : (∃ r, Connection cfg s r) ∨ ∃ f, ConnectionMistake cfg s f := by
  cases h : L.conn cfg s with
  | none => exact Or.inr (conn_none h)
  | some r => exact Or.inl ⟨r, conn_iff.mpr h⟩

section
variable (units : TimeUnitsLike) (keywords : Option TimeUnitsLike) (numerals : Option NumbersLike)

theorem unitPart_cases (s : Bytes) :
    s = [] ∨ (cfg.allowTimeUnitDelimiter = true ∧ OnlyDelims cfg.innerDelimiter s) ∨
      ∃ t, AfterDelims cfg.allowTimeUnitDelimiter cfg.innerDelimiter s t ∧ t ≠ [] := by
  cases h : L.numDelim cfg s with
  | none => exact Or.inr (Or.inl (numDelim_none h))
  | some t =>
    obtain ⟨h1, h2⟩ := (numDelim_iff t).mp h
    by_cases ht : t = []
    · exact Or.inl (h2 ht)
    · exact Or.inr (Or.inr ⟨t, h1, ht⟩)

/-- every text is a single duration or has a mistake -/
theorem single_total (cfg : Config) (s : Bytes) (hs : s ≠ []) :
    (∃ item, SingleText cfg units keywords numerals s item) ∨ ∃ f, SingleMistake cfg units keywords numerals s f := by
  rcases text_kinds (cfg := cfg) hs with hn | ⟨hi, r, hr⟩ | hw
  · rcases number_total (cfg := cfg) hn with ⟨W, F, e, r, h1⟩ | ⟨f, h1⟩
    · rcases unitPart_cases (cfg := cfg) r with rfl | ⟨h2, h3⟩ | ⟨t, h2, h3⟩
      · exact Or.inl ⟨_, .number h1 .absent⟩
      · exact Or.inr ⟨_, .delimiters h1 h2 h3⟩
      · cases he : units.isEmpty with
        | true => exact Or.inr ⟨_, .noUnits h1 h2 h3 he⟩
        | false =>
          rcases unitSingle_cases (cfg := cfg) units t with ⟨u, h4⟩ | ⟨f, h4⟩ | h4
          · exact Or.inl ⟨_, .number h1 (.present h2 h3 he h4)⟩
          · exact Or.inr ⟨_, .unit h1 h2 h3 he h4⟩
          · exact Or.inr ⟨_, .noUnit h1 h2 h3 he h4⟩
    · exact Or.inr ⟨_, .number h1⟩
  · cases h : L.afterInf .single cfg r with
    | none =>
      obtain ⟨f, hf⟩ := infinitySingle_total h
      exact Or.inr ⟨f, .infinity hi hr hf⟩
    | some x =>
      left
      obtain ⟨h1, rfl⟩ := (afterWord_iff ..).mp hr
      refine ⟨.infinity, .infinity hi ?_⟩
      unfold L.afterInf at h
      simp only at h
      split at h
      · rename_i hc
        rcases hc with hc | hc
        · left
          obtain ⟨x', hx, hxs⟩ := hr
          rw [hc, List.append_nil] at hx
          rw [hx]; exact hxs
        · right
          exact (sameText_append (b! "inf") (b! "inity")).mpr ⟨h1, hc⟩
      · cases h
  · by_cases hk : ∃ k u, keywords = some k ∧ k.get s = some u
    · obtain ⟨k, u, h1, h2⟩ := hk
      exact Or.inl ⟨_, .keyword hw h1 h2⟩
    · have hk' : ∀ k, keywords = some k → k.get s = none := by
        intro k h1
        cases h2 : k.get s with
        | none => rfl
        | some u => exact absurd ⟨k, u, h1, h2⟩ hk
      have key : (cfg.numberIsOptional = true → NoUnitSingle cfg units s) →
          (∃ item, SingleText cfg units keywords numerals s item) ∨
            ∃ f, SingleMistake cfg units keywords numerals s f := by
        intro hno
        rcases numeral_total (cfg := cfg) numerals s with h | ⟨w, r, h1, h2⟩ | ⟨w, r, ds, t, q, n', h1, h2, h3, h4, h5, h6, h7⟩
        · exact Or.inr ⟨_, .numeral hw hk' hno (.noNumeral h)⟩
        · exact Or.inr ⟨_, .numeral hw hk' hno (.delimiters h1 h2)⟩
        · rcases unitSingle_cases (cfg := cfg) units t with ⟨u, h8⟩ | ⟨f, h8⟩ | h8
          · exact Or.inl ⟨_, .numeral hw hk' (fun h => (hno h).1) h4 h6 h7 h5 h2 h3 h8⟩
          · exact Or.inr ⟨_, .numeral hw hk' hno (.unit h1 h2 h3 h8)⟩
          · exact Or.inr ⟨_, .numeral hw hk' hno (.noUnit h1 h2 h3 h8)⟩
      cases ho : cfg.numberIsOptional with
      | false => exact key (fun h => by rw [ho] at h; cases h)
      | true =>
        rcases unitSingle_cases (cfg := cfg) units s with ⟨u, h8⟩ | ⟨f, h8⟩ | h8
        · exact Or.inl ⟨_, .unit hw hk' ho h8⟩
        · exact Or.inr ⟨_, .unitWord hw hk' ho h8⟩
        · exact key (fun _ => h8)

/-- every text starts with one of several durations or has a mistake there -/
theorem multi_total (cfg : Config) (s : Bytes) (hs : s ≠ []) :
    (∃ item rest, MultiText cfg units keywords numerals s item rest) ∨
      ∃ f, MultiMistake cfg units keywords numerals s f := by
  rcases text_kinds (cfg := cfg) hs with hn | ⟨hi, r, hr⟩ | hw
  · rcases number_total (cfg := cfg) hn with ⟨W, F, e, r, h1⟩ | ⟨f, h1⟩
    · rcases unitPart_cases (cfg := cfg) r with rfl | ⟨h2, h3⟩ | ⟨t, h2, h3⟩
      · exact Or.inl ⟨_, _, .numberEnd h1⟩
      · exact Or.inr ⟨_, .delimiters h1 h2 h3⟩
      · have key : (units.isEmpty = false → NoUnitMulti cfg units t) →
            (∃ item rest, MultiText cfg units keywords numerals s item rest) ∨
              ∃ f, MultiMistake cfg units keywords numerals s f := by
          intro hno
          rcases connection_cases (cfg := cfg) t with ⟨x, h5⟩ | ⟨f, h5⟩
          · exact Or.inl ⟨_, _, .number h1 h2 h3 hno h5⟩
          · exact Or.inr ⟨_, .connection h1 h2 h3 hno h5⟩
        cases he : units.isEmpty with
        | true => exact key (fun h => by rw [he] at h; cases h)
        | false =>
          rcases unitMulti_cases (cfg := cfg) units t with ⟨u, x, h4⟩ | ⟨f, h4⟩ | h4
          · exact Or.inl ⟨_, _, .numberUnit h1 h2 he h4⟩
          · exact Or.inr ⟨_, .unit h1 h2 h3 he h4⟩
          · exact key (fun _ => h4)
    · exact Or.inr ⟨_, .number h1⟩
  · cases h : L.afterInf .multiple cfg r with
    | none =>
      obtain ⟨f, hf⟩ := infinityMulti_total (s' := s) h
      exact Or.inr ⟨f, .infinity hi hr hf⟩
    | some x =>
      left
      let env : Env := ⟨cfg, units, keywords, numerals, fun d c => c.advanceTo d⟩
      have hb : L.body .multiple env s = some (.infinity, x) := by
        obtain ⟨h1, rfl⟩ := (afterWord_iff ..).mp hr
        obtain ⟨g1, g2⟩ := starts_inf_head h1
        rw [body_infinity (env := env) _ g1 g2 (by show (!cfg.disableInfinity && _) = true; rw [hi, h1]; rfl)]
        have : L.afterInf .multiple env.cfg (s.drop 3) = some x := h
        rw [this]; rfl
      exact ⟨_, _, (multi_iff (env := env) _).mp hb⟩
  · by_cases hk : ∃ k u r, keywords = some k ∧ WordIn (KeywordEnd cfg) k s u r
    · obtain ⟨k, u, r, h1, h2⟩ := hk
      rcases connection_cases (cfg := cfg) r with ⟨x, h5⟩ | ⟨f, h5⟩
      · exact Or.inl ⟨_, _, .keyword hw h1 h2 h5⟩
      · exact Or.inr ⟨_, .keyword hw h1 h2 h5⟩
    · have hk' : ∀ k, keywords = some k → ¬ ∃ u r, WordIn (KeywordEnd cfg) k s u r :=
        fun k h1 ⟨u, r, h2⟩ => hk ⟨k, u, r, h1, h2⟩
      have key : (cfg.numberIsOptional = true → NoUnitMulti cfg units s) →
          (∃ item rest, MultiText cfg units keywords numerals s item rest) ∨
            ∃ f, MultiMistake cfg units keywords numerals s f := by
        intro hno
        rcases numeral_total (cfg := cfg) numerals s with h | ⟨w, r, h1, h2⟩ | ⟨w, r, ds, t, q, n', h1, h2, h3, h4, h5, h6, h7⟩
        · exact Or.inr ⟨_, .numeral hw hk' hno (.noNumeral h)⟩
        · exact Or.inr ⟨_, .numeral hw hk' hno (.delimiters h1 h2)⟩
        · rcases unitMulti_cases (cfg := cfg) units t with ⟨u, x, h8⟩ | ⟨f, h8⟩ | h8
          · exact Or.inl ⟨_, _, .numeral hw hk' hno h4 h6 h7 h5 h2 h3 h8⟩
          · exact Or.inr ⟨_, .numeral hw hk' hno (.unit h1 h2 h3 h8)⟩
          · exact Or.inr ⟨_, .numeral hw hk' hno (.noUnit h1 h2 h3 h8)⟩
      cases ho : cfg.numberIsOptional with
      | false => exact key (fun h => by rw [ho] at h; cases h)
      | true =>
        rcases unitMulti_cases (cfg := cfg) units s with ⟨u, x, h8⟩ | ⟨f, h8⟩ | h8
        · exact Or.inl ⟨_, _, .unit hw hk' ho h8⟩
        · exact Or.inr ⟨_, .unitWord hw hk' ho h8⟩
        · exact key (fun _ => h8)

end

end Fundu
