import Verif.Proofs.Spans
import Verif.Proofs.GnuCase
import Verif.Spec.Options
/-!
# Allowing more does not change the reading of a text
-/
namespace Fundu.Props
open Fundu Fundu.Spec Fundu.Gnu

variable {cfg cfg' : Config} {units units' : TimeUnitsLike} {keywords : Option TimeUnitsLike} {numerals : Option NumbersLike}

theorem letter_of_lower {b c : UInt8} (hc : IsLetter c) (h : lower b = lower c) : IsLetter b := by
  have key : ∀ n < 256, ∀ m < 256, IsLetter (UInt8.ofNat m) → lower (UInt8.ofNat n) = lower (UInt8.ofNat m) →
      IsLetter (UInt8.ofNat n) := by decide +kernel
  have := key b.toNat b.toNat_lt c.toNat c.toNat_lt
  rw [UInt8.ofNat_toNat, UInt8.ofNat_toNat] at this
  exact this hc h

/-- the letters of a text equal to a word of letters are letters -/
theorem sameText_letters {x w : Bytes} (h : SameText x w) (hw : ∀ b ∈ w, IsLetter b) : ∀ b ∈ x, IsLetter b := by
  induction x generalizing w with
  | nil => simp
  | cons b x ih =>
    obtain ⟨c, w', rfl, h1, h2⟩ := same_cons h
    intro b' hb'
    rcases List.mem_cons.1 hb' with rfl | hb'
    · exact letter_of_lower (hw c (by simp)) h1
    · exact ih h2 (fun c hc => hw c (by simp [hc])) b' hb'

/-- a word of letters in front of `w ++ r`, where `r` does not start with a letter, is in front of `w` -/
theorem afterWord_of_append {v w r t : Bytes} (hv : ∀ b ∈ v, IsLetter b) (hr : ¬ StartsWith IsLetter r)
    (h : AfterWord v (w ++ r) t) : ∃ t', AfterWord v w t' ∧ t = t' ++ r := by
  obtain ⟨x, hx, hs⟩ := h
  have hl := sameText_letters hs hv
  rcases List.append_eq_append_iff.1 hx with ⟨a, ha, hb⟩ | ⟨a, ha, hb⟩
  · -- x = w ++ a, r = a ++ t
    cases a with
    | nil =>
      refine ⟨[], ⟨w, by simp, ?_⟩, by simpa using hb.symm⟩
      rw [List.append_nil] at ha
      rwa [← ha]
    | cons b a =>
      refine absurd ⟨b, a ++ t, by rw [hb]; rfl, hl b ?_⟩ hr
      rw [ha]; simp
  · exact ⟨a, ⟨x, ha, hs⟩, hb⟩

theorem inf_letters : ∀ b ∈ b! "inf", IsLetter b := by decide
theorem inity_letters : ∀ b ∈ b! "inity", IsLetter b := by decide
theorem ago_letters : ∀ b ∈ b! "ago", IsLetter b := by decide

theorem _root_.Fundu.Spec.Orderly.not_letter (ho : Orderly cfg units keywords numerals) {r : Bytes}
    (h : r = [] ∨ StartsWith (fun b => IsDelimiter cfg b ∨ NextDuration b) r) : ¬ StartsWith IsLetter r := by
  rcases h with rfl | ⟨b, l, rfl, hb⟩
  · exact not_startsWith_nil
  · rw [startsWith_cons]
    intro hl
    rcases hb with hb | hb | rfl | rfl
    · exact (ho.delimiters b hb).1 hl
    · unfold IsLetter at hl; unfold IsDigit at hb; omega
    · revert hl; decide
    · revert hl; decide

theorem not_startsWith_not {p : UInt8 → Prop} {r : Bytes} (h : ¬ StartsWith (¬ p ·) r) : r = [] ∨ StartsWith p r := by
  cases r with
  | nil => exact Or.inl rfl
  | cons b l =>
    rw [startsWith_cons, not_not] at h
    exact Or.inr ⟨b, l, rfl, h⟩

theorem startsWith_mono {p q : UInt8 → Prop} (h : ∀ b, p b → q b) {r : Bytes} : StartsWith p r → StartsWith q r := by
  rintro ⟨b, l, rfl, hb⟩; exact ⟨b, l, rfl, h b hb⟩

theorem split_congr {p q : UInt8 → Prop} (h : ∀ b, p b ↔ q b) {s w r : Bytes} (hs : Split p s w r) : Split q s w r :=
  ⟨hs.1, fun b hb => (h b).1 (hs.2.1 b hb), fun k => hs.2.2 (startsWith_mono (fun b => (h b).2) k)⟩

theorem split_nil {p : UInt8 → Prop} {s : Bytes} (h : ¬ StartsWith p s) : Split p s [] s := ⟨rfl, by simp, h⟩

/-- after optional delimiters, if there are none -/
theorem afterDelims_self (a : Bool) {d : Delimiter} {s : Bytes} (h : ¬ StartsWith (d · = true) s) : AfterDelims a d s s := by
  unfold AfterDelims
  cases a with
  | false => rfl
  | true => exact ⟨[], split_nil h⟩

/-- if `rest` starts without a delimiter it does not matter whether more delimiters are allowed -/
theorem afterDelims_more {a a' : Bool} (ha : a = true → a' = true) {d : Delimiter} {s rest : Bytes}
    (h : AfterDelims a d s rest) (hr : ¬ StartsWith (d · = true) rest) : AfterDelims a' d s rest := by
  cases a with
  | true => rw [ha rfl]; exact h
  | false =>
    have : rest = s := h
    subst this
    exact afterDelims_self a' hr

theorem more_sign (hm : AllowsMore cfg cfg') {s r : Bytes} {neg : Bool} (h : SignPart cfg s neg r)
    (hr : ¬ StartsWith (cfg.innerDelimiter · = true) r) : SignPart cfg' s neg r := by
  cases h with
  | absent h1 h2 => exact .absent h1 h2
  | plus h1 h2 => exact .plus (by rw [hm.inner]; exact afterDelims_more hm.signDelimiter h1 hr) h2
  | minus h1 h2 => exact .minus (by rw [hm.inner]; exact afterDelims_more hm.signDelimiter h1 hr) h2

theorem bool_more {a a' : Bool} (h : a' = true → a = true) (ha : a = false) : a' = false := by
  cases a' with
  | false => rfl
  | true => rw [h rfl] at ha; exact absurd ha (by decide)

theorem more_number (hm : AllowsMore cfg cfg') {s W F r : Bytes} {e : Int} (h : NumberText cfg s W F e r) :
    NumberText cfg' s W F e r := by
  obtain ⟨r1, r2, h1, h2, h3⟩ := h
  refine ⟨r1, r2, h1, ?_, ?_⟩
  · cases h2 with
    | absent k1 k2 => exact .absent k1 k2
    | present k1 k2 k3 => exact .present (bool_more hm.fraction k1) k2 k3
  · cases h3 with
    | absent k => exact .absent k
    | present k1 k2 k3 k4 k5 k6 => exact .present k1 (bool_more hm.exponent k2) k3 k4 k5 k6

/-- an identifier, followed by nothing or by a delimiter, digit or sign, does not start with `inf` -/
theorem _root_.Fundu.Spec.Orderly.not_inf (ho : Orderly cfg units keywords numerals) {id r : Bytes}
    (hid : IsIdentifier units keywords numerals id)
    (h : r = [] ∨ StartsWith (fun b => IsDelimiter cfg b ∨ NextDuration b) r) : ¬ ∃ t, AfterWord (b! "inf") (id ++ r) t := by
  rintro ⟨t, ht⟩
  obtain ⟨t', ht', -⟩ := afterWord_of_append inf_letters (ho.not_letter h) ht
  exact ho.inf id hid ⟨t', ht'⟩

theorem more_wordStart (ho : Orderly cfg units keywords numerals) {id r : Bytes}
    (hid : IsIdentifier units keywords numerals id)
    (h : r = [] ∨ StartsWith (fun b => IsDelimiter cfg b ∨ NextDuration b) r) (hw : WordStart cfg (id ++ r)) :
    WordStart cfg' (id ++ r) := ⟨hw.1, hw.2.1, hw.2.2.1, fun _ => ho.not_inf hid h⟩

theorem _root_.Fundu.Spec.UnitsMore.identifier (hu : UnitsMore units units') {id : Bytes} {u} (h : units.get id = some u) :
    IsIdentifier units' keywords numerals id := Or.inl ⟨u, hu.get id u h⟩

/-- an identifier does not start with a delimiter -/
theorem _root_.Fundu.Spec.Orderly.start (ho : Orderly cfg units keywords numerals) {id r : Bytes}
    (hid : IsIdentifier units keywords numerals id) : ¬ StartsWith (IsDelimiter cfg) (id ++ r) := by
  have h1 := ho.nonempty id hid
  have h2 := ho.plain id hid
  cases id with
  | nil => exact absurd rfl h1
  | cons b l =>
    rw [List.cons_append, startsWith_cons]
    exact (h2 b (by simp)).1

theorem _root_.Fundu.Spec.Orderly.start_inner (ho : Orderly cfg units keywords numerals) {id r : Bytes}
    (hid : IsIdentifier units keywords numerals id) : ¬ StartsWith (cfg.innerDelimiter · = true) (id ++ r) :=
  fun h => ho.start hid (startsWith_mono (fun _ => Or.inl) h)

/-! ## Single durations -/

theorem more_unitSingle (hm : AllowsMore cfg cfg') (hu : UnitsMore units units') (ho : Orderly cfg units' keywords numerals)
    {s rest : Bytes} {u} (h : UnitSingle cfg units s u rest) : UnitSingle cfg' units' s u rest := by
  cases h with
  | whole h1 h2 =>
    have hid : IsIdentifier units' keywords numerals s := hu.identifier h2
    cases ha : cfg'.allowAgo with
    | false => exact .whole ha (hu.get _ _ h2)
    | true =>
      refine .plain ha (split_self ?_) (ho.nonempty s hid) (hu.get _ _ h2)
      intro b hb
      rw [hm.inner]
      exact fun k => (ho.plain s hid b hb).1 (Or.inl k)
  | plain h1 h2 h3 h4 => exact .plain (hm.ago h1) (by rw [hm.inner]; exact h2) h3 (hu.get _ _ h4)
  | ago h1 h2 h3 h4 h5 h6 =>
    exact .ago (hm.ago h1) (by rw [hm.inner]; exact h2) h3 (hu.get _ _ h4) (by rw [hm.inner]; exact h5) h6

/-- a time unit of a single duration starts with an identifier -/
theorem unitSingle_identifier {s rest : Bytes} {u} (h : UnitSingle cfg units s u rest) :
    ∃ id r v, s = id ++ r ∧ units.get id = some v ∧
      (r = [] ∨ StartsWith (fun b => IsDelimiter cfg b ∨ NextDuration b) r) := by
  cases h with
  | whole h1 h2 => exact ⟨s, [], _, by simp, h2, Or.inl rfl⟩
  | plain h1 h2 h3 h4 => exact ⟨s, [], _, by simp, h4, Or.inl rfl⟩
  | ago h1 h2 h3 h4 h5 h6 =>
    refine ⟨_, _, _, h2.1, h4, ?_⟩
    exact (not_startsWith_not h2.2.2).imp id (startsWith_mono fun b hb => Or.inl (Or.inl hb))

theorem digit_not_delimiter (ho : Orderly cfg units keywords numerals) {s W F r : Bytes} {e : Int}
    (h : NumberText cfg s W F e r) : ¬ StartsWith (IsDelimiter cfg) s := by
  rintro ⟨b, l, rfl, hb⟩
  rcases numberText_head h with h | h
  · exact (ho.delimiters b hb).2.1 (startsWith_cons.1 h)
  · exact (ho.delimiters b hb).2.2 (startsWith_cons (p := (· = 46)).1 h)

theorem inf_not_delimiter (ho : Orderly cfg units keywords numerals) {s r : Bytes} (h : AfterWord (b! "inf") s r) :
    ¬ StartsWith (IsDelimiter cfg) s := by
  obtain ⟨x, rfl, hx⟩ := h
  have hl := sameText_letters hx inf_letters
  cases x with
  | nil => exact absurd hx (by decide)
  | cons b x =>
    rw [List.cons_append, startsWith_cons]
    exact fun hb => (ho.delimiters b hb).1 (hl b (by simp))

theorem sameText_afterInf {s : Bytes} (h : SameText s (b! "inf") ∨ SameText s (b! "infinity")) :
    ∃ r, AfterWord (b! "inf") s r := by
  rcases h with h | h
  · exact ⟨[], s, by simp, h⟩
  · rw [show b! "infinity" = b! "inf" ++ b! "inity" from rfl] at h
    obtain ⟨a, b, rfl, h1, h2⟩ := same_append (same_symm h)
    exact ⟨b, a, rfl, same_symm h1⟩

/-- a single duration does not start with a delimiter -/
theorem single_start (ho : Orderly cfg units keywords numerals) {s : Bytes} {item : Item}
    (h : SingleText cfg units keywords numerals s item) : ¬ StartsWith (IsDelimiter cfg) s := by
  cases h with
  | number h1 _ => exact digit_not_delimiter ho h1
  | infinity _ h1 =>
    obtain ⟨r, hr⟩ := sameText_afterInf h1
    exact inf_not_delimiter ho hr
  | keyword _ h1 h2 =>
    have := ho.start (r := []) (Or.inr (Or.inl ⟨_, _, h1, h2⟩))
    rwa [List.append_nil] at this
  | unit _ _ _ h1 =>
    obtain ⟨id, r, v, rfl, h, -⟩ := unitSingle_identifier h1
    exact ho.start (Or.inl ⟨v, h⟩)
  | numeral _ _ _ h1 h2 h3 h4 =>
    rw [h2.1]
    exact ho.start (Or.inr (Or.inr ⟨_, _, h1, h4⟩))

/-- the word in front of a text is unique -/
theorem word_unique {p : UInt8 → Prop} {w r w' r' : Bytes} (hw : ∀ b ∈ w, ¬ p b) (hr : r = [] ∨ StartsWith p r)
    (h : Split (¬ p ·) (w ++ r) w' r') : w = w' ∧ r = r' := by
  refine split_unique (p := (¬ p ·)) ⟨rfl, hw, ?_⟩ h
  rcases hr with rfl | ⟨b, l, rfl, hb⟩
  · exact not_startsWith_nil
  · rw [startsWith_cons]; exact fun k => k hb

theorem _root_.Fundu.Spec.Orderly.more (ho : Orderly cfg units' keywords numerals) (hu : UnitsMore units units') :
    Orderly cfg units keywords numerals := by
  have key : ∀ id, IsIdentifier units keywords numerals id → IsIdentifier units' keywords numerals id := by
    rintro id (⟨u, h⟩ | h)
    · exact hu.identifier h
    · exact Or.inr h
  exact ⟨ho.delimiters, fun id h => ho.nonempty id (key id h), fun id h => ho.plain id (key id h),
    fun id h => ho.point id (key id h), fun id h => ho.inf id (key id h), fun id h => ho.ago id (key id h),
    fun k hk id u h => ho.unitsKeywords k hk id u (hu.get id u h), fun n hn id u h => ho.unitsNumerals n hn id u (hu.get id u h),
    ho.keywordsNumerals⟩

/-- a numeral and a unit are not a unit with `ago` -/
theorem numeral_not_unit (ho : Orderly cfg units keywords numerals) {n : NumbersLike} {s w r ds r2 : Bytes} {q : Multiplier}
    (hn : numerals = some n) (h1 : Split (¬ cfg.innerDelimiter · = true) s w r) (h2 : n w = some q)
    (h3 : Split (cfg.innerDelimiter · = true) r ds r2) (h4 : r2 ≠ []) : ¬ ∃ u rest, UnitSingle cfg units s u rest := by
  rintro ⟨u, rest, h⟩
  have hr : StartsWith (cfg.innerDelimiter · = true) r := by
    rcases not_startsWith_not h1.2.2 with rfl | h
    · obtain ⟨h, -, -⟩ := h3
      exact absurd (List.append_eq_nil_iff.1 h.symm).2 h4
    · exact h
  have hs : s = w ++ r := h1.1
  have key : ∀ id v, units.get id = some v → s = id → False := by
    intro id v hv he
    obtain ⟨b, l, rfl, hb⟩ := hr
    exact (ho.plain id (Or.inl ⟨v, hv⟩) b (by rw [← he, hs]; simp)).1 (Or.inl hb)
  cases h with
  | whole _ h => exact key _ _ h rfl
  | plain _ _ _ h => exact key _ _ h rfl
  | ago _ k1 _ k2 _ _ =>
    obtain ⟨rfl, rfl⟩ := split_unique h1 k1
    have := ho.unitsNumerals n hn _ _ k2
    rw [h2] at this
    cases this

theorem more_single (hm : AllowsMore cfg cfg') (hu : UnitsMore units units') (ho : Orderly cfg units' keywords numerals)
    (ho' : Orderly cfg' units' keywords numerals)
    {s : Bytes} {item : Item} (h : SingleText cfg units keywords numerals s item) :
    SingleText cfg' units' keywords numerals s item := by
  cases h with
  | number h1 h2 =>
    refine .number (more_number hm h1) ?_
    cases h2 with
    | absent => exact .absent
    | present k1 k2 k3 k4 =>
      refine .present ?_ k2 (bool_more hu.isEmpty k3) (more_unitSingle hm hu ho k4)
      rw [hm.inner]
      refine afterDelims_more hm.unitDelimiter k1 ?_
      obtain ⟨id, r, v, rfl, h, -⟩ := unitSingle_identifier k4
      exact ho.start_inner (hu.identifier h)
  | infinity h1 h2 => exact .infinity (bool_more hm.infinity h1) h2
  | keyword h1 h2 h3 =>
    refine .keyword ?_ h2 h3
    have := more_wordStart (cfg' := cfg') ho (r := []) (Or.inr (Or.inl ⟨_, _, h2, h3⟩)) (Or.inl rfl)
      (by rw [List.append_nil]; exact h1)
    rwa [List.append_nil] at this
  | unit h1 h2 h3 h4 =>
    obtain ⟨id, r, v, rfl, h, hr⟩ := unitSingle_identifier h4
    exact .unit (more_wordStart ho (hu.identifier h) hr h1) h2 (hm.optional h3) (more_unitSingle hm hu ho h4)
  | numeral h1 h2 h3 h4 h5 h6 h7 h8 h9 h10 =>
    have hr : _ ∨ StartsWith (fun b => IsDelimiter cfg b ∨ NextDuration b) _ :=
      (not_startsWith_not h5.2.2).imp id (startsWith_mono fun b hb => Or.inl (Or.inl hb))
    have hw := h5.1
    refine .numeral ?_ h2 ?_ h4 (by rw [hm.inner]; exact h5) h6 h7 (by rw [hm.inner]; exact h8) h9
      (more_unitSingle hm hu ho h10)
    · rw [hw]
      exact more_wordStart ho (Or.inr (Or.inr ⟨_, _, h4, h7⟩)) hr (by rw [← hw]; exact h1)
    · intro _
      exact numeral_not_unit ho' h4 (by rw [hm.inner]; exact h5) h7 (by rw [hm.inner]; exact h8) h9

theorem orderly_more (hm : AllowsMore cfg cfg') (ho : Orderly cfg units keywords numerals) :
    Orderly cfg' units keywords numerals := by
  have key : ∀ b, IsDelimiter cfg' b ↔ IsDelimiter cfg b := by
    intro b; unfold IsDelimiter; rw [hm.inner, hm.outer]
  exact ⟨fun b h => ho.delimiters b ((key b).1 h), ho.nonempty,
    fun id h b hb => ⟨fun k => (ho.plain id h b hb).1 ((key b).1 k), (ho.plain id h b hb).2⟩,
    ho.point, ho.inf, ho.ago, ho.unitsKeywords, ho.unitsNumerals, ho.keywordsNumerals⟩

theorem more_denotes (hm : AllowsMore cfg cfg') {neg : Bool} {item : Item} {d : Duration}
    (h : Accepted cfg neg item d) : Accepted cfg' neg item d := by
  refine ⟨?_, h.2.imp hm.negative id⟩
  cases h.1 with
  | number k => exact .number (by rw [hm.defaultUnit]; exact k)
  | numberUnit k1 k2 => exact .numberUnit k1 k2
  | infinity k1 k2 => exact .infinity k1 k2
  | word k1 k2 => exact .word k1 k2
  | numeral k1 k2 k3 => exact .numeral k1 k2 k3

theorem more_denotesSingle (hm : AllowsMore cfg cfg') (hu : UnitsMore units units')
    (ho : Orderly cfg units' keywords numerals) {s : Bytes} {d : Duration}
    (h : DenotesSingle cfg units keywords numerals s d) : DenotesSingle cfg' units' keywords numerals s d := by
  obtain ⟨neg, r, item, h1, h2, h3⟩ := h
  refine ⟨neg, r, item, more_sign hm h1 ?_, more_single hm hu ho (orderly_more hm ho) h2, more_denotes hm h3⟩
  exact fun k => single_start (ho.more hu) h2 (startsWith_mono (fun _ => Or.inl) k)

end Fundu.Props
