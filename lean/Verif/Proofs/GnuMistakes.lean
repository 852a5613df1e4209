import Verif.Proofs.MistakesParse
import Verif.Proofs.GnuLoop
import Verif.Spec.GnuMistakes
/-! # The gnu parser reports the mistakes -/
namespace Fundu.Gnu
open Fundu Fundu.Spec

/-- the last byte is not white space -/
def Tidy (s : Bytes) : Prop := ∀ b, s.getLast? = some b → ¬ PosixSpace b

theorem tidy_suffix {a s : Bytes} (h : Tidy (a ++ s)) : Tidy s := by
  intro b hb
  refine h b ?_
  rw [List.getLast?_append, hb]
  rfl

theorem tidy_spaces {s : Bytes} (h : Tidy s) (hs : ∀ b ∈ s, PosixSpace b) : s = [] := by
  cases hl : s.getLast? with
  | none => exact List.getLast?_eq_none_iff.mp hl
  | some b => exact absurd (hs b (List.mem_of_getLast? hl)) (h b hl)

theorem tidy_split {p : UInt8 → Prop} {s a r : Bytes} (h : Tidy s) (hs : Split p s a r) : Tidy r := by
  rw [hs.1] at h
  exact tidy_suffix h

theorem tidy_onlyDelims {s : Bytes} (h : Tidy s) (hs : OnlyDelims CONFIG.innerDelimiter s) : False :=
  hs.1 (tidy_spaces h fun b hb => (delimiter_iff b).1 (hs.2 b hb))

theorem tidy_onlyOuter {s : Bytes} (h : Tidy s) (hs : OnlyDelims CONFIG.outerDelimiter s) : False :=
  hs.1 (tidy_spaces h fun b hb => (delimiter_iff b).1 (hs.2 b hb))

theorem tidy_spacesEnd {s r : Bytes} (h : Tidy s) (hs : Spaces s r) : Tidy r ∧ (r = [] → s = []) := by
  obtain ⟨sp, hs⟩ := hs
  refine ⟨tidy_split h hs, ?_⟩
  rintro rfl
  refine tidy_spaces h ?_
  have := hs.1
  rw [List.append_nil] at this
  rw [this]
  exact hs.2.1

theorem tidy_connection {s : Bytes} {f : Fault} (h : Tidy s) (hm : ConnectionMistake CONFIG s f) : False := by
  cases hm with
  | delimiters hd => exact tidy_onlyOuter h hd
  | conjunction _ _ _ hc _ _ _ =>
    have hc' : ([] : List Bytes) = _ := hc
    simp at hc'

theorem tidy_afterWord {w s r : Bytes} (h : Tidy s) (hw : AfterWord w s r) : Tidy r := by
  obtain ⟨w', rfl, -⟩ := hw
  exact tidy_suffix h

theorem tidy_agoPart {s r : Bytes} {m m' : Multiplier} (h : Tidy s) (ha : AgoPart CONFIG s m m' r) : Tidy r := by
  cases ha with
  | absent _ => exact h
  | other _ _ _ _ _ => exact h
  | ago _ h1 _ h2 => exact tidy_afterWord (tidy_split h h1) h2.1

theorem tidy_number {s W F r : Bytes} {e : Int} (h : Tidy s) (hn : NumberText CONFIG s W F e r) : Tidy r := by
  obtain ⟨r1, r2, h1, h2, h3⟩ := hn
  obtain ⟨-, rfl, -⟩ := exponent_gnu h3
  have := tidy_split h h1
  cases h2 with
  | absent _ _ => exact this
  | @present q _ _ _ h2 _ => exact tidy_split (tidy_suffix (a := [46]) this) h2

theorem tidy_unitMistake {s : Bytes} {f : Fault} (h : Tidy s) (hm : UnitMultiMistake CONFIG TIME_UNITS s f) : False := by
  cases hm with
  | delimiters hw _ hd =>
    obtain ⟨w, h1, -⟩ := hw
    exact tidy_onlyDelims (tidy_split h h1) hd
  | connection hw ha hc =>
    obtain ⟨w, h1, -⟩ := hw
    exact tidy_connection (tidy_agoPart (tidy_split h h1) ha) hc

theorem noKeyword_iff (s : Bytes) :
    (∀ k, some TIME_KEYWORDS = some k → ¬ ∃ u r, WordIn (KeywordEnd CONFIG) k s u r) ↔
      ¬ ∃ len rest, GnuWordAt gnuKeywords s len rest := by
  rw [keywordEnd_eq]
  constructor
  · rintro h ⟨len, rest, hw⟩
    obtain ⟨u, h1, -⟩ := wordAt_keywords.1 hw
    exact h _ rfl ⟨u, rest, h1⟩
  · rintro h k hk ⟨u, r, hw⟩
    cases hk
    obtain ⟨len, -, h1⟩ := wordIn_keywords hw
    exact h ⟨len, r, h1⟩

theorem noUnit_iff (s : Bytes) : NoUnitMulti CONFIG TIME_UNITS s ↔ ¬ ∃ len rest, GnuWordAt gnuUnits s len rest := by
  unfold NoUnitMulti
  rw [unitEnd_eq]
  constructor
  · rintro h ⟨len, rest, hw⟩
    obtain ⟨u, h1, -⟩ := wordAt_units.1 hw
    exact h ⟨u, rest, h1⟩
  · rintro h ⟨u, r, hw⟩
    obtain ⟨len, -, h1⟩ := wordIn_units hw
    exact h ⟨len, r, h1⟩

theorem numeralIn_iff {s w r : Bytes} : NumeralIn CONFIG (some NUMERALS) s w r ↔ GnuNumeralAt s w r := by
  have e : (fun b => ¬ CONFIG.innerDelimiter b = true) = fun b => ¬ PosixSpace b := by
    funext b; exact propext (not_congr (delimiter_iff b))
  unfold NumeralIn GnuNumeralAt
  constructor
  · rintro ⟨n, q, hn, h1, h2, h3, h4⟩
    cases hn
    rw [e] at h1
    exact ⟨_, h1, ((Props.C41_numerals w q).1 h3).2, h4⟩
  · rintro ⟨n, h1, h2, h3⟩
    exact ⟨NUMERALS, ⟨n, 0⟩, rfl, by rw [e]; exact h1, (numeral_word h2).1, (Props.C41_numerals w ⟨n, 0⟩).2 ⟨rfl, h2⟩, h3⟩

theorem numeral_not {s w r : Bytes} (h : GnuNumeralAt s w r) : WordStart CONFIG s ∧
    (¬ ∃ len rest, GnuWordAt gnuKeywords s len rest) ∧ (¬ ∃ len rest, GnuWordAt gnuUnits s len rest) := by
  obtain ⟨n, h1, h2, h3⟩ := h
  obtain ⟨g1, g2⟩ := numeral_word h2
  have hsplit : Split (¬ GnuEnd ·) s w r := by
    refine ⟨h1.1, fun b hb => (letter_not (g2 b hb)).1, ?_⟩
    rintro ⟨b, l, hb, hn⟩
    exact h1.2.2 ⟨b, l, hb, fun hs => hn (Or.inl hs)⟩
  refine ⟨by rw [h1.1]; exact wordStart_of g1 g2, ?_, ?_⟩
  · rintro ⟨len, rest, w', q1, q2⟩
    obtain ⟨rfl, -⟩ := Props.split_unique hsplit q1
    obtain ⟨names, p1, p2⟩ := q2
    exact (Props.C41_unambiguous w).2.2.2 len n ⟨names, List.mem_append_right _ p1, p2⟩ h2
  · rintro ⟨len, rest, w', q1, q2⟩
    obtain ⟨rfl, -⟩ := Props.split_unique hsplit q1
    obtain ⟨names, p1, p2⟩ := q2
    exact (Props.C41_unambiguous w).2.2.2 len n ⟨names, List.mem_append_left _ p1, p2⟩ h2

/-- the general mistakes in a part of a text without white space at the end -/
theorem multi_mistake {s : Bytes} {f : Fault} (h : Tidy s)
    (hm : MultiMistake CONFIG TIME_UNITS (some TIME_KEYWORDS) (some NUMERALS) s f) : GnuPartMistake s f := by
  cases hm with
  | number hn =>
    cases hn with
    | @fraction W r _ h1 h2 =>
      cases h2 with
      | disabled hd => exact absurd hd (by decide)
      | noDigits _ hW hn =>
        subst hW
        have := h1.1
        rw [List.nil_append] at this
        rw [this]
        exact .point hn
    | @exponent W r F r' _ h1 h2 h3 =>
      cases h3 with
      | @disabled x t hx _ =>
        have hx' : StartsWith ExponentLetter (x :: t) := ⟨x, t, rfl, hx⟩
        cases h2 with
        | absent hW hp => exact .exponent h1 hW hx'
        | present _ h2 hor => exact .exponentPoint ⟨_, h1, h2, hor⟩ hx'
      | endOfText _ hd => exact absurd hd (by decide)
      | onlySign _ hd _ => exact absurd hd (by decide)
      | noDigit _ hd _ _ _ => exact absurd hd (by decide)
      | overflow _ hd _ _ _ => exact absurd hd (by decide)
  | delimiters hn _ hd => exact (tidy_onlyDelims (tidy_number h hn) hd).elim
  | unit hn ha _ _ hu =>
    rw [afterDelims_gnu] at ha
    exact (tidy_unitMistake (tidy_spacesEnd (tidy_number h hn) ha).1 hu).elim
  | connection hn ha _ _ hc =>
    rw [afterDelims_gnu] at ha
    exact (tidy_connection (tidy_spacesEnd (tidy_number h hn) ha).1 hc).elim
  | infinity hd _ _ => exact absurd hd (by decide)
  | keyword _ _ hw hc =>
    obtain ⟨w, h1, -⟩ := hw
    exact (tidy_connection (tidy_split h h1) hc).elim
  | unitWord _ _ _ hu => exact (tidy_unitMistake h hu).elim
  | numeral hws hk hu hn =>
    rw [noKeyword_iff] at hk
    have hu := (noUnit_iff s).1 (hu rfl)
    cases hn with
    | delimiters h1 h2 =>
      rw [numeralIn_iff] at h1
      obtain ⟨n, h1, -⟩ := h1
      exact (tidy_onlyDelims (tidy_split h h1) h2).elim
    | unit h1 h2 _ h3 =>
      rw [numeralIn_iff] at h1
      obtain ⟨n, h1, -⟩ := h1
      exact (tidy_unitMistake (tidy_split (tidy_split h h1) h2) h3).elim
    | @noUnit w r ds t h1 h2 h3 h4 =>
      rw [numeralIn_iff] at h1
      rw [noUnit_iff] at h4
      rw [inner_eq] at h2
      exact .noUnit h1 ⟨ds, h2⟩ h4
    | noNumeral h1 =>
      simp only [numeralIn_iff] at h1
      exact .noWord hws.1 hws.2.1 hws.2.2.1 hk hu h1

/-! ## The other direction -/

theorem partMistake_ne {s : Bytes} {f : Fault} (h : GnuPartMistake s f) : s ≠ [] := by
  have hp : ∀ {W F r : Bytes}, ¬ GnuPoint [] W F r := by
    rintro W F r ⟨t, h1, -⟩
    have := h1.1
    simp at this
  rintro rfl
  cases h with
  | exponent h1 h2 _ => exact h2 (by have := h1.1; simp at this; exact this.1)
  | exponentPoint h _ => exact hp h
  | noWhole h _ _ _ => exact hp h
  | noFraction h _ _ _ => exact hp h
  | notSeconds h _ _ _ _ => exact hp h
  | noUnit h _ _ =>
    obtain ⟨n, h1, -, h3⟩ := h
    have := h1.1
    simp at this
    exact h3 this.2
  | noWord h _ _ _ _ _ => exact h rfl

/-- the reason for rejecting a number with a decimal point -/
def fractionReason (W : Bytes) (u : Option (TimeUnit × Multiplier)) : Reason :=
  if (u.getD (.second, ⟨1, 0⟩)).1 ≠ .second then .fractionOnlyWithSeconds
  else if W = [] then .fractionWithoutWhole else .fractionWithoutFraction

theorem number_fails {I : Bytes} {neg : Bool} {W F : Bytes} {u : Option (TimeUnit × Multiplier)} {r : DurationRepr}
    (h : NumberRepr I neg true W F u r) (hb : ¬ ((u.getD (.second, ⟨1, 0⟩)).1 = .second ∧ W ≠ [] ∧ F ≠ [])) :
    parseReprFuzzy r = fail (.invalidInput (fractionReason W u)) := by
  have hunit : r.unit.getD .second = (u.getD (.second, ⟨1, 0⟩)).1 := by
    rw [h.unit]; cases u <;> rfl
  have hsome : ∀ t, (u.getD (.second, ⟨1, 0⟩)).1 = t → t ≠ .second → r.unit = some t := by
    intro t h1 h2
    rw [h.unit]
    cases u with
    | none => exact absurd h1.symm h2
    | some u => rw [← h1]; rfl
  have hnm : ∀ t, r.unit.getD r.defaultUnit = t ↔ (u.getD (.second, ⟨1, 0⟩)).1 = t := by
    intro t; rw [h.default, hunit]
  unfold fractionReason
  generalize hv : (u.getD (.second, ⟨1, 0⟩)).1 = t at *
  obtain ⟨f, hf⟩ := Option.isSome_iff_exists.1 h.point
  have hF := h.fract
  rw [hf] at hF
  by_cases hs : t = .second
  · subst hs
    rw [if_neg (by simp)]
    rw [fuzzy_kinds, if_neg (by rintro hh; rw [hh] at hunit; cases hunit),
      if_neg (by rintro hh; rw [hh] at hunit; cases hunit)]
    unfold parseRepr
    cases hw : r.whole with
    | none =>
      have hW : W = [] := h.whole.1.1 hw
      rw [if_pos hW]
      simp only [hf]
      rw [if_pos ((hnm _).2 rfl)]
      rfl
    | some w =>
      have hW : W ≠ [] := by
        intro hh
        have := h.whole.1.2 hh
        rw [hw] at this; cases this
      have hE : F = [] := by
        by_contra hE
        exact hb ⟨rfl, hW, hE⟩
      rw [if_neg hW]
      have hfe : f.isEmpty = true := by
        have h1 : DurationRepr.rangeSlice I f = .ok F := hF.1
        rw [hE] at h1
        exact isEmpty_of_slice h1
      simp only [hf]
      rw [if_pos ((hnm _).2 rfl), if_pos hfe]
      rfl
  · rw [if_pos hs]
    have hx : fuzzyUnit r = fail (.invalidInput .fractionOnlyWithSeconds) := by
      unfold fuzzyUnit; rw [hf]; rfl
    have hy : parseRepr r = fail (.invalidInput .fractionOnlyWithSeconds) := by
      unfold parseRepr
      cases hw : r.whole <;> simp only [hf] <;> rw [if_neg (fun hh => hs ((hnm _).1 hh))]
    rw [fuzzy_kinds, hx, hy]
    by_cases h1 : r.unit = some .month
    · rw [if_pos h1]; rfl
    · rw [if_neg h1]
      by_cases h2 : r.unit = some .year
      · rw [if_pos h2]; rfl
      · rw [if_neg h2]; rfl

theorem point_number {s W F r : Bytes} (hp : GnuPoint s W F r) (he : ¬ StartsWith ExponentLetter r) :
    NumberText CONFIG s W F 0 r ∧ L.point s = true := by
  obtain ⟨t, h1, h2, h3⟩ := hp
  exact ⟨⟨_, r, h1, .present rfl h2 h3, .absent he⟩, (point_of_split h1).2 ⟨46, t, rfl, rfl⟩⟩

theorem number_point {s W F r : Bytes} {e : Int} (h : NumberText CONFIG s W F e r) (hp : L.point s = true) :
    GnuPoint s W F r ∧ ¬ StartsWith ExponentLetter r := by
  obtain ⟨r1, r2, h1, h2, h3⟩ := h
  obtain ⟨-, rfl, h4⟩ := exponent_gnu h3
  cases h2 with
  | absent _ h => exact absurd ((point_of_split h1).1 hp) h
  | present _ h2 h5 => exact ⟨⟨_, h1, h2, h5⟩, h4⟩

theorem unit_full {t r : Bytes} {len : GnuLength} (h : Tidy t) (hw : GnuWordAt gnuUnits t len r) :
    ∃ ago rest, GnuUnitAt t len ago rest := by
  have hr : Tidy r := by
    obtain ⟨w, h1, -⟩ := hw
    exact tidy_split h h1
  have hgo : ∃ ago r', GnuAgo r ago r' ∧ Tidy r' := by
    by_cases ha : ∃ rest, AgoAt r rest
    · obtain ⟨rest, ha⟩ := ha
      refine ⟨true, rest, .present ha, ?_⟩
      obtain ⟨sp, q, h1, -, h2, -⟩ := ha
      exact tidy_afterWord (tidy_split hr h1) h2
    · exact ⟨false, r, .absent ha, hr⟩
  obtain ⟨ago, r', g1, g2⟩ := hgo
  obtain ⟨sp, rest, h3⟩ := split_exists r'
  have hsp : Spaces r' rest := ⟨sp, h3⟩
  exact ⟨ago, rest, r, r', hw, g1, hsp, (tidy_spacesEnd g2 hsp).2⟩

/-- a number with a decimal point is a part for the general grammar -/
theorem point_multi {s W F r t : Bytes} (h : Tidy s) (hp : GnuPoint s W F r) (he : ¬ StartsWith ExponentLetter r)
    (ht : Spaces r t) : ∃ u rest, Multi s (.number W F 0 u) rest ∧
      ((u.getD (.second, ⟨1, 0⟩)).1 = .second ↔ SecondsOrNothing t) := by
  obtain ⟨hn, -⟩ := point_number hp he
  have hr := tidy_number h hn
  obtain ⟨ht1, ht2⟩ := tidy_spacesEnd hr ht
  by_cases hw : ∃ len rest, GnuWordAt gnuUnits t len rest
  · obtain ⟨len, q, hw⟩ := hw
    obtain ⟨ago, rest, hu⟩ := unit_full ht1 hw
    obtain ⟨u, g1, g2, g3⟩ := gnu_unitMulti hu
    refine ⟨some (u.1, withAgo ago u.2), rest, .numberUnit hn (afterDelims_gnu.2 ht) rfl g3, ?_⟩
    show u.1 = .second ↔ _
    rw [second_iff g1 g2]
    constructor
    · rintro rfl len' q' hw'
      obtain ⟨w, k1, k2⟩ := hw
      obtain ⟨w', k1', k2'⟩ := hw'
      obtain ⟨rfl, -⟩ := Props.split_unique k1 k1'
      obtain ⟨v, j1, j2⟩ := ((Props.C41_units w).1 _).1 k2
      obtain ⟨v', j1', j2'⟩ := ((Props.C41_units w).1 _).1 k2'
      rw [j1] at j1'
      cases j1'
      exact Props.unitMeans_unique j2' j2
    · intro hh
      exact hh len q hw
  · refine ⟨none, t, ?_, ?_⟩
    · by_cases hr0 : r = []
      · subst hr0
        have : t = [] := by
          obtain ⟨sp, hs⟩ := ht
          have := hs.1
          simp at this
          exact this.2
        subst this
        exact .numberEnd hn
      · have hne : t ≠ [] := fun hh => hr0 (ht2 hh)
        refine .number hn (afterDelims_gnu.2 ht) hne (fun _ => (noUnit_iff t).2 hw) ?_
        exact connection_gnu.2 ⟨⟨[], split_nil_run (spaces_end ht)⟩, fun hh => absurd hh hne⟩
    · exact ⟨fun _ len q hq => absurd ⟨len, q, hq⟩ hw, fun _ => rfl⟩

/-- a number with a decimal point which is rejected -/
def BadPoint (s : Bytes) (f : Fault) : Prop :=
  ∃ W F u rest, Multi s (.number W F 0 u) rest ∧ L.point s = true ∧
    ¬ ((u.getD (.second, ⟨1, 0⟩)).1 = .second ∧ W ≠ [] ∧ F ≠ []) ∧ f = .other (.invalidInput (fractionReason W u))

/-- the mistakes in a part are those of the general grammar, and rejected numbers -/
theorem part_mistake {s : Bytes} {f : Fault} (h : Tidy s) (hm : GnuPartMistake s f) :
    MultiMistake CONFIG TIME_UNITS (some TIME_KEYWORDS) (some NUMERALS) s f ∨ BadPoint s f := by
  have inner : (fun b => CONFIG.innerDelimiter b = true) = PosixSpace := inner_eq
  cases hm with
  | point hn =>
    left
    refine .number (.fraction (W := []) (split_nil_run ?_) (.noDigits rfl rfl hn))
    rw [Props.startsWith_cons]; decide
  | @exponent _ W r h1 h2 h3 =>
    left
    obtain ⟨x, t, rfl, hx⟩ := h3
    refine .number (.exponent h1 (.absent h2 ?_) (.disabled hx rfl))
    rw [Props.startsWith_cons]
    rcases hx with rfl | rfl <;> decide
  | @exponentPoint _ W F r h1 h2 =>
    left
    obtain ⟨x, t, rfl, hx⟩ := h2
    obtain ⟨q, g1, g2, g3⟩ := h1
    exact .number (.exponent g1 (.present rfl g2 g3) (.disabled hx rfl))
  | @noWhole _ F r t h1 h2 h3 h4 =>
    right
    obtain ⟨u, rest, g1, g2⟩ := point_multi h h1 h2 h3
    refine ⟨[], F, u, rest, g1, (point_number h1 h2).2, fun hh => hh.2.1 rfl, ?_⟩
    unfold fractionReason
    rw [if_neg (not_not.2 (g2.2 h4)), if_pos rfl]
  | @noFraction _ W r t h1 h2 h3 h4 =>
    right
    obtain ⟨u, rest, g1, g2⟩ := point_multi h h1 h2 h3
    refine ⟨W, [], u, rest, g1, (point_number h1 h2).2, fun hh => hh.2.2 rfl, ?_⟩
    unfold fractionReason
    have hW : W ≠ [] := by
      obtain ⟨q, -, -, k⟩ := h1
      rcases k with k | k
      · exact k
      · exact absurd rfl k
    rw [if_neg (not_not.2 (g2.2 h4)), if_neg hW]
  | @notSeconds _ W F r t len rest' h1 h2 h3 h4 h5 =>
    right
    obtain ⟨u, rest, g1, g2⟩ := point_multi h h1 h2 h3
    have hns : (u.getD (.second, ⟨1, 0⟩)).1 ≠ .second := fun hh => h5 (g2.1 hh _ _ h4)
    refine ⟨W, F, u, rest, g1, (point_number h1 h2).2, fun hh => hns hh.1, ?_⟩
    unfold fractionReason
    rw [if_pos hns]
  | @noUnit _ w r t h1 h2 h3 =>
    left
    obtain ⟨g1, g2, g3⟩ := numeral_not h1
    obtain ⟨sp, h2'⟩ := h2
    have hne : t ≠ [] := by
      have hr : Tidy r := by
        obtain ⟨n, k, -⟩ := h1
        exact tidy_split h k
      intro hh
      obtain ⟨n, -, -, k⟩ := h1
      exact k ((tidy_spacesEnd hr ⟨sp, h2'⟩).2 hh)
    exact .numeral g1 ((noKeyword_iff s).2 g2) (fun _ => (noUnit_iff s).2 g3)
      (.noUnit (numeralIn_iff.2 h1) (by rw [inner]; exact h2') hne ((noUnit_iff t).2 h3))
  | noWord h1 h2 h3 h4 h5 h6 =>
    left
    refine .numeral ⟨h1, h2, h3, fun hh => absurd hh (by decide)⟩ ((noKeyword_iff s).2 h4) (fun _ => (noUnit_iff s).2 h5)
      (.noNumeral ?_)
    rintro ⟨w, r, hw⟩
    exact h6 ⟨w, r, numeralIn_iff.1 hw⟩

theorem multi_unique {s rest rest' : Bytes} {item item' : Item} (h : Multi s item rest) (h' : Multi s item' rest') :
    item = item' ∧ rest = rest' := by
  have h1 := (multi_iff (env := plain) item).2 h
  have h2 := (multi_iff (env := plain) item').2 h'
  rw [h1] at h2
  cases h2
  exact ⟨rfl, rfl⟩

/-- a rejected part is a mistake -/
theorem rejected_mistake {s rest : Bytes} {neg : Bool} {item : Item} (h : Tidy s) (hm : Multi s item rest)
    (hp : partOf neg (L.point s) item = none) : ∃ f, GnuPartMistake s f := by
  have hnum : ∀ {W F r : Bytes} {e : Int} {u : Option (TimeUnit × Multiplier)}, NumberText CONFIG s W F e r →
      item = .number W F e u → ∃ f, GnuPartMistake s f := by
    intro W F r e u hn hi
    obtain ⟨rfl, -⟩ := number_digits hn
    cases hpt : L.point s with
    | false => rw [hpt, hi] at hp; simp [partOf] at hp
    | true =>
      obtain ⟨g1, g2⟩ := number_point hn hpt
      obtain ⟨sp, t, ht⟩ := split_exists r
      obtain ⟨u', rest', g3, g4⟩ := point_multi h g1 g2 ⟨sp, ht⟩
      have heq := (multi_unique hm g3).1
      rw [hpt, heq] at hp
      simp only [partOf, if_true] at hp
      by_cases hs : SecondsOrNothing t
      · by_cases hW : W = []
        · subst hW
          exact ⟨_, .noWhole g1 g2 ⟨sp, ht⟩ hs⟩
        · by_cases hF : F = []
          · subst hF
            exact ⟨_, .noFraction g1 g2 ⟨sp, ht⟩ hs⟩
          · rw [if_pos ⟨g4.2 hs, hW, hF⟩] at hp
            cases hp
      · have hs' := hs
        unfold SecondsOrNothing at hs'
        push Not at hs'
        obtain ⟨len, q, k1, k2⟩ := hs'
        exact ⟨_, .notSeconds g1 g2 ⟨sp, ht⟩ k1 k2⟩
  have hm' := hm
  cases hm with
  | numberEnd h1 => exact hnum h1 rfl
  | numberUnit h1 _ _ _ => exact hnum h1 rfl
  | number h1 _ _ _ _ => exact hnum h1 rfl
  | inf h1 _ _ _ => exact absurd h1 (by decide)
  | infinity h1 _ _ _ _ _ => exact absurd h1 (by decide)
  | keyword => simp [partOf] at hp
  | unit => simp [partOf] at hp
  | numeral => simp [partOf] at hp

/-! ## The loop -/

variable {I s : Bytes} {c : Cursor} {f : Fault}

theorem tidy_sign {r : Bytes} {neg : Bool} (h : Tidy s) (hs : GnuSign s neg r) : Tidy r := by
  cases hs with
  | absent _ => exact h
  | @plus q _ hq =>
    obtain ⟨sp, hq⟩ := hq
    exact tidy_split (tidy_suffix (a := [43]) h) hq
  | @minus q _ hq =>
    obtain ⟨sp, hq⟩ := hq
    exact tidy_split (tidy_suffix (a := [45]) h) hq

theorem gap_end {r rest : Bytes} (hg : GnuGap r rest) : ∃ a, r = a ++ rest := by
  obtain ⟨⟨sp, h⟩, -⟩ := hg
  exact ⟨sp, h.1⟩

theorem unitAt_end {r rest : Bytes} {len : GnuLength} {ago : Bool} (h : GnuUnitAt r len ago rest) :
    ∃ a, r = a ++ rest ∧ a ≠ [] := by
  obtain ⟨q, q', ⟨w, h1, hw⟩, h2, h3⟩ := h
  obtain ⟨c, rfl⟩ := gap_end h3
  have : ∃ b, q = b ++ (c ++ rest) := by
    cases h2 with
    | absent _ => exact ⟨[], rfl⟩
    | present ha =>
      obtain ⟨sp, y, k1, -, ⟨x, rfl, -⟩, -⟩ := ha
      exact ⟨sp ++ x, by rw [k1.1, List.append_assoc]⟩
  obtain ⟨b, rfl⟩ := this
  exact ⟨w ++ (b ++ c), by rw [h1.1]; simp, by simp [gnuWord_ne hw (by decide)]⟩

theorem spaces_end' {r rest : Bytes} (h : Spaces r rest) : ∃ a, r = a ++ rest := by
  obtain ⟨sp, h⟩ := h
  exact ⟨sp, h.1⟩

theorem text_end {r rest : Bytes} {neg : Bool} {part : GnuPart} (h : GnuText neg r part rest) :
    ∃ a, r = a ++ rest ∧ a ≠ [] := by
  have dig : ∀ {s W r : Bytes}, GnuDigits s W r → ∃ a, s = a ++ r ∧ a ≠ [] := fun h => ⟨_, h.1.1, h.2.1⟩
  have dec : ∀ {s W F r : Bytes}, GnuDecimal s W F r → ∃ a, s = a ++ r ∧ a ≠ [] := by
    rintro s W F r ⟨q, h1, -, h2, -⟩
    exact ⟨W ++ 46 :: F, by rw [h1.1, h2.1]; simp, by simp⟩
  have noU : ∀ {r rest : Bytes}, NoUnit r rest → ∃ a, r = a ++ rest := by
    rintro r rest ⟨q, h1, -, -, rfl⟩
    exact spaces_end' h1
  have tr : ∀ {x y z : Bytes}, (∃ a, x = a ++ y) → (∃ a, y = a ++ z ∧ a ≠ []) → ∃ a, x = a ++ z ∧ a ≠ [] := by
    rintro x y z ⟨a, rfl⟩ ⟨b, rfl, hb⟩
    exact ⟨a ++ b, by simp, by simp [hb]⟩
  have tl : ∀ {x y z : Bytes}, (∃ a, x = a ++ y ∧ a ≠ []) → (∃ a, y = a ++ z) → ∃ a, x = a ++ z ∧ a ≠ [] := by
    rintro x y z ⟨a, rfl, ha⟩ ⟨b, rfl⟩
    exact ⟨a ++ b, by simp, by simp [ha]⟩
  have wk : ∀ {x y : Bytes}, (∃ a, x = a ++ y ∧ a ≠ []) → ∃ a, x = a ++ y := fun ⟨a, h, _⟩ => ⟨a, h⟩
  cases h with
  | numberUnit h1 h2 h3 => exact tl (dig h1) (wk (tr (spaces_end' h2) (unitAt_end h3)))
  | number h1 h2 => exact tl (dig h1) (noU h2)
  | decimalUnit h1 h2 h3 => exact tl (dec h1) (wk (tr (spaces_end' h2) (unitAt_end h3)))
  | decimal h1 h2 => exact tl (dec h1) (noU h2)
  | keyword h1 h2 =>
    obtain ⟨w, h1, hw⟩ := h1
    exact tl ⟨w, h1.1, gnuWord_ne hw (by decide)⟩ (gap_end h2)
  | unit h => exact unitAt_end h
  | numeral h1 _ h2 h3 => exact tr ⟨_, h1.1⟩ (tr (spaces_end' h2) (unitAt_end h3))

theorem sign_end {r : Bytes} {neg : Bool} (h : GnuSign s neg r) : ∃ a, s = a ++ r := by
  cases h with
  | absent _ => exact ⟨[], rfl⟩
  | @plus q _ h =>
    obtain ⟨a, rfl⟩ := spaces_end' h
    exact ⟨43 :: a, rfl⟩
  | @minus q _ h =>
    obtain ⟨a, rfl⟩ := spaces_end' h
    exact ⟨45 :: a, rfl⟩

theorem step_less {r rest : Bytes} {neg : Bool} {part : GnuPart} (h : GnuSign s neg r) (ht : GnuText neg r part rest) :
    rest.length < s.length := by
  obtain ⟨a, rfl⟩ := sign_end h
  obtain ⟨b, rfl, hb⟩ := text_end ht
  have := List.length_pos_iff.2 hb
  simp only [List.length_append]
  omega

theorem tidy_text {r rest : Bytes} {neg : Bool} {part : GnuPart} (h : Tidy r) (ht : GnuText neg r part rest) : Tidy rest := by
  obtain ⟨a, rfl, -⟩ := text_end ht
  exact tidy_suffix h

/-- the parser finds the mistake in a part -/
theorem step_fails {neg : Bool} {r : Bytes} (h : At I 0 c s) (ht : Tidy s) (h1 : GnuSign s neg r) (h2 : GnuPartMistake r f)
    {β : Type} (k : FuzzyOutput → Option Cursor → R β) :
    Fails I (templateParse .multiple plain c >>= fun o => parseReprFuzzy o.1 >>= fun p => k p o.2) f := by
  have hs := sign_gnu.2 ⟨h1, partMistake_ne h2⟩
  rcases part_mistake (tidy_sign ht h1) h2 with h3 | ⟨W, F, u, rest, g1, g2, g3, rfl⟩
  · exact (template_text_fails (env := plain) plain_ok.cfg rfl .multiple h hs h3).bind _
  · obtain ⟨⟨r', next⟩, k1, k2⟩ := (template_at plain_ok.cfg rfl .multiple h).some
      ((template_iff _ _ _).2 ⟨r, hs, (multi_iff _).2 g1⟩)
    refine Fails.ok k1 ?_
    have hrepr : IsRepr I CONFIG neg (L.point (L.afterSign CONFIG s)) (.number W F 0 u) r' := k2.1
    rw [sign_after hs, g2] at hrepr
    exact Fails.bind (show Fails I (parseReprFuzzy r') (.other (.invalidInput (fractionReason W u))) from
      number_fails (numberRepr rfl hrepr) g3) _

theorem fuzzyLoop_succ (e : Env) (fuel : Nat) (t : Totals) (c : Cursor) : fuzzyLoop e (fuel + 1) t c =
    (templateParse .multiple e c >>= fun o => parseReprFuzzy o.1 >>= fun p => addOutput t p >>= fun t =>
      match o.2 with
      | some c => fuzzyLoop e fuel t c
      | none => pure t) := rfl

theorem fuzzy_fails (fuel : Nat) {t : Totals} {T : GnuTotal} (ht : MeansTotal t T) (htidy : Tidy s)
    (h : At I 0 c s) (hf : I.length < c.pos + fuel) (hm : GnuMistake s f) : Fails I (fuzzyLoop plain fuel t c) f := by
  induction hm generalizing t T c fuel with
  | empty =>
    cases fuel with
    | zero => have := h.inv.pos; omega
    | succ fuel =>
      rw [fuzzyLoop_succ]
      refine Fails.bind ?_ _
      unfold templateParse
      rw [h.nil]
      rfl
  | sign h1 =>
    cases fuel with
    | zero => have := h.inv.pos; omega
    | succ fuel =>
      rw [fuzzyLoop_succ]
      exact (template_sign_fails (env := plain) plain_ok.cfg .multiple h (.noNumber h1)).bind _
  | part h1 h2 =>
    cases fuel with
    | zero => have := h.inv.pos; omega
    | succ fuel =>
      rw [fuzzyLoop_succ]
      exact step_fails h htidy h1 h2 (fun p n => addOutput t p >>= fun t =>
        match n with
        | some c => fuzzyLoop plain fuel t c
        | none => pure t)
  | @later s neg r part rest f h1 h2 h3 h4 ih =>
    cases fuel with
    | zero => have := h.inv.pos; omega
    | succ fuel =>
      rw [fuzzyLoop_succ]
      obtain ⟨n, item, g1, g2⟩ := step_iff.1 ⟨neg, r, h1, h2⟩
      obtain ⟨r', m1, m2⟩ := (template_iff _ _ _).1 g1
      have hi := multi_ok ((multi_iff _).1 m2)
      obtain ⟨b, l, hb⟩ := List.exists_cons_of_ne_nil (step_ne ⟨neg, r, h1, h2⟩)
      have hcur : c.cur.isSome = true := by rw [hb] at h; rw [h.cons]; rfl
      have hsafe := templateParse_safe plain_ok .multiple h.inv hcur
      obtain ⟨⟨r'', next⟩, k1, k2⟩ := (template_at plain_ok.cfg rfl .multiple h).some g1
      rw [k1] at hsafe
      refine Fails.ok k1 ?_
      have hres : Result (parseReprFuzzy r'') (partOf n (L.point (L.afterSign CONFIG s)) item) := item_result rfl k2.1 hi
      rw [g2] at hres
      obtain ⟨o, o1, o2⟩ := hres
      obtain ⟨t', p1, p2⟩ := addOutput_total ht o2
      refine Fails.ok o1 (Fails.ok p1 ?_)
      cases next with
      | none => exact absurd k2.2.2 h3
      | some c' =>
        obtain ⟨-, hat⟩ : rest ≠ [] ∧ At I 1 c' rest := k2.2.2
        have hm := hsafe.2 c' rfl
        exact ih _ p2 (tidy_text (tidy_sign htidy h1) h2) (hat.le (Nat.zero_le _)) (by have := hm.2.1; omega)

/-- a text is a relative time or has a mistake -/
theorem relative_or_mistake (n : Nat) (s : Bytes) (hn : s.length ≤ n) (h : Tidy s) :
    (∃ l, RelativeTime s l) ∨ ∃ f, GnuMistake s f := by
  induction n generalizing s with
  | zero =>
    have : s = [] := List.length_eq_zero_iff.1 (by omega)
    subst this
    exact Or.inr ⟨_, .empty⟩
  | succ n ih =>
    rcases sign_cases CONFIG s with rfl | ⟨f, hf⟩ | ⟨neg, r, h1, h2⟩
    · exact Or.inr ⟨_, .empty⟩
    · cases hf with
      | noNumber hb => exact Or.inr ⟨_, .sign hb⟩
      | @delimiters b r hb _ hd => exact (tidy_onlyDelims (tidy_suffix (a := [b]) h) hd).elim
    · have hs := (sign_gnu.1 h1).1
      have hr := tidy_sign h hs
      rcases multi_total TIME_UNITS (some TIME_KEYWORDS) (some NUMERALS) CONFIG r h2 with ⟨item, rest, h3⟩ | ⟨f, h3⟩
      · cases hp : partOf neg (L.point r) item with
        | none =>
          obtain ⟨f, hf⟩ := rejected_mistake hr h3 hp
          exact Or.inr ⟨f, .part hs hf⟩
        | some part =>
          have hg := multi_gnu h3 hp
          by_cases hne : rest = []
          · subst hne
            exact Or.inl ⟨_, .last hs hg⟩
          · have hlt : rest.length < s.length := step_less hs hg
            rcases ih rest (by omega) (tidy_text hr hg) with ⟨l, hl⟩ | ⟨f, hf⟩
            · exact Or.inl ⟨_, .more hs hg hl⟩
            · exact Or.inr ⟨f, .later hs hg hne hf⟩
      · exact Or.inr ⟨f, .part hs (multi_mistake hr h3)⟩

end Fundu.Gnu
