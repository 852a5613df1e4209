import Verif.Proofs.Options
/-!
# Allowing more does not change the reading of a sequence of durations
-/
namespace Fundu.Props
open Fundu Fundu.Spec Fundu.Gnu

variable {cfg cfg' : Config} {units units' : TimeUnitsLike} {keywords : Option TimeUnitsLike} {numerals : Option NumbersLike}

/-- a byte which ends a word -/
def EndByte (cfg : Config) (b : UInt8) : Prop := IsDelimiter cfg b ∨ NextDuration b

theorem split_exists (p : UInt8 → Prop) (s : Bytes) : ∃ w r, Split p s w r := by
  classical
  induction s with
  | nil => exact ⟨[], [], split_nil not_startsWith_nil⟩
  | cons b s ih =>
    by_cases hb : p b
    · obtain ⟨w, r, h1, h2, h3⟩ := ih
      refine ⟨b :: w, r, by rw [h1]; rfl, ?_, h3⟩
      intro c hc
      rcases List.mem_cons.1 hc with rfl | hc
      · exact hb
      · exact h2 c hc
    · exact ⟨[], b :: s, split_nil (by rw [startsWith_cons]; exact hb)⟩

theorem split_sub {p q : UInt8 → Prop} (hpq : ∀ b, p b → q b) {s a r b t : Bytes} (h : Split p s a r) (h' : Split q s b t) :
    ∃ c, b = a ++ c ∧ r = c ++ t := by
  obtain ⟨h1, h2, h3⟩ := h
  obtain ⟨k1, k2, k3⟩ := h'
  rw [h1] at k1
  rcases List.append_eq_append_iff.1 k1 with ⟨x, rfl, rfl⟩ | ⟨x, rfl, rfl⟩
  · exact ⟨x, rfl, rfl⟩
  · cases x with
    | nil => exact ⟨[], by simp, by simp⟩
    | cons c x => exact absurd ⟨c, x ++ r, rfl, hpq c (h2 c (by simp))⟩ k3

theorem keywordEnd_iff (hd : ∀ b, cfg.innerDelimiter b = true → cfg.outerDelimiter b = true) (b : UInt8) :
    KeywordEnd cfg b ↔ EndByte cfg b := by
  unfold KeywordEnd EndByte IsDelimiter
  have := hd b
  tauto

theorem unitEnd_iff (hd : ∀ b, cfg.innerDelimiter b = true → cfg.outerDelimiter b = true) (b : UInt8) :
    UnitEnd cfg b ↔ EndByte cfg b := by
  unfold UnitEnd EndByte IsDelimiter
  have := hd b
  tauto

theorem endByte_more (hm : AllowsMore cfg cfg') (b : UInt8) : EndByte cfg' b ↔ EndByte cfg b := by
  unfold EndByte IsDelimiter; rw [hm.inner, hm.outer]

theorem wordIn_congr {p q : UInt8 → Prop} (h : ∀ b, p b ↔ q b) {table : TimeUnitsLike} {s rest : Bytes} {u}
    (hw : WordIn p table s u rest) : WordIn q table s u rest := by
  obtain ⟨w, h1, h2, h3⟩ := hw
  exact ⟨w, split_congr (fun b => not_congr (h b)) h1, h2, h3⟩

theorem connection_more (hm : AllowsMore cfg cfg') {s r : Bytes} (h : Connection cfg s r) : Connection cfg' s r := by
  cases h with
  | absent h => exact .absent (by rw [hm.outer]; exact h)
  | delims h1 h2 h3 h4 => exact .delims (by rw [hm.outer]; exact h1) h2 h3 (by rw [hm.conjunctions]; exact h4)
  | conjunction h1 h2 h3 h4 h5 h6 h7 h8 =>
    exact .conjunction (by rw [hm.outer]; exact h1) h2 (by rw [hm.conjunctions]; exact h3) h4 h5
      (by rw [hm.outer]; exact h6) h7 h8

/-- the first word of one of several durations -/
theorem first_word (hd : ∀ b, cfg.innerDelimiter b = true → cfg.outerDelimiter b = true)
    (ho : Orderly cfg units keywords numerals) {s rest w t : Bytes} {item : Item}
    (h : MultiText cfg units keywords numerals s item rest) (hw : Split (¬ EndByte cfg ·) s w t) :
    (StartsWith IsDigit s ∨ StartsWith (· = 46) s) ∨ (∃ r, AfterWord (b! "inf") s r) ∨
    (∃ k v, keywords = some k ∧ k.get w = some v) ∨
    (cfg.numberIsOptional = true ∧ ∃ v, units.get w = some v) ∨ (∃ n q, numerals = some n ∧ n w = some q) := by
  cases h with
  | numberEnd h => exact Or.inl (numberText_head h)
  | numberUnit h => exact Or.inl (numberText_head h)
  | number h => exact Or.inl (numberText_head h)
  | inf _ h => exact Or.inr (Or.inl ⟨_, h⟩)
  | infinity _ h => exact Or.inr (Or.inl ⟨_, h⟩)
  | keyword _ h1 h2 =>
    obtain ⟨w', k1, -, k2⟩ := wordIn_congr (keywordEnd_iff hd) h2
    obtain ⟨rfl, rfl⟩ := split_unique hw k1
    exact Or.inr (Or.inr (Or.inl ⟨_, _, h1, k2⟩))
  | unit _ _ h1 h2 =>
    cases h2 with
    | mk h2 _ _ =>
      obtain ⟨w', k1, -, k2⟩ := wordIn_congr (unitEnd_iff hd) h2
      obtain ⟨rfl, rfl⟩ := split_unique hw k1
      exact Or.inr (Or.inr (Or.inr (Or.inl ⟨h1, _, k2⟩)))
  | numeral _ _ _ h1 h2 h3 h4 =>
    have hid : IsIdentifier units keywords numerals _ := Or.inr (Or.inr ⟨_, _, h1, h4⟩)
    rw [h2.1] at hw
    obtain ⟨rfl, -⟩ := word_unique (p := EndByte cfg)
      (fun b hb => by
        have := ho.plain _ hid b hb
        rintro (k | k)
        · exact this.1 k
        · exact this.2 k)
      ((not_startsWith_not h2.2.2).imp id (startsWith_mono fun b hb => Or.inl (Or.inl hb))) hw
    exact Or.inr (Or.inr (Or.inr (Or.inr ⟨_, _, h1, h4⟩)))

/-- the text is the start of a further duration -/
def Begins (cfg : Config) (units : TimeUnitsLike) (keywords : Option TimeUnitsLike) (numerals : Option NumbersLike)
    (s : Bytes) : Prop :=
  ∃ neg r item rest, SignPart cfg s neg r ∧ MultiText cfg units keywords numerals r item rest

theorem endByte_split {s w t : Bytes} (hw : Split (¬ EndByte cfg ·) s w t) : t = [] ∨ StartsWith (EndByte cfg) t :=
  not_startsWith_not hw.2.2

/-- the first word of a further duration is not an additional unit -/
theorem begins_word (hd : ∀ b, cfg.innerDelimiter b = true → cfg.outerDelimiter b = true)
    (hu : UnitsMore units units') (ho : Orderly cfg units' keywords numerals) {s w t : Bytes} {v}
    (h : Begins cfg units keywords numerals s) (hw : Split (¬ EndByte cfg ·) s w t) (hv : units'.get w = some v) :
    cfg.numberIsOptional = true ∧ ∃ v, units.get w = some v := by
  obtain ⟨neg, r, item, rest, h1, h2⟩ := h
  have hid : IsIdentifier units' keywords numerals w := Or.inl ⟨v, hv⟩
  have hne := ho.nonempty w hid
  have hpl := ho.plain w hid
  have hs : s = w ++ t := hw.1
  have hnot : ∀ p : UInt8 → Prop, (∀ b, p b → NextDuration b) → ¬ StartsWith p s := by
    rintro p hp ⟨b, l, e, hb⟩
    rw [hs] at e
    cases w with
    | nil => exact hne rfl
    | cons c w =>
      cases e
      exact (hpl _ (by simp)).2 (hp _ hb)
  cases h1 with
  | plus => exact absurd ⟨43, _, rfl, rfl⟩ (hnot (· = 43) (fun b hb => Or.inr (Or.inl hb)))
  | minus => exact absurd ⟨45, _, rfl, rfl⟩ (hnot (· = 45) (fun b hb => Or.inr (Or.inr hb)))
  | absent =>
    rcases first_word hd (ho.more hu) h2 hw with (h | h) | ⟨x, h⟩ | ⟨k, v', h, h'⟩ | h | ⟨n, q, h, h'⟩
    · exact absurd h (hnot _ (fun b hb => Or.inl hb))
    · exfalso
      obtain ⟨b, l, e, hb⟩ := h
      rw [hs] at e
      cases w with
      | nil => exact hne rfl
      | cons c w => cases e; exact ho.point _ hid ⟨_, _, rfl, hb⟩
    · rw [hs] at h
      exact absurd ⟨x, h⟩ (ho.not_inf hid (endByte_split hw))
    · have := ho.unitsKeywords k h _ _ hv
      rw [h'] at this; cases this
    · exact h
    · have := ho.unitsNumerals n h _ _ hv
      rw [h'] at this; cases this

/-- the start of a further duration is not the word `ago` -/
theorem begins_ago (hd : ∀ b, cfg.innerDelimiter b = true → cfg.outerDelimiter b = true)
    (ho : Orderly cfg units keywords numerals) {s : Bytes} (h : Begins cfg units keywords numerals s) :
    ¬ ∃ t, AgoText cfg s t := by
  rintro ⟨t, ⟨x, rfl, hx⟩, ht⟩
  obtain ⟨neg, r, item, rest, h1, h2⟩ := h
  have hl := sameText_letters hx ago_letters
  have hxe : ∀ b, IsLetter b → ¬ EndByte cfg b := by
    rintro b hb (k | k | rfl | rfl)
    · exact (ho.delimiters b k).1 hb
    · unfold IsLetter at hb; unfold IsDigit at k; omega
    · revert hb; decide
    · revert hb; decide
  have ht' : t = [] ∨ StartsWith (EndByte cfg) t := ht.imp_right (startsWith_mono fun b => (keywordEnd_iff hd b).1)
  have hw : Split (¬ EndByte cfg ·) (x ++ t) x t := by
    refine split_of (fun b hb => hxe b (hl b hb)) ?_
    rcases ht' with rfl | ⟨b, l, rfl, hb⟩
    · exact not_startsWith_nil
    · rw [startsWith_cons]; exact fun k => k hb
  have hx0 : ∃ c x', x = c :: x' ∧ IsLetter c := by
    cases x with
    | nil => exact absurd hx (by decide)
    | cons c x' => exact ⟨c, x', rfl, hl c (by simp)⟩
  have hnot : ∀ p : UInt8 → Prop, (∀ b, p b → ¬ IsLetter b) → ¬ StartsWith p (x ++ t) := by
    rintro p hp ⟨b, l, e, hb⟩
    obtain ⟨c, x', rfl, hc⟩ := hx0
    cases e
    exact hp _ hb hc
  have hsign : ∃ b, x ++ t = b := ⟨_, rfl⟩
  generalize hxt : x ++ t = s at *
  cases h1 with
  | plus => exact hnot (· = 43) (by rintro b rfl; decide) ⟨43, _, rfl, rfl⟩
  | minus => exact hnot (· = 45) (by rintro b rfl; decide) ⟨45, _, rfl, rfl⟩
  | absent =>
    rcases first_word hd ho h2 hw with (h | h) | ⟨y, h⟩ | ⟨k, v', h, h'⟩ | ⟨-, v, h⟩ | ⟨n, q, h, h'⟩
    · exact hnot _ (fun b hb => by unfold IsLetter; unfold IsDigit at hb; omega) h
    · exact hnot (· = 46) (by rintro b rfl; decide) h
    · rw [← hxt] at h
      obtain ⟨y', ⟨z, rfl, hz⟩, -⟩ := afterWord_of_append inf_letters (ho.not_letter ht') h
      unfold SameText at hx hz
      rw [List.map_append, hz] at hx
      revert hx
      cases y'.map lower with
      | nil => decide
      | cons a l => exact fun h => absurd (List.head_eq_of_cons_eq h) (by decide)
    · exact ho.ago x (Or.inr (Or.inl ⟨_, _, h, h'⟩)) hx
    · exact ho.ago x (Or.inl ⟨_, h⟩) hx
    · exact ho.ago x (Or.inr (Or.inr ⟨_, _, h, h'⟩)) hx

theorem starts_of_split {p : UInt8 → Prop} {s ds r : Bytes} (h : Split p s ds r) (hne : ds ≠ []) : StartsWith p s := by
  obtain ⟨rfl, k, -⟩ := h
  cases ds with
  | nil => exact absurd rfl hne
  | cons b ds => exact ⟨b, _, rfl, k b (by simp)⟩

theorem not_agoText_delim (ho : Orderly cfg units keywords numerals) {s : Bytes} (h : StartsWith (IsDelimiter cfg) s) :
    ¬ ∃ t, AgoText cfg s t := by
  rintro ⟨t, ⟨x, rfl, hx⟩, -⟩
  have hl := sameText_letters hx ago_letters
  cases x with
  | nil => exact absurd hx (by decide)
  | cons c x =>
    rw [List.cons_append, startsWith_cons] at h
    exact (ho.delimiters c h).1 (hl c (by simp))

/-- in front of a connection to a further duration there is no `ago` -/
theorem connection_no_ago (hd : ∀ b, cfg.innerDelimiter b = true → cfg.outerDelimiter b = true)
    (ho : Orderly cfg units keywords numerals)
    (hc : ∀ w ∈ cfg.conjunctions.getD [], (¬ ∃ x, SameText (w ++ x) (b! "ago")) ∧ ¬ ∃ r, AfterWord (b! "ago") w r)
    {r rest ds r1 : Bytes} (h : Connection cfg r rest) (hb : rest = [] ∨ Begins cfg units keywords numerals rest)
    (hr : StartsWith (cfg.innerDelimiter · = true) r) (hs : Split (cfg.innerDelimiter · = true) r ds r1) :
    r1 ≠ [] ∧ ¬ ∃ t, AgoText cfg r1 t := by
  cases h with
  | absent h => exact absurd (startsWith_mono hd hr) h
  | delims h1 h2 h3 h4 =>
    obtain ⟨c, rfl, rfl⟩ := split_sub hd hs h1
    refine ⟨by simp [h3], ?_⟩
    cases c with
    | nil => exact begins_ago hd ho (hb.resolve_left h3)
    | cons b c =>
      exact not_agoText_delim ho ⟨b, c ++ rest, rfl, Or.inr (h1.2.1 b (by simp))⟩
  | conjunction h1 h2 h3 h4 h5 h6 h7 h8 =>
    obtain ⟨c, rfl, rfl⟩ := split_sub hd hs h1
    rename_i r0 before w after r' ds'
    have hr' : r' ≠ [] := by rw [h6.1]; simp [h7]
    obtain ⟨x, rfl, hx⟩ := h5
    refine ⟨by simp [hr'], ?_⟩
    cases c with
    | cons b c =>
      exact not_agoText_delim ho ⟨b, c ++ (x ++ r'), rfl, Or.inr (h1.2.1 b (by simp))⟩
    | nil =>
      rintro ⟨t, ⟨y, hy, hy'⟩, -⟩
      rw [List.nil_append] at hy
      obtain ⟨g1, g2⟩ := hc w (by rw [h3]; simp)
      rcases List.append_eq_append_iff.1 hy with ⟨z, rfl, -⟩ | ⟨z, rfl, -⟩
      · refine g1 ⟨z, ?_⟩
        unfold SameText at *
        rw [List.map_append, ← hx, ← List.map_append, hy']
      · obtain ⟨a, b, rfl, k1, k2⟩ := same_append hx
        exact g2 ⟨b, a, rfl, same_trans (same_symm k1) hy'⟩

theorem agoText_more (hm : AllowsMore cfg cfg') {s t : Bytes} : AgoText cfg' s t ↔ AgoText cfg s t := by
  unfold AgoText KeywordEnd
  rw [hm.outer]

theorem more_unitMulti (hm : AllowsMore cfg cfg') (hk : CompatibleMultiple cfg cfg') (hu : UnitsMore units units')
    (ho : Orderly cfg units' keywords numerals) {s rest : Bytes} {u} (h : UnitMulti cfg units s u rest)
    (hb : rest = [] ∨ Begins cfg units keywords numerals rest) : UnitMulti cfg' units' s u rest := by
  have hd := hk.delimiters
  have hd' : ∀ b, cfg'.innerDelimiter b = true → cfg'.outerDelimiter b = true := by
    rw [hm.inner, hm.outer]; exact hd
  cases h with
  | mk h1 h2 h3 =>
    obtain ⟨w, k1, k2, k3⟩ := h1
    refine .mk ⟨w, split_congr (fun b => not_congr ?_) k1, k2, hu.get _ _ k3⟩ ?_ (connection_more hm h3)
    · rw [unitEnd_iff hd, unitEnd_iff hd', endByte_more hm]
    · cases h2 with
      | absent g =>
        cases ha : cfg'.allowAgo with
        | false => exact .absent (by rw [ha]; intro h; cases h)
        | true =>
          rename_i m r
          by_cases hr : StartsWith (cfg.innerDelimiter · = true) r
          · cases ha' : cfg.allowAgo with
            | true => exact absurd hr (g ha')
            | false =>
              have hc := hk.ago.resolve_left (by rw [ha, ha']; decide)
              obtain ⟨ds, r1, hs⟩ := split_exists (cfg.innerDelimiter · = true) r
              obtain ⟨q1, q2⟩ := connection_no_ago hd (ho.more hu) hc h3 hb hr hs
              refine .other ha (by rw [hm.inner]; exact hs) ?_ q1 (by simpa only [agoText_more hm] using q2)
              rintro rfl
              rw [hs.1] at hr
              exact hs.2.2 hr
          · exact .absent (by rw [hm.inner]; exact fun _ => hr)
      | other g1 g2 g3 g4 g5 =>
        exact .other (hm.ago g1) (by rw [hm.inner]; exact g2) g3 g4 (by simpa only [agoText_more hm] using g5)
      | ago g1 g2 g3 g4 =>
        exact .ago (hm.ago g1) (by rw [hm.inner]; exact g2) g3 ((agoText_more hm).2 g4)

/-- one of several durations does not start with a delimiter -/
theorem multi_start (ho : Orderly cfg units keywords numerals) {s rest : Bytes} {item : Item}
    (h : MultiText cfg units keywords numerals s item rest) : ¬ StartsWith (IsDelimiter cfg) s := by
  cases h with
  | numberEnd h => exact digit_not_delimiter ho h
  | numberUnit h => exact digit_not_delimiter ho h
  | number h => exact digit_not_delimiter ho h
  | inf _ h => exact inf_not_delimiter ho h
  | infinity _ h => exact inf_not_delimiter ho h
  | keyword _ h1 h2 =>
    obtain ⟨w, k1, -, k2⟩ := h2
    rw [k1.1]
    exact ho.start (Or.inr (Or.inl ⟨_, _, h1, k2⟩))
  | unit _ _ _ h =>
    cases h with
    | mk h _ _ =>
      obtain ⟨w, k1, -, k2⟩ := h
      rw [k1.1]
      exact ho.start (Or.inl ⟨_, k2⟩)
  | numeral _ _ _ h1 h2 h3 h4 =>
    rw [h2.1]
    exact ho.start (Or.inr (Or.inr ⟨_, _, h1, h4⟩))

theorem unitMulti_identifier {s rest : Bytes} {u} (hd : ∀ b, cfg.innerDelimiter b = true → cfg.outerDelimiter b = true)
    (h : UnitMulti cfg units s u rest) : ∃ id r v, s = id ++ r ∧ units.get id = some v ∧
      (r = [] ∨ StartsWith (EndByte cfg) r) := by
  cases h with
  | mk h1 _ _ =>
    obtain ⟨w, k1, -, k2⟩ := wordIn_congr (unitEnd_iff hd) h1
    exact ⟨w, _, _, k1.1, k2, endByte_split k1⟩

/-- no unit at the place where a connection starts -/
theorem no_unit_at_delim (hd : ∀ b, cfg.innerDelimiter b = true → cfg.outerDelimiter b = true) {s : Bytes}
    (h : StartsWith (cfg.outerDelimiter · = true) s) : ¬ ∃ u t, WordIn (UnitEnd cfg) units s u t := by
  rintro ⟨u, t, w, k1, k2, -⟩
  obtain ⟨b, l, rfl, hb⟩ := h
  obtain ⟨e, k3, -⟩ := k1
  cases w with
  | nil => exact k2 rfl
  | cons c w =>
    cases e
    exact k3 _ (by simp) (Or.inr (Or.inl hb))

theorem more_multi (hm : AllowsMore cfg cfg') (hk : CompatibleMultiple cfg cfg') (hu : UnitsMore units units')
    (ho : Orderly cfg units' keywords numerals) {s rest : Bytes} {item : Item}
    (h : MultiText cfg units keywords numerals s item rest)
    (hb : rest = [] ∨ Begins cfg units keywords numerals rest) : MultiText cfg' units' keywords numerals s item rest := by
  have hd := hk.delimiters
  have hd' : ∀ b, cfg'.innerDelimiter b = true → cfg'.outerDelimiter b = true := by
    rw [hm.inner, hm.outer]; exact hd
  have ho' := orderly_more hm ho
  have hkey : ∀ {k : TimeUnitsLike} {s : Bytes} {u r}, WordIn (KeywordEnd cfg') k s u r ↔ WordIn (KeywordEnd cfg) k s u r := by
    intro k s u r
    have : ∀ b, KeywordEnd cfg' b ↔ KeywordEnd cfg b := by
      intro b; rw [keywordEnd_iff hd, keywordEnd_iff hd', endByte_more hm]
    exact ⟨wordIn_congr this, wordIn_congr fun b => (this b).symm⟩
  cases h with
  | numberEnd h => exact .numberEnd (more_number hm h)
  | numberUnit h1 h2 h3 h4 =>
    refine .numberUnit (more_number hm h1) ?_ (bool_more hu.isEmpty h3) (more_unitMulti hm hk hu ho h4 hb)
    rw [hm.inner]
    refine afterDelims_more hm.unitDelimiter h2 ?_
    obtain ⟨id, r, v, rfl, h, -⟩ := unitMulti_identifier hd h4
    exact ho.start_inner (hu.identifier h)
  | number h1 h2 h3 h4 h5 =>
    rename_i W F e r r'
    -- the next duration starts at `t`, without a unit in front of it
    have key : ∀ t : Bytes, Begins cfg units keywords numerals t →
        (cfg.numberIsOptional = true → units.isEmpty = false → ¬ ∃ u x, WordIn (UnitEnd cfg) units t u x) →
        ¬ ∃ u x, WordIn (UnitEnd cfg') units' t u x := by
      rintro t ht hno ⟨u, x, hw⟩
      obtain ⟨w, k1, k2, k3⟩ := wordIn_congr (fun b => (unitEnd_iff hd' b).trans (endByte_more hm b)) hw
      obtain ⟨g1, v, g2⟩ := begins_word hd hu ho ht k1 k3
      cases he : units.isEmpty with
      | true => rw [hu.empty he] at g2; cases g2
      | false =>
        exact hno g1 he ⟨v, x, w, split_congr (fun b => not_congr (unitEnd_iff hd b).symm) k1, k2, g2⟩
    have hrest : rest ≠ [] := by
      cases h5 with
      | absent => exact h3
      | delims _ _ k => exact k
      | conjunction _ _ _ _ _ _ k => exact k
    have hbeg := hb.resolve_left hrest
    have hsame : ¬ (cfg'.allowTimeUnitDelimiter = true ∧ cfg.allowTimeUnitDelimiter = false) →
        MultiText cfg' units' keywords numerals s (.number W F e none) rest := by
      intro hne
      refine .number (more_number hm h1) ?_ h3 ?_ (connection_more hm h5)
      · rw [hm.inner]
        have : cfg'.allowTimeUnitDelimiter = cfg.allowTimeUnitDelimiter := by
          have := hm.unitDelimiter
          revert this hne
          cases cfg'.allowTimeUnitDelimiter <;> cases cfg.allowTimeUnitDelimiter <;> simp
        rw [this]; exact h2
      · intro _
        cases h5 with
        | absent => exact key _ hbeg (fun _ => h4)
        | delims k1 k2 _ _ =>
          exact no_unit_at_delim hd' (by rw [hm.outer]; exact starts_of_split k1 k2)
        | conjunction k1 k2 =>
          exact no_unit_at_delim hd' (by rw [hm.outer]; exact starts_of_split k1 k2)
    by_cases hne : cfg'.allowTimeUnitDelimiter = true ∧ cfg.allowTimeUnitDelimiter = false
    · obtain ⟨ha', ha⟩ := hne
      obtain ⟨hc, hopt⟩ := hk.unitDelimiter.resolve_left (by rw [ha, ha']; decide)
      have he : r' = r := by rw [ha] at h2; exact h2
      subst he
      have key' : ¬ ∃ u x, WordIn (UnitEnd cfg') units' rest u x :=
        key rest hbeg (fun h => by rw [hopt] at h; cases h)
      cases h5 with
      | absent k =>
        refine .number (more_number hm h1) ?_ h3 (fun _ => key') (.absent (by rw [hm.outer]; exact k))
        rw [hm.inner]
        exact afterDelims_self _ fun q => k (startsWith_mono hd q)
      | delims k1 k2 k3 k4 =>
        obtain ⟨ds1, r1, hs⟩ := split_exists (cfg.innerDelimiter · = true) r'
        obtain ⟨c, rfl, rfl⟩ := split_sub hd hs k1
        have had : AfterDelims cfg'.allowTimeUnitDelimiter cfg'.innerDelimiter r' (c ++ rest) := by
          rw [ha', hm.inner]; exact ⟨ds1, hs⟩
        have hc1 : Split (cfg.outerDelimiter · = true) (c ++ rest) c rest :=
          ⟨rfl, fun b hb => k1.2.1 b (by simp [hb]), k1.2.2⟩
        cases c with
        | nil =>
          refine .number (more_number hm h1) had (by simpa using h3 ∘ fun h => absurd h hrest) ?_ (.absent ?_)
          · intro _; exact key'
          · rw [hm.outer]; exact k1.2.2
        | cons b c =>
          refine .number (more_number hm h1) had (by simp) ?_ (.delims (by rw [hm.outer]; exact hc1) (by simp) k3 ?_)
          · intro _
            exact no_unit_at_delim hd' ⟨b, _, rfl, by rw [hm.outer]; exact k1.2.1 b (by simp)⟩
          · rw [hm.conjunctions]; exact k4
      | conjunction _ _ k3 =>
        rw [hc] at k3
        exact absurd k3 (by simp)
    · exact hsame hne
  | inf h1 h2 h3 h4 =>
    exact .inf (bool_more hm.infinity h1) h2 (by rw [hm.outer]; exact h3) (connection_more hm h4)
  | infinity h1 h2 h3 h4 h5 h6 =>
    exact .infinity (bool_more hm.infinity h1) h2 (by rw [hm.outer]; exact h3) h4 (by rw [hm.outer]; exact h5)
      (connection_more hm h6)
  | keyword h1 h2 h3 h4 =>
    refine .keyword ?_ h2 (hkey.2 h3) (connection_more hm h4)
    obtain ⟨w, k1, -, k2⟩ := wordIn_congr (keywordEnd_iff hd) h3
    rw [k1.1]
    exact more_wordStart ho (Or.inr (Or.inl ⟨_, _, h2, k2⟩)) (endByte_split k1) (by rw [← k1.1]; exact h1)
  | unit h1 h2 h3 h4 =>
    refine .unit ?_ (fun k hk => by simpa only [hkey] using h2 k hk) (hm.optional h3) (more_unitMulti hm hk hu ho h4 hb)
    obtain ⟨id, r, v, rfl, h, hr⟩ := unitMulti_identifier hd h4
    exact more_wordStart ho (hu.identifier h) hr h1
  | numeral h1 h2 h3 h4 h5 h6 h7 h8 h9 h10 =>
    rename_i n w r1 q ds r2 u
    have hid : IsIdentifier units' keywords numerals w := Or.inr (Or.inr ⟨_, _, h4, h7⟩)
    have hr : r1 = [] ∨ StartsWith (EndByte cfg) r1 :=
      (not_startsWith_not h5.2.2).imp id (startsWith_mono fun b hb => Or.inl (Or.inl hb))
    refine .numeral ?_ (fun k hk => by simpa only [hkey] using h2 k hk) ?_ h4 (by rw [hm.inner]; exact h5) h6 h7
      (by rw [hm.inner]; exact h8) h9 (more_unitMulti hm hk hu ho h10 hb)
    · rw [h5.1]
      exact more_wordStart ho hid hr (by rw [← h5.1]; exact h1)
    · rintro - ⟨v, x, hw⟩
      obtain ⟨w', k1, k2, k3⟩ := wordIn_congr (fun b => (unitEnd_iff hd' b).trans (endByte_more hm b)) hw
      rw [h5.1] at k1
      obtain ⟨rfl, -⟩ := word_unique (p := EndByte cfg)
        (fun b hb => by
          have := ho.plain _ hid b hb
          rintro (k | k)
          · exact this.1 k
          · exact this.2 k) hr k1
      have := ho.unitsNumerals n h4 _ _ k3
      rw [h7] at this; cases this

theorem durations_begins {s : Bytes} {l : List (Bool × Item)} (h : Durations cfg units keywords numerals s l) :
    Begins cfg units keywords numerals s := by
  cases h with
  | last h1 h2 => exact ⟨_, _, _, _, h1, h2⟩
  | more h1 h2 _ _ => exact ⟨_, _, _, _, h1, h2⟩

theorem more_durations (hm : AllowsMore cfg cfg') (hk : CompatibleMultiple cfg cfg') (hu : UnitsMore units units')
    (ho : Orderly cfg units' keywords numerals) {s : Bytes} {l : List (Bool × Item)}
    (h : Durations cfg units keywords numerals s l) : Durations cfg' units' keywords numerals s l := by
  have hs : ∀ {s r rest : Bytes} {neg : Bool} {item : Item}, SignPart cfg s neg r →
      MultiText cfg units keywords numerals r item rest → SignPart cfg' s neg r := fun h1 h2 =>
    more_sign hm h1 fun k => multi_start (ho.more hu) h2 (startsWith_mono (fun _ => Or.inl) k)
  induction h with
  | last h1 h2 => exact .last (hs h1 h2) (more_multi hm hk hu ho h2 (Or.inl rfl))
  | more h1 h2 h3 h4 ih => exact .more (hs h1 h2) (more_multi hm hk hu ho h2 (Or.inr (durations_begins h4))) h3 ih

theorem more_denotesMultiple (hm : AllowsMore cfg cfg') (hk : CompatibleMultiple cfg cfg') (hu : UnitsMore units units')
    (ho : Orderly cfg units' keywords numerals) {s : Bytes} {ds : List Duration}
    (h : DenotesMultiple cfg units keywords numerals s ds) : DenotesMultiple cfg' units' keywords numerals s ds := by
  obtain ⟨items, h1, h2⟩ := h
  exact ⟨items, more_durations hm hk hu ho h1, h2.imp fun _ _ h => more_denotes hm h⟩

/-! ## One duration where several are allowed -/

/-- the settings of a parser of several durations -/
def asMultiple (cfg : Config) (conjunctions : Option (List Bytes)) : Config :=
  { cfg with allowMultiple := true, conjunctions := conjunctions }

theorem endByte_of_identifier (ho : Orderly cfg units keywords numerals) {id : Bytes}
    (h : IsIdentifier units keywords numerals id) : ∀ b ∈ id, ¬ EndByte cfg b := by
  intro b hb
  have := ho.plain _ h b hb
  rintro (k | k)
  · exact this.1 k
  · exact this.2 k

theorem unitMulti_of_single (hd : ∀ b, cfg.innerDelimiter b = true → cfg.outerDelimiter b = true)
    (ho : Orderly cfg units keywords numerals) (conj : Option (List Bytes)) {s : Bytes} {u}
    (h : UnitSingle cfg units s u []) : UnitMulti (asMultiple cfg conj) units s u [] := by
  have hend : ∀ b, UnitEnd (asMultiple cfg conj) b ↔ EndByte cfg b := fun b => unitEnd_iff (cfg := asMultiple cfg conj) hd b
  have hconn : Connection (asMultiple cfg conj) [] [] := .absent not_startsWith_nil
  have hwhole : ∀ {v}, units.get s = some v → UnitMulti (asMultiple cfg conj) units s v [] := by
    intro v hv
    have hid : IsIdentifier units keywords numerals s := Or.inl ⟨v, hv⟩
    refine .mk (m' := v.2) ⟨s, split_self (fun b hb => ?_), ho.nonempty s hid, hv⟩ (.absent fun _ => not_startsWith_nil) hconn
    show ¬ UnitEnd _ b
    rw [hend]
    exact endByte_of_identifier ho hid b hb
  cases h with
  | whole _ h => exact hwhole h
  | plain _ _ _ h => exact hwhole h
  | ago h1 h2 h3 h4 h5 h6 =>
    rename_i w r t m ds r'
    have hid : IsIdentifier units keywords numerals w := Or.inl ⟨_, h4⟩
    have hr := not_startsWith_not h2.2.2
    refine .mk ⟨w, ⟨h2.1, fun b hb => by show ¬ UnitEnd _ b; rw [hend]; exact endByte_of_identifier ho hid b hb, ?_⟩, h3, h4⟩
      (.ago h1 h5 ?_ ⟨h6, Or.inl rfl⟩) hconn
    · rintro ⟨b, l, rfl, hb⟩
      rw [hend] at hb
      rcases hr with hr | ⟨b', l', e, hb'⟩
      · cases hr
      · cases e; exact hb (Or.inl (Or.inl hb'))
    · rintro rfl
      have he : r = r' := h5.1
      subst he
      rcases hr with rfl | hr
      · obtain ⟨x, e, hx⟩ := h6
        have : x = [] := (List.append_eq_nil_iff.1 e.symm).1
        subst this
        exact absurd hx (by decide)
      · exact h5.2.2 hr

theorem multi_of_single (hd : ∀ b, cfg.innerDelimiter b = true → cfg.outerDelimiter b = true)
    (ho : Orderly cfg units keywords numerals) (conj : Option (List Bytes)) {s : Bytes} {item : Item}
    (h : SingleText cfg units keywords numerals s item) :
    MultiText (asMultiple cfg conj) units keywords numerals s item [] := by
  have hconn : Connection (asMultiple cfg conj) [] [] := .absent not_startsWith_nil
  have hnum : ∀ {s W F e r}, NumberText cfg s W F e r → NumberText (asMultiple cfg conj) s W F e r := by
    rintro s W F e r ⟨r1, r2, h1, h2, h3⟩
    refine ⟨r1, r2, h1, ?_, ?_⟩
    · cases h2 with
      | absent k1 k2 => exact .absent k1 k2
      | present k1 k2 k3 => exact .present k1 k2 k3
    · cases h3 with
      | absent k => exact .absent k
      | present k1 k2 k3 k4 k5 k6 => exact .present k1 k2 k3 k4 k5 k6
  have hend : ∀ b, KeywordEnd (asMultiple cfg conj) b ↔ EndByte cfg b :=
    fun b => keywordEnd_iff (cfg := asMultiple cfg conj) hd b
  have hend' : ∀ b, UnitEnd (asMultiple cfg conj) b ↔ EndByte cfg b :=
    fun b => unitEnd_iff (cfg := asMultiple cfg conj) hd b
  -- the first word of a text starting with an identifier is this identifier
  have hfirst : ∀ {table : TimeUnitsLike} {id r : Bytes} {v t}, IsIdentifier units keywords numerals id →
      (r = [] ∨ StartsWith (EndByte cfg) r) → WordIn (EndByte cfg) table (id ++ r) v t → table.get id = some v := by
    rintro table id r v t hid hr ⟨w, k1, -, k3⟩
    obtain ⟨rfl, -⟩ := word_unique (p := EndByte cfg) (endByte_of_identifier ho hid) hr k1
    exact k3
  cases h with
  | number h1 h2 =>
    cases h2 with
    | absent => exact .numberEnd (hnum h1)
    | present k1 k2 k3 k4 => exact .numberUnit (hnum h1) k1 k3 (unitMulti_of_single hd ho conj k4)
  | infinity h1 h2 =>
    rcases h2 with h2 | h2
    · exact .inf h1 ⟨s, by simp, h2⟩ (Or.inl rfl) hconn
    · rw [show b! "infinity" = b! "inf" ++ b! "inity" from rfl] at h2
      obtain ⟨a, b, rfl, k1, k2⟩ := same_append (same_symm h2)
      refine .infinity h1 ⟨a, rfl, same_symm k1⟩ ?_ ⟨b, by simp, same_symm k2⟩ (Or.inl rfl) hconn
      have hl := sameText_letters (same_symm k2) inity_letters
      rintro ⟨c, l, rfl, hc⟩
      exact (ho.delimiters c (Or.inr hc)).1 (hl c (by simp))
  | keyword h1 h2 h3 =>
    have hid : IsIdentifier units keywords numerals s := Or.inr (Or.inl ⟨_, _, h2, h3⟩)
    refine .keyword h1 h2 ⟨s, split_self (fun b hb => ?_), ho.nonempty s hid, h3⟩ hconn
    rw [hend]
    exact endByte_of_identifier ho hid b hb
  | unit h1 h2 h3 h4 =>
    refine .unit h1 ?_ h3 (unitMulti_of_single hd ho conj h4)
    rintro k hk ⟨v, t, hw⟩
    obtain ⟨id, r, v', rfl, g, hr⟩ := unitSingle_identifier h4
    have := hfirst (Or.inl ⟨v', g⟩) hr (wordIn_congr hend hw)
    rw [ho.unitsKeywords k hk id v' g] at this
    cases this
  | numeral h1 h2 h3 h4 h5 h6 h7 h8 h9 h10 =>
    rename_i n w r1 q ds r2 u
    have hid : IsIdentifier units keywords numerals w := Or.inr (Or.inr ⟨_, _, h4, h7⟩)
    have hr : r1 = [] ∨ StartsWith (EndByte cfg) r1 :=
      (not_startsWith_not h5.2.2).imp id (startsWith_mono fun b hb => Or.inl (Or.inl hb))
    refine .numeral h1 ?_ ?_ h4 h5 h6 h7 h8 h9 (unitMulti_of_single hd ho conj h10)
    · rintro k hk ⟨v, t, hw⟩
      rw [h5.1] at hw
      have := hfirst hid hr (wordIn_congr hend hw)
      have := ho.keywordsNumerals k n hk h4 w v this
      rw [h7] at this; cases this
    · rintro - ⟨v, t, hw⟩
      rw [h5.1] at hw
      have := hfirst hid hr (wordIn_congr hend' hw)
      have := ho.unitsNumerals n h4 w v this
      rw [h7] at this; cases this

theorem denotesMultiple_of_single (hd : ∀ b, cfg.innerDelimiter b = true → cfg.outerDelimiter b = true)
    (ho : Orderly cfg units keywords numerals) (conj : Option (List Bytes)) {s : Bytes} {d : Duration}
    (h : DenotesSingle cfg units keywords numerals s d) :
    DenotesMultiple (asMultiple cfg conj) units keywords numerals s [d] := by
  obtain ⟨neg, r, item, h1, h2, h3⟩ := h
  refine ⟨[(neg, item)], .last ?_ (multi_of_single hd ho conj h2), .cons ⟨?_, h3.2⟩ .nil⟩
  · cases h1 with
    | absent k1 k2 => exact .absent k1 k2
    | plus k1 k2 => exact .plus k1 k2
    | minus k1 k2 => exact .minus k1 k2
  · cases h3.1 with
    | number k => exact .number k
    | numberUnit k1 k2 => exact .numberUnit k1 k2
    | infinity k1 k2 => exact .infinity k1 k2
    | word k1 k2 => exact .word k1 k2
    | numeral k1 k2 k3 => exact .numeral k1 k2 k3

end Fundu.Props
