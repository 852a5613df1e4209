import Verif.Props.Permuted
import Verif.Props.Gate
import Verif.Spec.DefaultUnit
/-!
# Property C100: writing out the default time unit

The specification is `Verif/Spec/DefaultUnit.lean`.
-/
namespace Fundu.Props
open Fundu Fundu.Spec

namespace DefaultUnit

theorem split_extend {p : UInt8 → Prop} {s run r X : Bytes} (h : Split p s run r) (hX : ¬ StartsWith p X) :
    Split p (s ++ X) run (r ++ X) := by
  obtain ⟨rfl, h2, h3⟩ := h
  refine ⟨by rw [List.append_assoc], h2, ?_⟩
  cases r with
  | nil => exact hX
  | cons b l => rintro ⟨c, l', h, hc⟩; exact h3 ⟨b, l, rfl, by cases h; exact hc⟩

theorem not_start_extend {p : UInt8 → Prop} {s X : Bytes} (h : ¬ StartsWith p s) (hX : ¬ StartsWith p X) : ¬ StartsWith p (s ++ X) := by
  cases s with
  | nil => exact hX
  | cons b l => rintro ⟨c, l', h', hc⟩; exact h ⟨b, l, rfl, by cases h'; exact hc⟩

/-- a text which ends a number -/
structure Ends (X : Bytes) : Prop where
  digit : ¬ StartsWith IsDigit X
  point : ¬ StartsWith (· = 46) X
  letter : ¬ StartsWith (fun b => b = 101 ∨ b = 69) X

variable {cfg : Config} {units : TimeUnitsLike} {keywords : Option TimeUnitsLike} {numerals : Option NumbersLike}

theorem number_extend {s W F r X : Bytes} {e : Int} (h : NumberText cfg s W F e r) (hX : Ends X) :
    NumberText cfg (s ++ X) W F e (r ++ X) := by
  obtain ⟨r1, r2, h1, h2, h3⟩ := h
  refine ⟨r1 ++ X, r2 ++ X, split_extend h1 hX.digit, ?_, ?_⟩
  · cases h2 with
    | absent k1 k2 => exact .absent k1 (not_start_extend k2 hX.point)
    | present k1 k2 k3 => exact .present k1 (split_extend k2 hX.digit) k3
  · cases h3 with
    | absent k => exact .absent (not_start_extend k hX.letter)
    | present k1 k2 k3 k4 k5 k6 =>
      refine .present k1 k2 ?_ (split_extend k4 hX.digit) k5 k6
      cases k3 with
      | absent k =>
        refine .absent ?_
        rintro ⟨c, l, h, hc⟩
        obtain ⟨q, -, -⟩ := k4
        obtain ⟨b, l', rfl⟩ := List.exists_cons_of_ne_nil k5
        subst q
        exact k ⟨b, _, rfl, by cases h; exact hc⟩
      | plus => exact .plus
      | minus => exact .minus

theorem sign_extend {s r X : Bytes} {neg : Bool} (h : SignPart cfg s neg r) : SignPart cfg (s ++ X) neg (r ++ X) := by
  have hd : ∀ {r rest : Bytes}, AfterDelims cfg.allowSignDelimiter cfg.innerDelimiter r rest → rest ≠ [] →
      AfterDelims cfg.allowSignDelimiter cfg.innerDelimiter (r ++ X) (rest ++ X) := by
    intro r rest h hne
    unfold AfterDelims at h ⊢
    split
    · rename_i hs
      rw [if_pos hs] at h
      obtain ⟨ds, rfl, h2, h3⟩ := h
      refine ⟨ds, by rw [List.append_assoc], h2, ?_⟩
      obtain ⟨b, l, rfl⟩ := List.exists_cons_of_ne_nil hne
      rintro ⟨c, l', h', hc⟩
      exact h3 ⟨b, l, rfl, by cases h'; exact hc⟩
    · rename_i hs
      rw [if_neg hs] at h
      rw [h]
  cases h with
  | absent h1 h2 =>
    refine .absent (by simp [h1]) ?_
    obtain ⟨b, l, rfl⟩ := List.exists_cons_of_ne_nil h1
    rintro ⟨c, l', h', hc⟩
    exact h2 ⟨b, l, rfl, by cases h'; exact hc⟩
  | plus h1 h2 => exact .plus (hd h1 h2) (by simp [h2])
  | minus h1 h2 => exact .minus (hd h1 h2) (by simp [h2])

theorem id_plain (ho : Orderly cfg units keywords numerals) {id : Bytes} {u : TimeUnit × Multiplier} (h : units.get id = some u) :
    id ≠ [] ∧ (∀ b ∈ id, ¬ IsDelimiter cfg b ∧ ¬ NextDuration b) ∧ ¬ StartsWith (· = 46) id :=
  have hi : IsIdentifier units keywords numerals id := Or.inl ⟨u, h⟩
  ⟨ho.nonempty id hi, ho.plain id hi, ho.point id hi⟩

theorem ends_of (ho : Orderly cfg units keywords numerals) {gap id : Bytes} {u : TimeUnit × Multiplier} (h : units.get id = some u)
    (hg : ∀ b ∈ gap, cfg.innerDelimiter b = true) (he : gap = [] → ¬ StartsWith (fun b => b = 101 ∨ b = 69) id) : Ends (gap ++ id) := by
  obtain ⟨h1, h2, h3⟩ := id_plain ho h
  cases gap with
  | nil =>
    refine ⟨?_, h3, he rfl⟩
    rintro ⟨b, l, hb, hd⟩
    exact (h2 b (by rw [show id = b :: l from hb]; simp)).2 (Or.inl hd)
  | cons g l =>
    have hd : IsDelimiter cfg g := Or.inl (hg g (by simp))
    obtain ⟨k1, k2, k3⟩ := ho.delimiters g hd
    refine ⟨?_, ?_, ?_⟩
    · rintro ⟨b, l, hb, hd⟩; cases hb; exact k2 hd
    · rintro ⟨b, l, hb, hd⟩; cases hb; exact k3 hd
    · rintro ⟨b, l, hb, hd⟩; cases hb; exact k1 (by rcases hd with rfl | rfl <;> (unfold IsLetter; decide))

theorem gap_delims (ho : Orderly cfg units keywords numerals) {gap id : Bytes} {u : TimeUnit × Multiplier} (h : units.get id = some u)
    (hg : ∀ b ∈ gap, cfg.innerDelimiter b = true) (ha : gap ≠ [] → cfg.allowTimeUnitDelimiter = true) :
    AfterDelims cfg.allowTimeUnitDelimiter cfg.innerDelimiter (gap ++ id) id := by
  obtain ⟨h1, h2, h3⟩ := id_plain ho h
  unfold AfterDelims
  split
  · refine ⟨gap, rfl, hg, ?_⟩
    rintro ⟨b, l, rfl, hb⟩
    exact (h2 b (by simp)).1 (Or.inl hb)
  · rename_i hs
    by_cases hgap : gap = []
    · rw [hgap]; rfl
    · exact absurd (ha hgap) hs

theorem product_one (a : Multiplier) : product a ⟨1, 0⟩ = a := by
  unfold product
  simp

theorem fits_one (u : TimeUnit) : Fits u.multiplier ⟨1, 0⟩ := by
  cases u <;> decide

/-- both texts denote the same durations -/
theorem denotes_single (ho : Orderly cfg units keywords numerals) (he : units.isEmpty = false) {t t' : Bytes} (h : WrittenOut cfg units t t') :
    ∃ neg item item' d, Denotes cfg neg item d ∧ Denotes cfg neg item' d ∧
      (∃ r, SignPart cfg t neg r ∧ SingleText cfg units keywords numerals r item ∧ MultiText cfg units keywords numerals r item []) ∧
      ∃ r, SignPart cfg t' neg r ∧ SingleText cfg units keywords numerals r item' ∧ MultiText cfg units keywords numerals r item' [] := by
  obtain ⟨⟨neg, r, W, F, e, h1, h2⟩, gap, id, rfl, h3, h4, h5, h6⟩ := h
  obtain ⟨d, hd⟩ := value_exists neg W F e cfg.defaultUnit.multiplier
  obtain ⟨i1, i2, i3⟩ := id_plain ho h6
  have hsplit : ∀ p : UInt8 → Prop, (∀ b ∈ id, p b) → Split p id id [] := fun p hp => ⟨(List.append_nil _).symm, hp, not_startsWith_nil⟩
  have hn := number_extend h2 (ends_of ho h6 h3 h5)
  rw [List.nil_append] at hn
  refine ⟨neg, .number W F e none, .number W F e (some (cfg.defaultUnit, ⟨1, 0⟩)), d, .number hd,
    .numberUnit (fits_one _) (by rw [product_one]; exact hd), ⟨r, h1, .number h2 .absent, .numberEnd h2⟩, r ++ (gap ++ id), sign_extend h1,
    .number hn (.present (gap_delims ho h6 h3 h4) i1 he ?_), .numberUnit hn (gap_delims ho h6 h3 h4) he (.mk ⟨id, ?_, i1, h6⟩ (.absent ?_)
      (.absent not_startsWith_nil))⟩
  · cases ha : cfg.allowAgo with
    | false => exact .whole ha h6
    | true => exact .plain ha (hsplit _ fun b hb hi => (i2 b hb).1 (Or.inl hi)) i1 h6
  · refine hsplit _ fun b hb => ?_
    rintro (⟨-, h⟩ | h | h)
    · exact (i2 b hb).1 (Or.inl h)
    · exact (i2 b hb).1 (Or.inr h)
    · exact (i2 b hb).2 h
  · exact fun _ => not_startsWith_nil

theorem withNegative_same (h : cfg.allowNegative = true) : { cfg with allowNegative := true } = cfg := by
  obtain ⟨⟩ := cfg
  dsimp only at h
  subst h
  rfl

theorem withoutNegative_same (h : cfg.allowNegative = false) : { cfg with allowNegative := false } = cfg := by
  obtain ⟨⟩ := cfg
  dsimp only at h
  subst h
  rfl

theorem sign_other {c : Bool} {s r : Bytes} {neg : Bool} (h : SignPart cfg s neg r) : SignPart { cfg with allowNegative := c } s neg r := by
  cases h with
  | absent h1 h2 => exact .absent h1 h2
  | plus h1 h2 => exact .plus h1 h2
  | minus h1 h2 => exact .minus h1 h2

theorem number_other {c : Bool} {s W F r : Bytes} {e : Int} (h : NumberText cfg s W F e r) :
    NumberText { cfg with allowNegative := c } s W F e r := by
  obtain ⟨r1, r2, h1, h2, h3⟩ := h
  refine ⟨r1, r2, h1, ?_, ?_⟩
  · cases h2 with
    | absent k1 k2 => exact .absent k1 k2
    | present k1 k2 k3 => exact .present k1 k2 k3
  · cases h3 with
    | absent k => exact .absent k
    | present k1 k2 k3 k4 k5 k6 => exact .present k1 k2 k3 k4 k5 k6

theorem written_other {c : Bool} {t t' : Bytes} (h : WrittenOut cfg units t t') : WrittenOut { cfg with allowNegative := c } units t t' := by
  obtain ⟨⟨neg, r, W, F, e, h1, h2⟩, h3⟩ := h
  exact ⟨⟨neg, r, W, F, e, sign_other h1, number_other h2⟩, h3⟩

theorem orderly_other {c : Bool} (h : Orderly cfg units keywords numerals) :
    Orderly { cfg with allowNegative := c } units keywords numerals :=
  ⟨h.delimiters, h.nonempty, h.plain, h.point, h.inf, h.ago, h.unitsKeywords, h.unitsNumerals, h.keywordsNumerals⟩

/-- both texts denote the same duration if negative durations are allowed -/
theorem denotes_both (ho : Orderly cfg units keywords numerals) (he : units.isEmpty = false) {t t' : Bytes} (h : WrittenOut cfg units t t') :
    ∃ d, DenotesSingle { cfg with allowNegative := true } units keywords numerals t d ∧
      DenotesSingle { cfg with allowNegative := true } units keywords numerals t' d ∧
      DenotesMultiple { cfg with allowNegative := true } units keywords numerals t [d] ∧
      DenotesMultiple { cfg with allowNegative := true } units keywords numerals t' [d] := by
  obtain ⟨neg, item, item', d, h1, h2, ⟨r, h3, h4, h5⟩, r', h6, h7, h8⟩ :=
    denotes_single (orderly_other (c := true) ho) he (written_other (c := true) h)
  exact ⟨d, ⟨neg, r, item, h3, h4, h1, Or.inl rfl⟩, ⟨neg, r', item', h6, h7, h2, Or.inl rfl⟩,
    ⟨[(neg, item)], .last h3 h5, .cons ⟨h1, Or.inl rfl⟩ .nil⟩, ⟨[(neg, item')], .last h6 h8, .cons ⟨h2, Or.inl rfl⟩ .nil⟩⟩

end DefaultUnit

open DefaultUnit in
/-- C100: A parser of a single duration gives the same result, or the same error, whether the default time unit of a number is
written out or not. -/
theorem C100_single (cfg : Config) (units : TimeUnitsLike) (keywords : Option TimeUnitsLike) (numerals : Option NumbersLike) (t t' : Bytes)
    (ht : IsText t) (ht' : IsText t') (hc : CfgText cfg) (hm : cfg.allowMultiple = false) (ho : Orderly cfg units keywords numerals)
    (he : units.isEmpty = false) (h : WrittenOut cfg units t t') :
    parse cfg units keywords numerals t' = parse cfg units keywords numerals t := by
  obtain ⟨d, h1, h2, -, -⟩ := denotes_both ho he h
  have hc' : CfgText { cfg with allowNegative := true } := ⟨hc.inner, hc.outer, hc.conjunctions⟩
  have k1 := (C27_single _ units keywords numerals t d ht hc' hm).2 h1
  have k2 := (C27_single _ units keywords numerals t' d ht' hc' hm).2 h2
  cases hn : cfg.allowNegative with
  | true => rw [withNegative_same hn] at k1 k2; rw [k1, k2]
  | false =>
    have g1 := C64_single cfg units keywords numerals t hm
    have g2 := C64_single cfg units keywords numerals t' hm
    rw [withoutNegative_same hn, k1] at g1
    rw [withoutNegative_same hn, k2] at g2
    rw [g1, g2]

theorem written_durations {cfg : Config} {units : TimeUnitsLike} {keywords : Option TimeUnitsLike} {numerals : Option NumbersLike} {s s' : Bytes}
    {ds : List Duration} (hs : IsText s) (hs' : IsText s') (hc : CfgText cfg) (hm : cfg.allowMultiple = true)
    (hd : (∀ b, cfg.innerDelimiter b = true → cfg.outerDelimiter b = true) ∨ (keywords = none ∧ numerals = none))
    (h : DenotesMultiple { cfg with allowNegative := true } units keywords numerals s ds)
    (h' : DenotesMultiple { cfg with allowNegative := true } units keywords numerals s' ds) :
    parse cfg units keywords numerals s = parse cfg units keywords numerals s' := by
  have hc' : CfgText { cfg with allowNegative := true } := ⟨hc.inner, hc.outer, hc.conjunctions⟩
  obtain ⟨d, k1, k2⟩ := C99_same _ units keywords numerals s s' ds hs hs' hc' hm hd h h'
  cases hn : cfg.allowNegative with
  | true => rw [DefaultUnit.withNegative_same hn] at k1 k2; rw [k1, k2]
  | false =>
    have g1 := C64_multiple cfg units keywords numerals s hs hc hm hd ds h
    have g2 := C64_multiple cfg units keywords numerals s' hs' hc hm hd ds h'
    rw [DefaultUnit.withoutNegative_same hn, k1] at g1
    rw [DefaultUnit.withoutNegative_same hn, k2] at g2
    rw [g1, g2]

theorem canFollow_other {c : Bool} {cfg : Config} {units : TimeUnitsLike} {t : Bytes} (h : CanFollow cfg units t) :
    CanFollow { cfg with allowNegative := c } units t := ⟨h.delimiter, h.conjunction, h.unit, h.ago⟩

open DefaultUnit in
/-- C100: A text with several parts, which can be written one after the other, gives the same result, or the same error, if in any
number of the parts which are numbers the default time unit is written out, and with other white space between the parts. The other
parts are any texts of durations. -/
theorem C100_multiple (cfg : Config) (units : TimeUnitsLike) (keywords : Option TimeUnitsLike) (numerals : Option NumbersLike)
    (l l' : List Bytes) (s s' : Bytes) (hc : CfgText cfg) (hm : cfg.allowMultiple = true)
    (hd : (∀ b, cfg.innerDelimiter b = true → cfg.outerDelimiter b = true) ∨ (keywords = none ∧ numerals = none))
    (ho : Orderly cfg units keywords numerals) (hp : PlainConjunctions cfg) (he : units.isEmpty = false)
    (hl : ∀ t ∈ l ++ l', IsText t ∧ CanFollow cfg units t)
    (h : List.Forall₂ (fun t t' => WrittenOut cfg units t t' ∨
      (t' = t ∧ ∃ ds, DenotesMultiple { cfg with allowNegative := true } units keywords numerals t ds)) l l')
    (hs : Joined (cfg.outerDelimiter · = true) l s) (hs' : Joined (cfg.outerDelimiter · = true) l' s') :
    parse cfg units keywords numerals s' = parse cfg units keywords numerals s := by
  have key : ∀ {l s}, Joined (cfg.outerDelimiter · = true) l s → (∀ t ∈ l, IsText t ∧ CanFollow cfg units t) →
      ∀ {D : List (List Duration)}, List.Forall₂ (fun t ds => DenotesMultiple { cfg with allowNegative := true } units keywords numerals t ds) l D →
      IsText s ∧ DenotesMultiple { cfg with allowNegative := true } units keywords numerals s D.flatten := by
    intro l s hj ht D hD
    refine ⟨joined_isText (fun b hb => hc.outer b hb) hj fun t h => (ht t h).1, ?_⟩
    induction hj generalizing D with
    | one =>
      cases hD with
      | cons a b =>
        cases b
        rw [List.flatten_cons, List.flatten_nil, List.append_nil]
        exact a
    | @snoc l s gap t h1 h2 h3 ih =>
      have hsplit : ∃ D0 d, D = D0 ++ [d] ∧ List.Forall₂ (fun t ds => DenotesMultiple { cfg with allowNegative := true } units keywords numerals t ds) l D0 ∧
          DenotesMultiple { cfg with allowNegative := true } units keywords numerals t d := by
        have hr := List.rel_reverse hD
        rw [List.reverse_append] at hr
        cases hD' : D.reverse with
        | nil => rw [hD'] at hr; cases hr
        | cons d D1 =>
          rw [hD'] at hr
          cases hr with
          | cons a b =>
            refine ⟨D1.reverse, d, ?_, ?_, a⟩
            · have := congrArg List.reverse hD'
              rwa [List.reverse_reverse, List.reverse_cons] at this
            · have := List.rel_reverse b
              simpa using this
      obtain ⟨D0, d, rfl, q1, q2⟩ := hsplit
      rw [List.flatten_append, List.flatten_cons, List.flatten_nil, List.append_nil]
      exact C68_durations _ units keywords numerals _ _ _ _ _ (orderly_other ho) hp h2 h3
        (canFollow_other (ht t (List.mem_append.2 (Or.inr (List.mem_singleton.2 rfl)))).2)
        (ih (fun t h => ht t (List.mem_append.2 (Or.inl h))) q1) q2
  have hex : ∃ D, List.Forall₂ (fun t ds => DenotesMultiple { cfg with allowNegative := true } units keywords numerals t ds) l D ∧
      List.Forall₂ (fun t ds => DenotesMultiple { cfg with allowNegative := true } units keywords numerals t ds) l' D := by
    clear hl hs hs' key
    induction h with
    | nil => exact ⟨[], .nil, .nil⟩
    | cons h1 _ ih =>
      obtain ⟨D, i1, i2⟩ := ih
      rcases h1 with h1 | ⟨rfl, ds, h1⟩
      · obtain ⟨d, -, -, g1, g2⟩ := denotes_both ho he h1
        exact ⟨[d] :: D, .cons g1 i1, .cons g2 i2⟩
      · exact ⟨ds :: D, .cons h1 i1, .cons h1 i2⟩
  obtain ⟨D, d1, d2⟩ := hex
  obtain ⟨t1, k1⟩ := key hs (fun t ht => hl t (List.mem_append.2 (Or.inl ht))) d1
  obtain ⟨t2, k2⟩ := key hs' (fun t ht => hl t (List.mem_append.2 (Or.inr ht))) d2
  exact written_durations t2 t1 hc hm hd k2 k1

/-! ## fundu-systemd -/

theorem denotes_allowed {cfg : Config} {units : TimeUnitsLike} {keywords : Option TimeUnitsLike} {numerals : Option NumbersLike}
    {s : Bytes} {ds : List Duration} (hn : cfg.allowNegative = false) (h : DenotesMultiple cfg units keywords numerals s ds) :
    DenotesMultiple { cfg with allowNegative := true } units keywords numerals s ds := by
  have e := DefaultUnit.withoutNegative_same hn
  obtain ⟨items, h1, h2⟩ := h
  refine ⟨items, durations_gate (cfg := cfg) (b := false) (by unfold withNegative; rw [e]; exact h1) true, h2.imp fun i d h => ?_⟩
  exact ⟨denotes_gate (cfg := cfg) (b := false) (by unfold withNegative; rw [e]; exact h.1) true, Or.inl rfl⟩

/-- C100 for fundu-systemd: the functions give the same result, or the same error, if in any number of the parts of a text which are
numbers the default time unit is written out, and with other white space between and around the parts, for every default time unit
and every maximum. The other parts are accepted texts which start with a number. -/
theorem C100_systemd (nanos' : Bool) (u : TimeUnit) (max : Duration) (hw : max.WF) (hm : max.isNegative = false)
    (l l' : List Bytes) (s s' m m' : Bytes) (hs : IsText s) (hs' : IsText s')
    (hl : ∀ t ∈ l ++ l', IsText t ∧ StartsWith (fun b => NextDuration b ∨ b = 46) t)
    (h : List.Forall₂ (fun t t' => WrittenOut (Systemd.TimeSpanParser.withDefaultUnit u).config (tableOf nanos') t t' ∨
      (t' = t ∧ Trimmed t t ∧ ∃ d, parseMax nanos' (Systemd.TimeSpanParser.withDefaultUnit u) t max = .ok d)) l l')
    (ht : Trimmed s m) (hj : Joined PosixSpace l m) (ht' : Trimmed s' m') (hj' : Joined PosixSpace l' m') :
    parseMax nanos' (Systemd.TimeSpanParser.withDefaultUnit u) s' max = parseMax nanos' (Systemd.TimeSpanParser.withDefaultUnit u) s max := by
  have hsp : ∀ {l m}, Joined PosixSpace l m → Joined ((Systemd.TimeSpanParser.withDefaultUnit u).config.outerDelimiter · = true) l m := by
    intro l m h
    induction h with
    | one => exact .one
    | snoc _ h2 h3 ih => exact .snoc ih (fun b hb => (systemd_delimiter b).2 (h2 b hb)) h3
  have hin : ∀ {l m}, Joined PosixSpace l m → (∀ t ∈ l, StartsWith (fun b => NextDuration b ∨ b = 46) t) → ∃ b ∈ m, NextDuration b ∨ b = 46 := by
    intro l m h ht
    induction h with
    | one =>
      obtain ⟨b, r, hb, hb'⟩ := ht _ (List.mem_singleton.2 rfl)
      exact ⟨b, by rw [hb]; simp, hb'⟩
    | snoc _ _ _ ih =>
      obtain ⟨b, hb, hb'⟩ := ih fun t h => ht t (List.mem_append.2 (Or.inl h))
      exact ⟨b, List.mem_append.2 (Or.inl hb), hb'⟩
  have hmid : ∀ {s m}, Trimmed s m → ∀ b ∈ m, b ∈ s := by
    rintro s m ⟨pre, post, rfl, -⟩ b hb
    simp [hb]
  have key : ∀ {l s m}, IsText s → Trimmed s m → Joined PosixSpace l m → (∀ t ∈ l, IsText t ∧ StartsWith (fun b => NextDuration b ∨ b = 46) t) →
      parseMax nanos' (Systemd.TimeSpanParser.withDefaultUnit u) s max =
        (Fundu.parse (Systemd.TimeSpanParser.withDefaultUnit u).config (tableOf nanos') none none m).map (Systemd.minDuration · max) := by
    intro l s m h1 h2 h3 h4
    obtain ⟨m1, g1, g2, g3⟩ := parseMax_eq nanos' (Systemd.TimeSpanParser.withDefaultUnit u) s max hm h1
    obtain ⟨b, hb, hb'⟩ := hin h3 fun t ht => (h4 t ht).2
    obtain rfl := trimmed_unique h2 g1
    rw [g3, if_neg (number_not_infinity h2 b (hmid h2 b hb) hb' h2)]
  rw [key hs ht hj fun t h => hl t (List.mem_append.2 (Or.inl h)), key hs' ht' hj' fun t h => hl t (List.mem_append.2 (Or.inr h))]
  congr 1
  refine C100_multiple _ _ none none l l' m m' (systemd_cfgText u) rfl (Or.inl fun _ h => h) (systemd_orderly nanos' u)
    (by intro w hw; cases hw) (by cases nanos' <;> rfl) ?_ ?_ (hsp hj) (hsp hj')
  · intro t ht
    refine ⟨(hl t ht).1, C68_numbers_follow _ _ none none t (systemd_orderly nanos' u) (hl t ht).2 ?_ (by intro w hw; cases hw)⟩
    obtain ⟨b, r, rfl, hb⟩ := (hl t ht).2
    rintro ⟨b', r', e, hb'⟩
    cases e
    have hp := (systemd_delimiter b).1 (hb'.elim id id)
    have h0 : ∀ n < 256, PosixSpace (UInt8.ofNat n) → ¬ (NextDuration (UInt8.ofNat n) ∨ UInt8.ofNat n = 46) := by
      unfold NextDuration; decide +kernel
    have := h0 b.toNat b.toNat_lt
    rw [UInt8.ofNat_toNat] at this
    exact this hp hb
  · have : ∀ t ∈ l, StartsWith (fun b => NextDuration b ∨ b = 46) t ∧ IsText t :=
      fun t ht => ⟨(hl t (List.mem_append.2 (Or.inl ht))).2, (hl t (List.mem_append.2 (Or.inl ht))).1⟩
    clear hl hj hj' ht ht'
    induction h with
    | nil => exact .nil
    | cons h1 _ ih =>
      refine .cons ?_ (ih fun t ht => this t (List.mem_cons_of_mem _ ht))
      rcases h1 with h1 | ⟨h1, h2, d, h3⟩
      · exact Or.inl h1
      · refine Or.inr ⟨h1, ?_⟩
        obtain ⟨⟨b, r, hb, hb'⟩, htext⟩ := this _ List.mem_cons_self
        have hi := number_not_infinity h2 b (by rw [hb]; simp) hb' h2
        obtain ⟨ds, g1, -⟩ := (C38_value nanos' u _ _ htext h2 hi max hw hm _).1 ⟨d, h3, rfl⟩
        exact ⟨ds, denotes_allowed rfl g1⟩

/-! ## Concrete cases -/

theorem digit_number {cfg : Config} {b : UInt8} (hb : IsDigit b) : NumberText cfg [b] [b] [] 0 [] := by
  refine ⟨[], [], ⟨rfl, ?_, not_startsWith_nil⟩, .absent (List.cons_ne_nil _ _) not_startsWith_nil, .absent not_startsWith_nil⟩
  intro c hc
  rw [List.mem_singleton.1 hc]
  exact hb

theorem digit_sign {cfg : Config} {b : UInt8} (hb : b ≠ 43 ∧ b ≠ 45) : SignPart cfg [b] false [b] :=
  .absent (List.cons_ne_nil _ _) (by rw [startsWith_cons]; rintro (h | h); exacts [hb.1 h, hb.2 h])

theorem digit_written {cfg : Config} {units : TimeUnitsLike} {b : UInt8} {gap id : Bytes} (hb : IsDigit b ∧ b ≠ 43 ∧ b ≠ 45)
    (h1 : ∀ b ∈ gap, cfg.innerDelimiter b = true) (h2 : gap ≠ [] → cfg.allowTimeUnitDelimiter = true)
    (h3 : id.head? ≠ some 101 ∧ id.head? ≠ some 69) (h4 : units.get id = some (cfg.defaultUnit, ⟨1, 0⟩)) :
    WrittenOut cfg units [b] ([b] ++ (gap ++ id)) := by
  refine ⟨⟨false, [b], [b], [], 0, digit_sign hb.2, digit_number hb.1⟩, gap, id, rfl, h1, h2, fun _ => ?_, h4⟩
  rintro ⟨c, l, rfl, rfl | rfl⟩
  · exact h3.1 rfl
  · exact h3.2 rfl

/-- milliseconds by default: "7" and "7\n ms" -/
example : ((DurationParser.new.defaultUnit .milliSecond).allowTimeUnitDelimiter true).parse (b! "7\n ms") =
    ((DurationParser.new.defaultUnit .milliSecond).allowTimeUnitDelimiter true).parse (b! "7") :=
  C100_single ((DurationParser.new.defaultUnit .milliSecond).allowTimeUnitDelimiter true).config DurationParser.new.timeUnits.like none none
    _ _ (isText_ascii (by decide)) (isText_ascii (by decide)) ⟨defaultConfig_text.inner, defaultConfig_text.outer, by intro ws h; cases h⟩
    rfl (standard_orderly _ [.nanoSecond, .microSecond, .milliSecond, .second, .minute, .hour, .day, .week] (whitespace_delimiters _ rfl rfl))
    rfl (digit_written (b := 55) (gap := b! "\n ") (id := b! "ms") ⟨by decide, by decide, by decide⟩ (by decide) (fun _ => rfl) (by decide)
      (by decide +kernel))

example : joinParser.parse (b! "1s  2h\n3s") = joinParser.parse (b! "1 2h 3") := by
  refine C100_multiple joinParser.config joinParser.timeUnits.like none none [b! "1", b! "2h", b! "3"] [b! "1s", b! "2h", b! "3s"] _ _
    ⟨defaultConfig_text.inner, defaultConfig_text.outer, by intro ws h; cases h⟩ rfl (Or.inl fun _ h => h) joinParser_orderly
    (by intro w h; cases h) rfl ?_ ?_
    (.snoc (l := [b! "1", b! "2h"]) (s := b! "1 2h") (gap := b! " ") (.snoc (l := [b! "1"]) (gap := b! " ") .one (by decide) (by decide))
      (by decide) (by decide))
    (.snoc (l := [b! "1s", b! "2h"]) (s := b! "1s  2h") (gap := b! "\n") (.snoc (l := [b! "1s"]) (gap := b! "  ") .one (by decide) (by decide))
      (by decide) (by decide))
  · intro t ht
    have ht : t ∈ [b! "1", b! "2h", b! "3", b! "1s", b! "2h", b! "3s"] := ht
    have h1 : ∀ t ∈ [b! "1", b! "2h", b! "3", b! "1s", b! "2h", b! "3s"], (∀ b ∈ t, b.toNat < 128) ∧ t ≠ [] ∧
        ∀ b ∈ t.head?, (b ≠ 32 ∧ b ≠ 9 ∧ b ≠ 10 ∧ b ≠ 12 ∧ b ≠ 13) ∧ IsDigit b := by decide
    obtain ⟨k1, k2, k3⟩ := h1 t ht
    refine ⟨isText_ascii k1, ?_⟩
    obtain ⟨b, r, rfl⟩ := List.exists_cons_of_ne_nil k2
    exact joinParser_follow (k3 b rfl).1 (k3 b rfl).2
  · refine .cons (Or.inl (digit_written (b := 49) (gap := []) (id := b! "s") ⟨by decide, by decide, by decide⟩ (by decide)
        (fun h => absurd rfl h) (by decide) (by decide +kernel)))
      (.cons (Or.inr ⟨rfl, ?_⟩)
      (.cons (Or.inl (digit_written (b := 51) (gap := []) (id := b! "s") ⟨by decide, by decide, by decide⟩ (by decide)
        (fun h => absurd rfl h) (by decide) (by decide +kernel))) .nil))
    obtain ⟨-, ds, h, -⟩ := C29_saturating_sum joinParser.config joinParser.timeUnits.like none none (b! "2h") (isText_ascii (by decide))
      ⟨defaultConfig_text.inner, defaultConfig_text.outer, by intro ws h; cases h⟩ rfl (Or.inl fun _ h => h) ⟨false, ⟨7200, 0⟩⟩
      (by decide +kernel)
    exact ⟨ds, denotes_allowed rfl h⟩

example : parseMax false (Systemd.TimeSpanParser.withDefaultUnit .minute) (b! "5 minutes\t1h") Systemd.SYSTEMD_MAX_MICRO_DURATION =
    parseMax false (Systemd.TimeSpanParser.withDefaultUnit .minute) (b! " 5 1h\n") Systemd.SYSTEMD_MAX_MICRO_DURATION := by
  refine C100_systemd false .minute _ (by decide) rfl [b! "5", b! "1h"] [b! "5 minutes", b! "1h"] _ _ (b! "5 1h") (b! "5 minutes\t1h")
    (isText_ascii (by decide)) (isText_ascii (by decide)) ?_
    (.cons (Or.inl (digit_written (b := 53) (gap := b! " ") (id := b! "minutes") ⟨by decide, by decide, by decide⟩ (by decide)
        (fun _ => rfl) (by decide) (by decide +kernel)))
      (.cons (Or.inr ⟨rfl, ⟨[], [], rfl, by decide, by decide, by decide, by decide⟩, ⟨false, ⟨3600, 0⟩⟩, by decide +kernel⟩) .nil))
    ⟨b! " ", b! "\n", rfl, by decide, by decide, by decide, by decide⟩
    (.snoc (l := [b! "5"]) (gap := b! " ") .one (by decide) (by decide))
    ⟨[], [], rfl, by decide, by decide, by decide, by decide⟩
    (.snoc (l := [b! "5 minutes"]) (gap := b! "\t") .one (by decide) (by decide))
  have h1 : ∀ t ∈ [b! "5", b! "1h", b! "5 minutes", b! "1h"], (∀ b ∈ t, b.toNat < 128) ∧ t ≠ [] ∧ ∀ b ∈ t.head?, IsDigit b := by decide
  intro t ht
  obtain ⟨k1, k2, k3⟩ := h1 t ht
  refine ⟨isText_ascii k1, ?_⟩
  obtain ⟨b, r, rfl⟩ := List.exists_cons_of_ne_nil k2
  exact ⟨b, r, rfl, Or.inl (Or.inl (k3 b rfl))⟩

/-- the condition on identifiers which start with an `e` is necessary: there an exponent would start -/
example :
    let p := (CustomDurationParser.withTimeUnits [.withDefault .second [b! "ex"]])
    p.parse (b! "1") = .ok ⟨false, ⟨1, 0⟩⟩ ∧ p.parse (b! "1ex") ≠ .ok ⟨false, ⟨1, 0⟩⟩ := by decide +kernel

end Fundu.Props
