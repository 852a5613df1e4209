import Verif.Proofs.Longer
import Verif.Proofs.OtherNumbers
import Verif.Props.Lengths
import Verif.Props.SumSign
import Verif.Props.OtherNumbers
/-!
# Property C120: longer units, longer durations
-/
namespace Fundu.Props
open Fundu Fundu.Spec

variable (cfg : Config) (v : TimeUnit) (units units' : TimeUnitsLike) (keywords keywords' : Option TimeUnitsLike)
  (numerals numerals' : Option NumbersLike)

/-- C120: if all words and the default unit of the second parser are at least as long as those of the first, the result for a
single duration is at least as long, whatever its sign. -/
theorem C120_single (s : Bytes) (d d' : Duration) (hs : IsText s) (hc : CfgText cfg) (hm : cfg.allowMultiple = false)
    (hu : ShorterTable units units') (hk : Option.Rel ShorterTable keywords keywords') (hn : Option.Rel ShorterNumbers numerals numerals')
    (hv : Shorter cfg.defaultUnit.multiplier v.multiplier) (h : parse cfg units keywords numerals s = .ok d)
    (h' : parse { cfg with defaultUnit := v } units' keywords' numerals' s = .ok d') : |nanos d| ≤ |nanos d'| := by
  obtain ⟨neg, r, i, h1, h2, h3⟩ := (C27_single cfg units keywords numerals s d hs hc hm).1 h
  obtain ⟨neg', r', i', h1', h2', h3'⟩ :=
    (C27_single { cfg with defaultUnit := v } units' keywords' numerals' s d' hs ⟨hc.inner, hc.outer, hc.conjunctions⟩ hm).1 h'
  obtain ⟨i2, k1, k2⟩ := Longer.single' (v := v) hu hk hn h2
  obtain ⟨rfl, rfl, rfl⟩ := C27_unambiguous_single { cfg with defaultUnit := v } units' keywords' numerals' s _ _ _ _ _ _
    (Lengths.sign (v := v) h1) k1 h1' h2'
  exact Longer.denotes_mono k2 hv h3.1 h3'.1

theorem nonnegative_nanos {d : Duration} (h : d.isNegative = false) : 0 ≤ nanos d := by
  unfold nanos
  rw [h]
  simp only [Bool.false_eq_true, if_false]
  omega

/-- C120: the same for several durations, if negative durations are not allowed. -/
theorem C120_multiple (s : Bytes) (d d' : Duration) (hs : IsText s) (hc : CfgText cfg) (hd : DelimitersOk cfg keywords numerals)
    (hd' : DelimitersOk cfg keywords' numerals') (hneg : cfg.allowNegative = false)
    (hu : ShorterTable units units') (hk : Option.Rel ShorterTable keywords keywords') (hn : Option.Rel ShorterNumbers numerals numerals')
    (hv : Shorter cfg.defaultUnit.multiplier v.multiplier) (h : parse cfg units keywords numerals s = .ok d)
    (h' : parse { cfg with defaultUnit := v } units' keywords' numerals' s = .ok d') : nanos d ≤ nanos d' := by
  by_cases hm : cfg.allowMultiple = false
  · have k := C120_single cfg v units units' keywords keywords' numerals numerals' s d d' hs hc hm hu hk hn hv h h'
    obtain ⟨_, _, _, -, -, h3⟩ := (C27_single cfg units keywords numerals s d hs hc hm).1 h
    obtain ⟨_, _, _, -, -, h3'⟩ :=
      (C27_single { cfg with defaultUnit := v } units' keywords' numerals' s d' hs ⟨hc.inner, hc.outer, hc.conjunctions⟩ hm).1 h'
    rwa [abs_of_nonneg (nonnegative_nanos (h3.2.resolve_left (by rw [hneg]; simp))),
      abs_of_nonneg (nonnegative_nanos (h3'.2.resolve_left (by show ¬ cfg.allowNegative = true; rw [hneg]; simp)))] at k
  · have hm : cfg.allowMultiple = true := by simpa using hm
    have hd := hd.resolve_left (by rw [hm]; simp)
    have hd' := hd'.resolve_left (by rw [hm]; simp)
    obtain ⟨-, ds, ⟨l, h1, h2⟩, e⟩ := C29_saturating_sum cfg units keywords numerals s hs hc hm hd d h
    obtain ⟨-, ds', ⟨l', h1', h2'⟩, e'⟩ := C29_saturating_sum { cfg with defaultUnit := v } units' keywords' numerals' s hs
      ⟨hc.inner, hc.outer, hc.conjunctions⟩ hm hd' d' h'
    obtain ⟨l2, k1, k2⟩ := Longer.durations' (v := v) hu hk hn h1
    obtain rfl := C27_unambiguous_multiple { cfg with defaultUnit := v } units' keywords' numerals' s _ _ k1 h1'
    rw [e, e']
    refine Renumbered.saturatingSum_mono ?_
    clear h1 h1' k1 e e' h h'
    induction k2 generalizing ds ds' with
    | nil => cases h2; cases h2'; exact .nil
    | cons a _ ih =>
      cases h2 with
      | cons b g =>
        cases h2' with
        | cons b' g' =>
          refine .cons ?_ (ih _ g _ g')
          have k := Longer.denotes_mono a hv b.1 b'.1
          rwa [abs_of_nonneg (nonnegative_nanos (b.2.resolve_left (by rw [hneg]; simp))),
            abs_of_nonneg (nonnegative_nanos (b'.2.resolve_left (by show ¬ cfg.allowNegative = true; rw [hneg]; simp)))] at k

/-! ## The default unit -/

theorem standard_shorter (u v : TimeUnit) (h : u.index ≤ v.index) : Shorter u.multiplier v.multiplier := by
  have key : ∀ u ∈ allUnits, ∀ v ∈ allUnits, u.index ≤ v.index → Shorter u.multiplier v.multiplier := by decide
  exact key u (by cases u <;> decide) v (by cases v <;> decide) h

theorem table_shorter {t : TimeUnitsLike} (h : ∀ w u m, t.get w = some (u, m) → m.coefficient ≠ -2 ^ 63) : ShorterTable t t :=
  ⟨words_refl t, fun w u m u' m' h1 h2 => by rw [h1] at h2; cases h2; exact ⟨le_refl _, le_refl _⟩, h⟩

/-- C120 for `DurationParser`: with a longer default unit a text which is accepted with both gets a longer or the same duration. -/
theorem C120_standard_accepted (us : List TimeUnit) (c : Config) (u v : TimeUnit) (huv : u.index ≤ v.index) (s : Bytes) (hs : IsText s)
    (hc : CfgText c) (hneg : c.allowNegative = false) (p : DurationParser) (hp : p = { DurationParser.withTimeUnits us with config := c })
    (d d' : Duration) (h : (p.defaultUnit u).parse s = .ok d) (h' : (p.defaultUnit v).parse s = .ok d') : nanos d ≤ nanos d' := by
  subst hp
  have ht : ShorterTable (TimeUnits.withTimeUnits us).like (TimeUnits.withTimeUnits us).like := by
    refine table_shorter fun w x m hw => ?_
    have := standard_nonnegative us w x m hw
    omega
  exact C120_multiple { c with defaultUnit := u } v _ _ none none none none s d d' hs ⟨hc.inner, hc.outer, hc.conjunctions⟩
    (Or.inr (Or.inr ⟨rfl, rfl⟩)) (Or.inr (Or.inr ⟨rfl, rfl⟩)) hneg ht .none .none (standard_shorter u v huv) h h'

/-- C120 for `DurationParser`: a text without a minus sign which is accepted with the shorter default unit is accepted with the longer. -/
theorem C120_standard (us : List TimeUnit) (c : Config) (u v : TimeUnit) (huv : u.index ≤ v.index) (s : Bytes) (hs : IsText s) (hc : CfgText c)
    (hneg : c.allowNegative = false) (hm : (45 : UInt8) ∉ s) (ha : c.allowAgo = false) (p : DurationParser)
    (hp : p = { DurationParser.withTimeUnits us with config := c }) (d : Duration) (h : (p.defaultUnit u).parse s = .ok d) :
    ∃ d', (p.defaultUnit v).parse s = .ok d' ∧ nanos d ≤ nanos d' := by
  obtain ⟨d', h'⟩ := (C116_standard us { c with defaultUnit := u } v s hs ⟨hc.inner, hc.outer, hc.conjunctions⟩ (Or.inr ⟨hm, ha⟩) (p.defaultUnit u)
    (by rw [hp]; rfl)).2.2 ⟨d, h⟩
  exact ⟨d', h', C120_standard_accepted us c u v huv s hs hc hneg p hp d d' h h'⟩

/-- C120 for fundu-systemd. -/
theorem C120_systemd (nanos' : Bool) (u v : TimeUnit) (huv : u.index ≤ v.index) (s : Bytes) (max d : Duration) (hs : IsText s) (hw : max.WF)
    (hn : (45 : UInt8) ∉ s) (h : parseMax nanos' (Systemd.TimeSpanParser.withDefaultUnit u) s max = .ok d) :
    ∃ d', parseMax nanos' (Systemd.TimeSpanParser.withDefaultUnit v) s max = .ok d' ∧ nanos d ≤ nanos d' := by
  cases hm : max.isNegative with
  | true =>
    rw [C38_negative_max nanos' _ s max hm] at h
    cases h
  | false =>
    obtain ⟨d', h'⟩ := (C116_systemd nanos' u v s max hs hm hn).2.2 ⟨d, h⟩
    refine ⟨d', h', ?_⟩
    obtain ⟨m, h1, h2, h3⟩ := parseMax_eq nanos' (Systemd.TimeSpanParser.withDefaultUnit u) s max hm hs
    obtain ⟨m', h1', -, h3'⟩ := parseMax_eq nanos' (Systemd.TimeSpanParser.withDefaultUnit v) s max hm hs
    obtain rfl := trimmed_unique h1 h1'
    rw [h3] at h
    rw [h3'] at h'
    by_cases hi : m = b! "infinity"
    · rw [if_pos hi] at h h'
      cases h; cases h'; exact le_refl _
    rw [if_neg hi] at h h'
    cases hx : parse (Systemd.TimeSpanParser.withDefaultUnit u).config (tableOf nanos') none none m with
    | error e => rw [hx] at h; cases h
    | ok a =>
      cases hx' : parse (Systemd.TimeSpanParser.withDefaultUnit v).config (tableOf nanos') none none m with
      | error e => rw [hx'] at h'; cases h'
      | ok a' =>
        have ht : ShorterTable (tableOf nanos') (tableOf nanos') := by
          refine table_shorter fun w x q hq => ?_
          obtain ⟨rfl, -⟩ := (C58_table nanos' w x q).1 hq
          decide
        have k := C120_multiple (Systemd.TimeSpanParser.withDefaultUnit u).config v _ _ none none none none m a a' h2 (systemd_cfgText u)
          (Or.inr (Or.inr ⟨rfl, rfl⟩)) (Or.inr (Or.inr ⟨rfl, rfl⟩)) rfl ht .none .none (standard_shorter u v huv) hx hx'
        rw [hx] at h
        rw [hx'] at h'
        cases h; cases h'
        show nanos (Systemd.minDuration a max) ≤ nanos (Systemd.minDuration a' max)
        rw [(minDuration_nanos (parse_wf h2 (systemd_cfgText u) hx) hw).1, (minDuration_nanos (parse_wf h2 (systemd_cfgText v) hx') hw).1]
        omega

/-! ## Examples -/

/-- half a week is not less than half an hour -/
example : ∃ d', (DurationParser.withAllTimeUnits.defaultUnit .week).parse (b! "0.5") = .ok d' ∧ nanos ⟨false, ⟨1800, 0⟩⟩ ≤ nanos d' :=
  C120_standard TimeUnits.withAllTimeUnits.getTimeUnits {} .hour .week (by decide) (b! "0.5") (isText_ascii (by decide)) defaultConfig_text rfl
    (by decide) rfl DurationParser.withAllTimeUnits rfl ⟨false, ⟨1800, 0⟩⟩ (by decide +kernel)

/-- the tables of the next examples: `x` is 2 or 3 minutes, `y` a day or 100 weeks -/
theorem examples_shorter : ShorterTable (lengthsTable .minute .day ⟨-2, 0⟩ ⟨1, 0⟩) (lengthsTable .second .week ⟨180, 0⟩ ⟨-1, 2⟩) := by
  refine ⟨lengthsTable_words .., fun w u m u' m' h h' => ?_, fun w u m h => ?_⟩
  · have h : (if w = b! "x" then some (TimeUnit.minute, (⟨-2, 0⟩ : Multiplier)) else if w = b! "y" then some (.day, ⟨1, 0⟩) else none) = some (u, m) := h
    have h' : (if w = b! "x" then some (TimeUnit.second, (⟨180, 0⟩ : Multiplier)) else if w = b! "y" then some (.week, ⟨-1, 2⟩) else none) = some (u', m') := h'
    split at h
    · next e => rw [if_pos e] at h'; cases h; cases h'; decide
    · next e =>
      rw [if_neg e] at h'
      split at h
      · next e => rw [if_pos e] at h'; cases h; cases h'; decide
      · cases h
  · have h : (if w = b! "x" then some (TimeUnit.second, (⟨180, 0⟩ : Multiplier)) else if w = b! "y" then some (.week, ⟨-1, 2⟩) else none) = some (u, m) := h
    split at h
    · cases h; decide
    · split at h
      · cases h; decide
      · cases h

example (d d' : Duration) (h : parse { allowNegative := true } (lengthsTable .minute .day ⟨-2, 0⟩ ⟨1, 0⟩) none none (b! "1.25x") = .ok d)
    (h' : parse { allowNegative := true, defaultUnit := .year } (lengthsTable .second .week ⟨180, 0⟩ ⟨-1, 2⟩) none none (b! "1.25x") = .ok d') :
    |nanos d| ≤ |nanos d'| :=
  C120_single { allowNegative := true } .year _ _ none none none none (b! "1.25x") d d' (isText_ascii (by decide))
    ⟨defaultConfig_text.inner, defaultConfig_text.outer, by rintro ws ⟨⟩⟩ rfl examples_shorter .none .none (by decide) h h'

/-- and both are accepted -/
example : parse { allowNegative := true } (lengthsTable .minute .day ⟨-2, 0⟩ ⟨1, 0⟩) none none (b! "1.25x") = .ok ⟨true, ⟨150, 0⟩⟩ ∧
    parse { allowNegative := true, defaultUnit := .year } (lengthsTable .second .week ⟨180, 0⟩ ⟨-1, 2⟩) none none (b! "1.25x") = .ok ⟨false, ⟨225, 0⟩⟩ := by
  constructor <;> decide +kernel

example : ∃ d', parseMax false (Systemd.TimeSpanParser.withDefaultUnit .hour) (b! " 1h 5 3s") Systemd.SYSTEMD_MAX_MICRO_DURATION = .ok d' ∧
    nanos ⟨false, ⟨3608, 0⟩⟩ ≤ nanos d' :=
  C120_systemd false .second .hour (by decide) (b! " 1h 5 3s") Systemd.SYSTEMD_MAX_MICRO_DURATION ⟨false, ⟨3608, 0⟩⟩ (isText_ascii (by decide))
    (by decide) (by decide) (by decide +kernel)

/-- the exponents matter: `10¹⁸ · 10⁻¹⁸` seconds are a second, but numbers of this unit are cut off at once -/
theorem C120_condition_needed :
    parse {} (lengthsTable .second .second ⟨1, 0⟩ ⟨1, 0⟩) none none (b! "0.5x") = .ok ⟨false, ⟨0, 500000000⟩⟩ ∧
    parse {} (lengthsTable .second .second ⟨1000000000000000000, -18⟩ ⟨1, 0⟩) none none (b! "0.5x") = .ok ⟨false, ⟨0, 0⟩⟩ := by
  constructor <;> decide +kernel

end Fundu.Props
