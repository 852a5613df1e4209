import Verif.Props.Trim
import Verif.Props.Sum
import Verif.Props.Time
import Verif.Proofs.Spans
/-!
# Properties C38, C39, C40, C58: fundu-systemd
-/
namespace Fundu.Props
open Fundu Fundu.Spec
open Fundu.Systemd (TimeSpanParser)

/-! ## The parsers and the tables -/

/-- The parsers there are: all constructors and setters give a parser which is determined by its default unit. -/
theorem C40_constructors (u v : TimeUnit) :
    TimeSpanParser.new = TimeSpanParser.withDefaultUnit .second ∧
    (TimeSpanParser.withDefaultUnit u).setDefaultUnit v = TimeSpanParser.withDefaultUnit v := ⟨rfl, rfl⟩

theorem systemd_delimiter (b : UInt8) : Systemd.DELIMITER b = true ↔ PosixSpace b := isPosixSpace_iff b

theorem systemd_cfgText (u : TimeUnit) : CfgText (TimeSpanParser.withDefaultUnit u).config :=
  ⟨fun b h => posixSpace_ascii ((systemd_delimiter b).1 h), fun b h => posixSpace_ascii ((systemd_delimiter b).1 h),
    by intro ws h; cases h⟩

/-- the tables of the two families of functions -/
def tableOf (nanos : Bool) : TimeUnitsLike := if nanos then Systemd.TIME_UNITS_WITH_NANOS else Systemd.TIME_UNITS
/-- and their documentation -/
def documentedOf (nanos : Bool) : List (List Bytes × Nat) := if nanos then systemdUnitsNanos else systemdUnits

/-- all identifiers of a table -/
def idsOf (table : List (List Bytes × Nat)) : List Bytes := table.flatMap (·.1)

theorem systemd_get_mem {nanos : Bool} {id : Bytes} {x : TimeUnit × Multiplier} (h : (tableOf nanos).get id = some x) :
    id ∈ idsOf (documentedOf nanos) := by
  have key : ∀ (l : List Bytes) (u : TimeUnit) (rest : Option (TimeUnit × Multiplier)),
      (if id ∈ l then Systemd.withOne u else rest) = some x →
      (∀ y ∈ l, y ∈ idsOf (documentedOf nanos)) → (rest = some x → id ∈ idsOf (documentedOf nanos)) →
      id ∈ idsOf (documentedOf nanos) := by
    intro l u rest h h1 h2
    by_cases hl : id ∈ l
    · exact h1 id hl
    · rw [if_neg hl] at h
      exact h2 h
  cases nanos with
  | false =>
    replace h : Systemd.timeUnitsGet id = some x := h
    unfold Systemd.timeUnitsGet at h
    repeat (refine key _ _ _ h (by decide) ?_; clear h; intro h)
    cases h
  | true =>
    replace h : Systemd.timeUnitsWithNanosGet id = some x := h
    unfold Systemd.timeUnitsWithNanosGet at h
    repeat (refine key _ _ _ h (by decide) ?_; clear h; intro h)
    cases h

theorem systemd_get_ids (nanos : Bool) : ∀ id ∈ idsOf (documentedOf nanos), ∃ p ∈ documentedOf nanos, id ∈ p.1 ∧
    ∃ q ∈ documentedUnits, q.2.2 = p.2 ∧ (tableOf nanos).get id = some (q.1, ⟨1, 0⟩) := by
  cases nanos <;> decide +kernel

theorem systemd_ids_unique (nanos : Bool) : ∀ p ∈ documentedOf nanos, ∀ p' ∈ documentedOf nanos, ∀ id ∈ p.1, id ∈ p'.1 →
    p = p' := by
  cases nanos <;> decide +kernel

/-- C58: a word is a time unit of the parser iff it is one of the documented identifiers, and then its length is the
documented one. -/
theorem C58_table (nanos : Bool) (id : Bytes) (u : TimeUnit) (m : Multiplier) :
    (tableOf nanos).get id = some (u, m) ↔
      m = ⟨1, 0⟩ ∧ ∃ len s, UnitIn (documentedOf nanos) id len ∧ (u, s, len) ∈ documentedUnits := by
  have hlen : ∀ p ∈ documentedUnits, ∀ p' ∈ documentedUnits, p.2.2 = p'.2.2 → p = p' := by decide
  constructor
  · intro h
    obtain ⟨p, h1, h2, q, h3, h4, h5⟩ := systemd_get_ids nanos id (systemd_get_mem h)
    rw [h5] at h
    cases h
    exact ⟨rfl, p.2, q.2.1, ⟨p.1, h1, h2⟩, by rw [← h4]; exact h3⟩
  · rintro ⟨rfl, len, s, ⟨ids, h1, h2⟩, h3⟩
    obtain ⟨p, g1, g2, q, g3, g4, g5⟩ := systemd_get_ids nanos id (List.mem_flatMap.2 ⟨_, h1, h2⟩)
    have := systemd_ids_unique nanos _ h1 _ g1 id h2 g2
    rw [← this] at g4
    have := hlen _ g3 _ h3 g4
    rw [g5, this]

theorem systemd_fits (nanos : Bool) : TableFits (tableOf nanos) := by
  intro id u m h
  obtain ⟨rfl, -⟩ := (C58_table nanos id u m).1 h
  cases u <;> decide

/-! ## C38 -/

theorem minDuration_nanos {d max : Duration} (hd : d.WF) (hm : max.WF) :
    nanos (Systemd.minDuration d max) = min (nanos d) (nanos max) ∧ (Systemd.minDuration d max = d ∨ Systemd.minDuration d max = max) := by
  unfold Systemd.minDuration
  rw [C01_cmp max d hm hd]
  by_cases h : nanos max < nanos d
  · rw [if_pos (compare_lt_iff_lt.2 h)]; exact ⟨by omega, Or.inr rfl⟩
  · rw [if_neg (fun h' => h (compare_lt_iff_lt.1 h'))]; exact ⟨by omega, Or.inl rfl⟩

/-- both functions with a maximum -/
def parseMax (nanos : Bool) (p : TimeSpanParser) (s : Bytes) (max : Duration) : R Duration :=
  if nanos then p.parseNanosWithMax s max else p.parseWithMax s max

theorem parseMax_eq (nanos : Bool) (p : TimeSpanParser) (s : Bytes) (max : Duration) (hm : max.isNegative = false)
    (hs : IsText s) : ∃ m, Trimmed s m ∧ IsText m ∧ parseMax nanos p s max =
      if m = b! "infinity" then .ok max
      else (Fundu.parse p.config (tableOf nanos) none none m).map (Systemd.minDuration · max) := by
  obtain ⟨m, h1, h2, h3⟩ := C39_trim s hs
  refine ⟨m, (h3 m).2 rfl, h2, ?_⟩
  have hp : liftP (assert (Systemd.isPositive max)) = (.ok () : R Unit) := by
    unfold Systemd.isPositive
    rw [hm]; rfl
  have ht : ∀ t, p.parseTrimmed t m max = if m = b! "infinity" then .ok max
      else (Fundu.parse p.config t none none m).map (Systemd.minDuration · max) := by
    intro t
    unfold TimeSpanParser.parseTrimmed TimeSpanParser.parseInfinity
    by_cases hi : m = b! "infinity"
    · rw [if_pos hi, if_pos hi]
    · rw [if_neg hi, if_neg hi]
  cases nanos with
  | false =>
    show p.parseWithMax s max = _
    unfold TimeSpanParser.parseWithMax
    rw [hp, ok_bind, h1, ok_bind]
    exact ht _
  | true =>
    show p.parseNanosWithMax s max = _
    unfold TimeSpanParser.parseNanosWithMax
    rw [hp, ok_bind, h1, ok_bind]
    exact ht _

/-- C38: if `max` is not marked as negative, `parse_with_max` and `parse_nanos_with_max` return a duration between 0
and `max`, or an error. They do not panic. -/
theorem C38_bounded (nanos' : Bool) (u : TimeUnit) (s : Bytes) (hs : IsText s) (max : Duration) (hw : max.WF)
    (hm : max.isNegative = false) :
    (∃ d, parseMax nanos' (TimeSpanParser.withDefaultUnit u) s max = .ok d ∧ d.WF ∧ d.isNegative = false ∧
      0 ≤ nanos d ∧ nanos d ≤ nanos max) ∨
    (∃ e, parseMax nanos' (TimeSpanParser.withDefaultUnit u) s max = fail e) := by
  have hmn : 0 ≤ nanos max := by
    unfold nanos; rw [hm]; simp only [Bool.false_eq_true, if_false]; omega
  obtain ⟨m, -, h2, h3⟩ := parseMax_eq nanos' (TimeSpanParser.withDefaultUnit u) s max hm hs
  rw [h3]
  by_cases hi : m = b! "infinity"
  · rw [if_pos hi]
    exact Or.inl ⟨max, rfl, hw, hm, hmn, Int.le_refl _⟩
  · rw [if_neg hi]
    rcases C23_no_panic (TimeSpanParser.withDefaultUnit u).config (tableOf nanos') none none m h2 (systemd_cfgText u)
      (systemd_fits nanos') (by intro k h; cases h) (by intro k h; cases h) with ⟨d, g1, g2⟩ | ⟨e, g⟩
    · left
      rw [g1]
      obtain ⟨k1, k2⟩ := minDuration_nanos g2 hw
      have hn := C22_nonnegative (TimeSpanParser.withDefaultUnit u).config (tableOf nanos') none none m d rfl g1
      refine ⟨Systemd.minDuration d max, rfl, ?_, ?_, by omega, by omega⟩
      · rcases k2 with k | k <;> rw [k]
        · exact g2
        · exact hw
      · rcases k2 with k | k <;> rw [k]
        · exact hn.1
        · exact hm
    · right
      rw [g]
      exact ⟨e, rfl⟩

/-- C38: if `max` is marked as negative both functions panic, whatever the text is - also if `max` is a zero marked as
negative (finding F15). -/
theorem C38_negative_max (nanos : Bool) (p : TimeSpanParser) (s : Bytes) (max : Duration) (hm : max.isNegative = true) :
    parseMax nanos p s max = panic .assert := by
  have hp : liftP (assert (Systemd.isPositive max)) = (panic .assert : R Unit) := by
    unfold Systemd.isPositive
    rw [hm]; rfl
  cases nanos with
  | false =>
    show p.parseWithMax s max = _
    unfold TimeSpanParser.parseWithMax
    rw [hp]; rfl
  | true =>
    show p.parseNanosWithMax s max = _
    unfold TimeSpanParser.parseNanosWithMax
    rw [hp]; rfl

/-- C38: `infinity`, with any white space around it, is the maximum. -/
theorem C38_infinity (nanos : Bool) (p : TimeSpanParser) (s : Bytes) (max : Duration) (hm : max.isNegative = false)
    (hs : Trimmed s (b! "infinity")) : parseMax nanos p s max = .ok max := by
  have ht : IsText s := by
    obtain ⟨pre, post, rfl, h1, h2, -⟩ := hs
    refine isText_ascii fun b hb => ?_
    rcases List.mem_append.1 hb with hb | hb
    · exact posixSpace_ascii (h1 b hb)
    · rcases List.mem_append.1 hb with hb | hb
      · exact (by decide : ∀ b ∈ b! "infinity", b.toNat < 128) b hb
      · exact posixSpace_ascii (h2 b hb)
  obtain ⟨m, h1, -, h3⟩ := parseMax_eq nanos p s max hm ht
  rw [h3, if_pos (trimmed_unique h1 hs)]

/-- C38: the durations of every other text which is accepted are those of the grammar, and the result is their sum, or
`max` if the sum is greater. -/
theorem C38_value (nanos' : Bool) (u : TimeUnit) (s m : Bytes) (hs : IsText s) (hm' : Trimmed s m)
    (hi : m ≠ b! "infinity") (max : Duration) (hw : max.WF) (hm : max.isNegative = false) (x : Int) :
    (∃ d, parseMax nanos' (TimeSpanParser.withDefaultUnit u) s max = .ok d ∧ nanos d = x) ↔
      ∃ ds, DenotesMultiple (TimeSpanParser.withDefaultUnit u).config (tableOf nanos') none none m ds ∧
        x = min (nanos max) (ds.map nanos).sum := by
  obtain ⟨m', h1, h2, h3⟩ := parseMax_eq nanos' (TimeSpanParser.withDefaultUnit u) s max hm hs
  obtain rfl := trimmed_unique h1 hm'
  rw [h3, if_neg hi]
  have hmax : nanos max ≤ maxNanos := (nanos_representable max hw).2
  constructor
  · rintro ⟨d, g1, rfl⟩
    cases hp : Fundu.parse (TimeSpanParser.withDefaultUnit u).config (tableOf nanos') none none m' with
    | error e => rw [hp] at g1; cases g1
    | ok d' =>
      rw [hp] at g1
      cases g1
      obtain ⟨hd, ds, k1, -⟩ := C29_saturating_sum (TimeSpanParser.withDefaultUnit u).config (tableOf nanos') none none m' h2
        (systemd_cfgText u) rfl (Or.inr ⟨rfl, rfl⟩) d' hp
      obtain ⟨d'', q1, -, q3⟩ := C29_nonnegative (TimeSpanParser.withDefaultUnit u).config (tableOf nanos') none none m' h2
        (systemd_cfgText u) rfl (Or.inr ⟨rfl, rfl⟩) ds k1 rfl
      rw [hp] at q1
      cases q1
      refine ⟨ds, k1, ?_⟩
      show nanos (Systemd.minDuration d' max) = _
      rw [(minDuration_nanos hd hw).1]
      omega
  · rintro ⟨ds, k1, rfl⟩
    obtain ⟨d, q1, q2, q3⟩ := C29_nonnegative (TimeSpanParser.withDefaultUnit u).config (tableOf nanos') none none m' h2
        (systemd_cfgText u) rfl (Or.inr ⟨rfl, rfl⟩) ds k1 rfl
    rw [q1]
    refine ⟨Systemd.minDuration d max, rfl, ?_⟩
    rw [(minDuration_nanos q2 hw).1]
    omega

/-- C38: the default maxima are `u64::MAX` microseconds and nanoseconds, and the functions without maximum use them. -/
theorem C38_default_max (p : TimeSpanParser) (s : Bytes) (u : Option TimeUnit) :
    nanos Systemd.SYSTEMD_MAX_MICRO_DURATION = (2 ^ 64 - 1) * 1000 ∧ Systemd.SYSTEMD_MAX_MICRO_DURATION.WF ∧
    nanos Systemd.SYSTEMD_MAX_NANOS_DURATION = 2 ^ 64 - 1 ∧ Systemd.SYSTEMD_MAX_NANOS_DURATION.WF ∧
    p.parse s = p.parseWithMax s Systemd.SYSTEMD_MAX_MICRO_DURATION ∧
    p.parseNanos s = p.parseNanosWithMax s Systemd.SYSTEMD_MAX_NANOS_DURATION ∧
    Systemd.parse s u none = Systemd.parse s u (some Systemd.SYSTEMD_MAX_MICRO_DURATION) ∧
    Systemd.parseNanos s u none = Systemd.parseNanos s u (some Systemd.SYSTEMD_MAX_NANOS_DURATION) := by
  refine ⟨by decide, by decide, by decide, by decide, rfl, rfl, rfl, rfl⟩

/-- C38, C40: the free functions are the methods of a parser with the default unit, which is seconds if it is not
given. -/
theorem C40_functions (s : Bytes) (u : TimeUnit) (max : Duration) :
    Systemd.parse s none (some max) = (TimeSpanParser.withDefaultUnit .second).parseWithMax s max ∧
    Systemd.parse s (some u) (some max) = (TimeSpanParser.withDefaultUnit u).parseWithMax s max ∧
    Systemd.parseNanos s none (some max) = (TimeSpanParser.withDefaultUnit .second).parseNanosWithMax s max ∧
    Systemd.parseNanos s (some u) (some max) = (TimeSpanParser.withDefaultUnit u).parseNanosWithMax s max := by
  have h : Systemd.parserFor (some u) = TimeSpanParser.withDefaultUnit u := by cases u <;> rfl
  refine ⟨rfl, ?_, rfl, ?_⟩
  · show (Systemd.parserFor (some u)).parseWithMax s max = _
    rw [h]
  · show (Systemd.parserFor (some u)).parseNanosWithMax s max = _
    rw [h]

example : Systemd.parse (b! " 300ms20s 5day\n") none none = .ok ⟨false, ⟨432020, 300000000⟩⟩ ∧
    Systemd.parse (b! "infinity ") none (some ⟨false, ⟨7, 0⟩⟩) = .ok ⟨false, ⟨7, 0⟩⟩ ∧
    Systemd.parse (b! "1y 12month") (some .day) (some ⟨false, ⟨7, 0⟩⟩) = .ok ⟨false, ⟨7, 0⟩⟩ ∧
    Systemd.parse (b! "1s") none (some ⟨true, ⟨0, 0⟩⟩) = panic .assert := by decide +kernel

/-! ## C39 -/

/-- C39: white space around the text does not change the result of any function of fundu-systemd. -/
theorem C39_systemd (pre s post : Bytes) (h1 : ∀ b ∈ pre, PosixSpace b) (h2 : ∀ b ∈ post, PosixSpace b)
    (p : TimeSpanParser) (u : Option TimeUnit) (max : Duration) (max' : Option Duration) :
    p.parseWithMax (pre ++ (s ++ post)) max = p.parseWithMax s max ∧
    p.parseNanosWithMax (pre ++ (s ++ post)) max = p.parseNanosWithMax s max ∧
    p.parse (pre ++ (s ++ post)) = p.parse s ∧
    p.parseNanos (pre ++ (s ++ post)) = p.parseNanos s ∧
    Systemd.parse (pre ++ (s ++ post)) u max' = Systemd.parse s u max' ∧
    Systemd.parseNanos (pre ++ (s ++ post)) u max' = Systemd.parseNanos s u max' := by
  simp only [Systemd.parse, Systemd.parseNanos, TimeSpanParser.parse, TimeSpanParser.parseNanos,
    TimeSpanParser.parseWithMax, TimeSpanParser.parseNanosWithMax, C39_trim_surround pre s post h1 h2, and_self]

/-! ## C40 -/

theorem nanos_extends {id : Bytes} {x : TimeUnit × Multiplier} (h : Systemd.TIME_UNITS.get id = some x) :
    Systemd.TIME_UNITS_WITH_NANOS.get id = some x := by
  obtain ⟨u, m⟩ := x
  obtain ⟨rfl, len, s, ⟨ids, h1, h2⟩, h3⟩ := (C58_table false id u m).1 h
  exact (C58_table true id u ⟨1, 0⟩).2 ⟨rfl, len, s, ⟨ids, List.mem_cons_of_mem _ h1, h2⟩, h3⟩

theorem nanos_extra {id : Bytes} {x : TimeUnit × Multiplier} (h : Systemd.TIME_UNITS_WITH_NANOS.get id = some x)
    (hn : Systemd.TIME_UNITS.get id = none) : id = b! "nsec" ∨ id = b! "ns" := by
  obtain ⟨u, m⟩ := x
  obtain ⟨rfl, len, s, ⟨ids, h1, h2⟩, h3⟩ := (C58_table true id u m).1 h
  rcases List.mem_cons.1 h1 with h1 | h1
  · cases h1
    simpa using h2
  · have : (tableOf false).get id = some (u, ⟨1, 0⟩) := (C58_table false id u ⟨1, 0⟩).2 ⟨rfl, len, s, ⟨ids, h1, h2⟩, h3⟩
    rw [show tableOf false = Systemd.TIME_UNITS from rfl, hn] at this
    cases this

theorem wordIn_extends {stop : UInt8 → Prop} {s r : Bytes} {u : TimeUnit × Multiplier}
    (h : WordIn stop Systemd.TIME_UNITS s u r) : WordIn stop Systemd.TIME_UNITS_WITH_NANOS s u r := by
  obtain ⟨w, h1, h2, h3⟩ := h
  exact ⟨w, h1, h2, nanos_extends h3⟩

theorem unitMulti_extends {cfg : Config} {s r : Bytes} {u : TimeUnit × Multiplier}
    (h : UnitMulti cfg Systemd.TIME_UNITS s u r) : UnitMulti cfg Systemd.TIME_UNITS_WITH_NANOS s u r := by
  cases h with
  | mk h1 h2 h3 => exact .mk (wordIn_extends h1) h2 h3

/-- a text which starts with `n` is not a duration without nanoseconds, unless it starts with a word of the table -/
theorem not_micros {cfg : Config} (hi : cfg.disableInfinity = true) {s t : Bytes} (hs : s = 110 :: t)
    {l : List (Bool × Item)}
    (h : Durations cfg Systemd.TIME_UNITS none none s l) : ∃ u r, WordIn (UnitEnd cfg) Systemd.TIME_UNITS s u r := by
  have key : ∀ {neg r item rest}, SignPart cfg s neg r → MultiText cfg Systemd.TIME_UNITS none none r item rest →
      ∃ u r, WordIn (UnitEnd cfg) Systemd.TIME_UNITS s u r := by
    intro neg r item rest h1 h2
    have : r = s := by
      cases h1 with
      | absent => rfl
      | plus => cases hs
      | minus => cases hs
    subst this
    have hn : ∀ {W F e r'}, ¬ NumberText cfg r W F e r' := by
      intro W F e r' h
      rcases numberText_head h with ⟨b, l, h, hb⟩ | ⟨b, l, h, hb⟩ <;> rw [hs] at h <;> cases h <;> revert hb <;> decide
    cases h2 with
    | numberEnd h => exact absurd h hn
    | numberUnit h => exact absurd h hn
    | number h => exact absurd h hn
    | inf h => rw [hi] at h; cases h
    | infinity h => rw [hi] at h; cases h
    | keyword _ h => cases h
    | unit _ _ _ h =>
      cases h with
      | mk h => exact ⟨_, _, h⟩
    | numeral _ _ _ h => cases h
  cases h with
  | last h1 h2 => exact key h1 h2
  | more h1 h2 => exact key h1 h2

theorem connection_absent {cfg : Config} {s rest : Bytes} (hs : ¬ StartsWith (cfg.outerDelimiter · = true) s)
    (h : Connection cfg s rest) : rest = s := by
  have key : ∀ {ds r}, Split (cfg.outerDelimiter · = true) s ds r → ds ≠ [] → False := by
    rintro ds r ⟨rfl, h2, -⟩ h3
    cases ds with
    | nil => exact h3 rfl
    | cons b ds => exact hs ⟨b, ds ++ r, rfl, h2 b (by simp)⟩
  cases h with
  | absent => rfl
  | delims k1 k2 => exact (key k1 k2).elim
  | conjunction k1 k2 => exact (key k1 k2).elim

theorem multiText_extends {cfg : Config} (hi : cfg.disableInfinity = true) (hd : cfg.outerDelimiter 110 = false)
    {s rest : Bytes} {item : Item} (h : MultiText cfg Systemd.TIME_UNITS none none s item rest)
    (hr : rest = [] ∨ ∃ l, Durations cfg Systemd.TIME_UNITS none none rest l) :
    MultiText cfg Systemd.TIME_UNITS_WITH_NANOS none none s item rest := by
  cases h with
  | numberEnd h => exact .numberEnd h
  | numberUnit h1 h2 h3 h4 => exact .numberUnit h1 h2 rfl (unitMulti_extends h4)
  | number h1 h2 h3 h4 h5 =>
    refine .number h1 h2 h3 ?_ h5
    rename_i r'
    rintro - ⟨u, t, w, g1, g2, g3⟩
    have hn : Systemd.TIME_UNITS.get w = none := by
      cases hg : Systemd.TIME_UNITS.get w with
      | none => rfl
      | some u' => exact absurd ⟨u', t, w, g1, g2, hg⟩ (h4 rfl)
    have hh : ∃ l, r' = 110 :: l := by
      rw [g1.1]
      rcases nanos_extra g3 hn with rfl | rfl
      · exact ⟨_, rfl⟩
      · exact ⟨_, rfl⟩
    obtain ⟨l, hl⟩ := hh
    have hc : rest = r' := by
      refine connection_absent ?_ h5
      rw [hl, startsWith_cons, hd]
      simp
    subst hc
    rcases hr with hr | ⟨l', hr⟩
    · exact h3 hr
    · exact h4 rfl (not_micros hi hl hr)
  | inf h => rw [hi] at h; cases h
  | infinity h => rw [hi] at h; cases h
  | keyword _ h => cases h
  | unit h1 h2 h3 h4 => exact .unit h1 (by intro k h; cases h) h3 (unitMulti_extends h4)
  | numeral _ _ _ h => cases h

theorem durations_extends {cfg : Config} (hi : cfg.disableInfinity = true) (hd : cfg.outerDelimiter 110 = false)
    {s : Bytes} {l : List (Bool × Item)} (h : Durations cfg Systemd.TIME_UNITS none none s l) :
    Durations cfg Systemd.TIME_UNITS_WITH_NANOS none none s l := by
  induction h with
  | last h1 h2 => exact .last h1 (multiText_extends hi hd h2 (Or.inl rfl))
  | more h1 h2 h3 h4 ih => exact .more h1 (multiText_extends hi hd h2 (Or.inr ⟨_, h4⟩)) h3 ih

/-- C40: a text which is accepted without the nanosecond units is accepted with them, with the same result (for the
same default unit and the same maximum). -/
theorem C40_extends (u : TimeUnit) (s : Bytes) (hs : IsText s) (max d : Duration)
    (h : (TimeSpanParser.withDefaultUnit u).parseWithMax s max = .ok d) :
    (TimeSpanParser.withDefaultUnit u).parseNanosWithMax s max = .ok d := by
  cases hm : max.isNegative with
  | true =>
    rw [show (TimeSpanParser.withDefaultUnit u).parseWithMax s max = _ from C38_negative_max false _ s max hm] at h
    cases h
  | false =>
    obtain ⟨m, h1, h2, h3⟩ := parseMax_eq false (TimeSpanParser.withDefaultUnit u) s max hm hs
    obtain ⟨m', h1', h2', h3'⟩ := parseMax_eq true (TimeSpanParser.withDefaultUnit u) s max hm hs
    obtain rfl := trimmed_unique h1 h1'
    rw [show (TimeSpanParser.withDefaultUnit u).parseWithMax s max = _ from h3] at h
    rw [show (TimeSpanParser.withDefaultUnit u).parseNanosWithMax s max = _ from h3']
    by_cases hi : m = b! "infinity"
    · rw [if_pos hi] at h ⊢
      exact h
    · rw [if_neg hi] at h ⊢
      cases hp : Fundu.parse (TimeSpanParser.withDefaultUnit u).config (tableOf false) none none m with
      | error e => rw [hp] at h; cases h
      | ok d1 =>
        rw [hp] at h
        obtain ⟨hd, ds, ⟨items, k1, k2⟩, k3⟩ := C29_saturating_sum (TimeSpanParser.withDefaultUnit u).config (tableOf false)
          none none m h2 (systemd_cfgText u) rfl (Or.inr ⟨rfl, rfl⟩) d1 hp
        obtain ⟨d2, q1, q2, q3⟩ := (C27_multiple (TimeSpanParser.withDefaultUnit u).config (tableOf true) none none m (nanos d1)
          h2 (systemd_cfgText u) rfl (Or.inr ⟨rfl, rfl⟩)).2
          ⟨ds, ⟨items, durations_extends rfl (show Systemd.DELIMITER 110 = false by decide) k1, k2⟩, k3⟩
        have n1 := (C22_nonnegative (TimeSpanParser.withDefaultUnit u).config (tableOf false) none none m d1 rfl hp).1
        have n2 := (C22_nonnegative (TimeSpanParser.withDefaultUnit u).config (tableOf true) none none m d2 rfl q1).1
        have : d2 = d1 := Duration.eq_of q2 hd (by rw [n1, n2]) q3
        rw [q1, this]
        exact h

/-- The converse is false: `1ns` -/
example : (TimeSpanParser.withDefaultUnit .hour).parseWithMax (b! "1 2s") Duration.MAX = .ok ⟨false, ⟨3602, 0⟩⟩ ∧
    (TimeSpanParser.withDefaultUnit .hour).parseNanosWithMax (b! "1 2s") Duration.MAX = .ok ⟨false, ⟨3602, 0⟩⟩ ∧
    (TimeSpanParser.withDefaultUnit .hour).parseNanosWithMax (b! "1ns") Duration.MAX = .ok ⟨false, ⟨0, 1⟩⟩ ∧
    ((TimeSpanParser.withDefaultUnit .hour).parseWithMax (b! "1ns") Duration.MAX).toOption = none := by decide +kernel

/-! ## C58 -/

/-- how time spans are written for systemd -/
def systemdFormat (nanos : Bool) : SpanFormat where
  ids := UnitIn (documentedOf nanos)
  space := PosixSpace
  gaps := True
  bare := True
  fractions := True

theorem systemd_idText (nanos : Bool) : ∀ p ∈ documentedOf nanos, ∀ id ∈ p.1, id ≠ [] ∧
    (∀ b ∈ id, ¬ PosixSpace b ∧ ¬ (IsDigit b ∨ b = 43 ∨ b = 45)) ∧
    ∀ b, id.head? = some b → b ≠ 46 ∧ b ≠ 101 ∧ b ≠ 69 ∧ lower b ≠ 105 ∧ lower b ≠ 97 := by
  have : ∀ p ∈ documentedOf nanos, ∀ id ∈ p.1, id ≠ [] ∧
      (∀ b ∈ id, ¬ PosixSpace b ∧ ¬ (IsDigit b ∨ b = 43 ∨ b = 45)) ∧
      ∀ b ∈ id.head?, b ≠ 46 ∧ b ≠ 101 ∧ b ≠ 69 ∧ lower b ≠ 105 ∧ lower b ≠ 97 := by
    cases nanos <;> decide +kernel
  exact this

theorem documented_length {u : TimeUnit} {id : Bytes} {len : Nat} (h : (u, id, len) ∈ documentedUnits) :
    Length (product u.multiplier ⟨1, 0⟩) len := by
  have hp : product u.multiplier ⟨1, 0⟩ = u.multiplier := by simp [product]
  obtain ⟨h1, h2, h3⟩ := documented_multiplier h
  rw [hp]
  refine ⟨h1, h2, ?_, ?_, h3⟩ <;> cases u <;> decide

theorem systemd_formatOk (nanos : Bool) (u : TimeUnit) :
    FormatOk (TimeSpanParser.withDefaultUnit u).config (tableOf nanos) none (systemdFormat nanos) where
  inner b := (systemd_delimiter b).symm
  outer b := (systemd_delimiter b).symm
  spaces := by
    rintro b (rfl | rfl | rfl | rfl | rfl | rfl) <;> refine ⟨?_, by decide, by decide, by decide⟩ <;>
      rintro (h | h) <;> revert h <;> decide
  gaps _ := rfl
  bare _ := rfl
  fraction := fun _ => rfl
  nonempty := by cases nanos <;> rfl
  ids := by
    rintro id len ⟨ids, h1, h2⟩
    obtain ⟨p, g1, g2, q, g3, g4, g5⟩ := systemd_get_ids nanos id (List.mem_flatMap.2 ⟨_, h1, h2⟩)
    have := systemd_ids_unique nanos _ h1 _ g1 id h2 g2
    rw [← this] at g4
    refine ⟨q.1, ⟨1, 0⟩, g5, ?_, ?_⟩
    · exact (systemd_fits nanos id q.1 ⟨1, 0⟩ g5).2.2
    · have h3 : (q.1, q.2.1, len) ∈ documentedUnits := by
        have e : q = (q.1, q.2.1, len) := by rw [← show q.2.2 = len from g4]
        rw [← e]; exact g3
      exact documented_length h3
  idText := by
    rintro id len ⟨ids, h1, h2⟩
    exact systemd_idText nanos _ h1 id h2
  keywords := by intro _ k h; cases h

theorem sum_min {l : List Int} (h : ∀ x ∈ l, 0 ≤ x) (M m : Int) (hm : m ≤ M) :
    min m ((l.map (min M)).sum) = min m l.sum ∧ 0 ≤ (l.map (min M)).sum ∨ M < 0 := by
  by_cases hM : M < 0
  · exact Or.inr hM
  left
  induction l with
  | nil => simp
  | cons x l ih =>
    obtain ⟨h1, h2⟩ := ih (fun y hy => h y (by simp [hy]))
    have hx := h x (by simp)
    rw [List.map_cons, List.sum_cons, List.sum_cons]
    have h3 : 0 ≤ l.sum := by
      have hl : ∀ y ∈ l, 0 ≤ y := fun y hy => h y (by simp [hy])
      clear h1 h2 ih h
      induction l with
      | nil => simp
      | cons y l ih =>
        have h1 := hl y (by simp)
        have h2 := ih (fun z hz => hl z (by simp [hz]))
        rw [List.sum_cons]
        omega
    generalize (l.map (min M)).sum = a at *
    generalize l.sum = b at *
    constructor <;> omega

/-- the durations of amounts without negative signs -/
theorem spans_values {cfg : Config} {items : List (Bool × Item)} {l : List (Bool × Int)}
    (h : List.Forall₂ (fun i p => i.1 = p.1 ∧ ItemIs cfg i p.2) items l) (hn : ∀ p ∈ l, p.1 = false) :
    ∃ ds, List.Forall₂ (fun i d => Accepted cfg i.1 i.2 d) items ds ∧
      ds.map nanos = (l.map Prod.snd).map (min maxNanos) ∧ ∀ x ∈ l.map Prod.snd, 0 ≤ x := by
  induction h with
  | nil => exact ⟨[], .nil, rfl, by simp⟩
  | cons h1 _ ih =>
    rename_i i p items l _
    obtain ⟨ds, k1, k2, k3⟩ := ih (fun q hq => hn q (by simp [hq]))
    obtain ⟨h1, d, g1, g2, g3, g4⟩ := h1
    have hp := hn p (by simp)
    rw [hp] at h1
    refine ⟨d :: ds, .cons ⟨g1, Or.inr (g4 h1)⟩ k1, ?_, ?_⟩
    · rw [List.map_cons, List.map_cons, List.map_cons, k2, g2, h1]
      simp
    · intro x hx
      rcases List.mem_cons.1 hx with rfl | hx
      · exact g3
      · exact k3 x hx

/-- C58: a sequence of time spans - numbers with an optional decimal point and one of the documented units, or units
alone, with any white space between them - is accepted and its value is the exact sum of the amounts, or `max` if that
is greater. -/
theorem C58_spans (nanos' : Bool) (u : TimeUnit) (s m : Bytes) (hs : IsText s) (hm' : Trimmed s m)
    (l : List (Bool × Int)) (h : Spans (systemdFormat nanos') m l) (hn : ∀ p ∈ l, p.1 = false)
    (max : Duration) (hw : max.WF) (hm : max.isNegative = false) :
    ∃ d, parseMax nanos' (TimeSpanParser.withDefaultUnit u) s max = .ok d ∧
      nanos d = min (nanos max) (l.map Prod.snd).sum := by
  have hi : m ≠ b! "infinity" := by
    rintro rfl
    obtain ⟨b, r, e, g1, -⟩ : ∃ b r, b! "infinity" = b :: r ∧ (lower b ≠ 105) ∧ True := by
      have key : ∀ {sign t : Bytes} {neg : Bool} {x : Int}, SignText sign neg → SpanText (systemdFormat nanos') t x →
          ∃ b r, sign ++ t = b :: r ∧ lower b ≠ 105 := by
        intro sign t neg x h1 h2
        rcases h1 with ⟨rfl, rfl⟩ | ⟨rfl, rfl⟩ | ⟨rfl, rfl⟩
        · have hd : ∀ {W r : Bytes}, AllDigits W → W ≠ [] → ∃ b l, W ++ r = b :: l ∧ lower b ≠ 105 := by
            intro W r hW hne
            cases W with
            | nil => exact absurd rfl hne
            | cons b l =>
              refine ⟨b, l ++ r, rfl, ?_⟩
              have := hW b (by simp)
              unfold lower
              rw [if_neg (by have := this.2; omega)]
              rintro rfl
              revert this; decide
          rw [List.nil_append]
          cases h2 with
          | number k1 k2 => exact hd k1 k2
          | fraction k1 k2 => exact hd k1 k2
          | unit _ k =>
            obtain ⟨ids, k1, k2⟩ := k
            obtain ⟨q1, q2, q3⟩ := systemd_idText nanos' _ k1 t k2
            cases t with
            | nil => exact absurd rfl q1
            | cons b l => exact ⟨b, l, rfl, (q3 b rfl).2.2.2.1⟩
        · exact ⟨43, t, rfl, by decide⟩
        · exact ⟨45, t, rfl, by decide⟩
      generalize hinf : b! "infinity" = inf at h
      cases h with
      | last k1 k2 =>
        obtain ⟨b, r, e, k⟩ := key k1 k2
        exact ⟨b, r, e, k, trivial⟩
      | more k1 k2 =>
        rename_i gap rest _ _ _ _ _ _
        obtain ⟨b, r, e, k⟩ := key k1 k2
        exact ⟨b, r ++ (gap ++ rest), by rw [← List.append_assoc, e]; rfl, k, trivial⟩
    cases e
    exact g1 (by decide)
  obtain ⟨items, g1, g2⟩ := spans_durations (numerals := none) (systemd_formatOk nanos' u) rfl h
  obtain ⟨ds, k1, k2, k3⟩ := spans_values g2 hn
  refine (C38_value nanos' u s m hs hm' hi max hw hm _).2 ⟨ds, ⟨items, g1, k1⟩, ?_⟩
  rw [k2]
  have hmax : nanos max ≤ maxNanos := (nanos_representable max hw).2
  rcases sum_min k3 maxNanos (nanos max) hmax with h | h
  · exact h.1.symm
  · exact absurd h (by decide)

/-- `1y 2.5 h+week` is such a sequence -/
example : ∃ l, Spans (systemdFormat false) (b! "1y 2.5 h+week") l ∧ (∀ p ∈ l, p.1 = false) ∧
    (l.map Prod.snd).sum = 32171400 * 1000000000 := by
  have h1 : SpanText (systemdFormat false) (b! "1" ++ ([] ++ b! "y")) _ :=
    .number (len := 31557600000000000) (by decide) (by decide) (by simp) (Or.inl rfl) ⟨[b! "years", b! "year", b! "y"], by decide, by decide⟩
  have h2 : SpanText (systemdFormat false) (b! "2" ++ (46 :: (b! "5" ++ (b! " " ++ b! "h")))) _ :=
    .fraction (len := 3600000000000) (by decide) (by decide) (by decide) (by decide) trivial
      (by intro b hb; exact Or.inl (by simpa using hb)) (Or.inr trivial)
      ⟨[b! "hours", b! "hour", b! "hr", b! "h"], by decide, by decide⟩
  have h3 : SpanText (systemdFormat false) (b! "week") _ :=
    .unit (len := 604800000000000) trivial ⟨[b! "weeks", b! "week", b! "w"], by decide, by decide⟩
  have := Spans.more (sign := []) (gap := b! " ") (Or.inl ⟨rfl, rfl⟩) h1 (by intro b hb; exact Or.inl (by simpa using hb))
    (Or.inl (by decide)) (Spans.more (sign := []) (gap := []) (Or.inl ⟨rfl, rfl⟩) h2 (by simp)
      (Or.inr ⟨43, _, rfl, Or.inr (Or.inl rfl)⟩) (Spans.last (sign := b! "+") (Or.inr (Or.inl ⟨rfl, rfl⟩)) h3))
  refine ⟨_, this, by simp, ?_⟩
  have e1 : decimal (b! "1") = 1 := by decide
  have e2 : decimal (b! "2") = 2 := by decide
  have e5 : decimal (b! "5") = 5 := by decide
  simp only [List.map_cons, List.map_nil, List.sum_cons, List.sum_nil, e1, e2, e5]
  norm_num

end Fundu.Props
