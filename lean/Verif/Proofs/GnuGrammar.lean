import Verif.Proofs.GnuItem
import Verif.Proofs.Spans
import Verif.Props.GnuWords
import Verif.Props.Trim
/-! # The syntax of gnu relative times is an instance of the syntax of durations -/
namespace Fundu.Gnu
open Fundu Fundu.Spec Fundu.Props

theorem delimiter_iff (b : UInt8) : DELIMITER b = true ↔ PosixSpace b := Props.isPosixSpace_iff b

theorem inner_eq : (fun b => CONFIG.innerDelimiter b = true) = PosixSpace := by
  funext b; exact propext (delimiter_iff b)
theorem outer_eq : (fun b => CONFIG.outerDelimiter b = true) = PosixSpace := by
  funext b; exact propext (delimiter_iff b)

theorem keywordEnd_eq : KeywordEnd CONFIG = GnuEnd := by
  funext b
  exact propext (or_congr (delimiter_iff b) Iff.rfl)

theorem unitEnd_eq : UnitEnd CONFIG = GnuEnd := by
  funext b
  apply propext
  constructor
  · rintro (h | h | h)
    · exact Or.inl ((delimiter_iff b).1 h.2)
    · exact Or.inl ((delimiter_iff b).1 h)
    · exact Or.inr h
  · rintro (h | h)
    · exact Or.inr (Or.inl ((delimiter_iff b).2 h))
    · exact Or.inr (Or.inr h)

theorem startsWith_nil {p : UInt8 → Prop} : ¬ StartsWith p [] := by rintro ⟨b, l, h, -⟩; cases h

theorem split_exists (s : Bytes) : ∃ sp r, Split PosixSpace s sp r := by
  refine ⟨_, _, (split_iff (q := DELIMITER) (fun b => (delimiter_iff b).symm) s _ _).2 ⟨rfl, rfl⟩⟩

theorem split_nil_run {p : UInt8 → Prop} {s : Bytes} (h : ¬ StartsWith p s) : Split p s [] s :=
  ⟨rfl, (fun b hb => by cases hb), h⟩

theorem split_ne {p : UInt8 → Prop} {s a r : Bytes} (h : Split p s a r) : a ≠ [] ↔ StartsWith p s := by
  obtain ⟨rfl, h2, h3⟩ := h
  cases a with
  | nil => exact ⟨fun hh => absurd rfl hh, fun hh => absurd hh h3⟩
  | cons b l => exact ⟨fun _ => ⟨b, l ++ r, rfl, h2 b (by simp)⟩, fun _ => by simp⟩

theorem connection_gnu {s rest : Bytes} : Connection CONFIG s rest ↔ GnuGap s rest := by
  have hc : CONFIG.conjunctions.getD [] = [] := rfl
  constructor
  · intro h
    cases h with
    | absent h =>
      rw [outer_eq] at h
      exact ⟨⟨[], split_nil_run h⟩, id⟩
    | @delims ds _ h1 h2 h3 h4 =>
      rw [outer_eq] at h1
      exact ⟨⟨ds, h1⟩, fun hh => absurd hh h3⟩
    | conjunction h1 h2 h3 =>
      rw [hc] at h3
      simp at h3
  · rintro ⟨⟨sp, h1⟩, h2⟩
    by_cases hsp : sp = []
    · subst hsp
      have he : s = rest := by rw [h1.1]; rfl
      subst he
      refine .absent ?_
      rw [outer_eq]
      exact h1.2.2
    · refine .delims (by rw [outer_eq]; exact h1) hsp ?_ (by rw [hc]; simp)
      intro hh
      have := h2 hh
      rw [h1.1] at this
      simp at this
      exact hsp this.1

theorem agoText_gnu {s rest : Bytes} : AgoText CONFIG s rest ↔
    AfterWord (b! "ago") s rest ∧ (rest = [] ∨ StartsWith GnuEnd rest) := by
  unfold AgoText
  rw [keywordEnd_eq]

/-- the multiplier with or without `ago` -/
def withAgo (ago : Bool) (m : Multiplier) : Multiplier := if ago then negated m else m

theorem agoPart_gnu {s rest : Bytes} {m m' : Multiplier} :
    (∃ r, AgoPart CONFIG s m m' r ∧ Connection CONFIG r rest) ↔
      ∃ r ago, GnuAgo s ago r ∧ GnuGap r rest ∧ m' = withAgo ago m := by
  simp only [connection_gnu]
  constructor
  · rintro ⟨r, h, hg⟩
    cases h with
    | absent h =>
      have h := h rfl
      rw [inner_eq] at h
      refine ⟨s, false, .absent ?_, hg, rfl⟩
      rintro ⟨r, sp, r', h1, h2, -⟩
      exact h ((split_ne h1).1 h2)
    | @other ds r' _ h1 h2 h3 h4 =>
      rw [inner_eq] at h1
      refine ⟨s, false, .absent ?_, hg, rfl⟩
      rintro ⟨t, sp, r2, g1, g2, g3⟩
      obtain ⟨rfl, rfl⟩ := split_unique g1 h1
      exact h4 ⟨t, agoText_gnu.2 g3⟩
    | @ago ds r' _ _ h1 h2 h3 =>
      rw [inner_eq] at h1
      exact ⟨r, true, .present ⟨ds, r', h1, h2, agoText_gnu.1 h3⟩, hg, rfl⟩
  · rintro ⟨r, ago, h, hg, rfl⟩
    cases h with
    | absent h =>
      refine ⟨s, ?_, hg⟩
      by_cases hs : StartsWith PosixSpace s
      · obtain ⟨sp, r, h1⟩ := split_exists s
        have hsp := (split_ne h1).2 hs
        refine .other rfl (by rw [inner_eq]; exact h1) hsp ?_ ?_
        · intro hr
          obtain ⟨⟨sp', h2⟩, h3⟩ := hg
          obtain ⟨rfl, rfl⟩ := split_unique h2 h1
          have := h3 hr
          rw [this] at hs
          exact startsWith_nil hs
        · rintro ⟨t, ht⟩
          exact h ⟨t, sp, r, h1, hsp, agoText_gnu.1 ht⟩
      · refine .absent ?_
        intro _
        rw [inner_eq]
        exact hs
    | present h =>
      obtain ⟨sp, r', h1, h2, h3⟩ := h
      exact ⟨r, .ago rfl (by rw [inner_eq]; exact h1) h2 (agoText_gnu.2 h3), hg⟩

/-! ## Words -/

theorem gnuWord_ne {table : List (List Bytes × GnuLength)} {w : Bytes} {len : GnuLength} (h : GnuWord table w len)
    (ht : ∀ p ∈ table, ∀ n ∈ p.1, n ≠ []) : w ≠ [] := by
  obtain ⟨names, h1, n, h2, h3⟩ := h
  rintro rfl
  have : n.length = 0 := by
    have := congrArg List.length h3
    simpa using this.symm
  exact ht _ h1 n h2 (List.length_eq_zero_iff.1 this)

/-- the units of the tables -/
def baseUnits : List (TimeUnit × Multiplier) :=
  [SECOND_UNIT, MINUTE_UNIT, HOUR_UNIT, DAY_UNIT, WEEK_UNIT, FORTNIGHT_UNIT, MONTH_UNIT, YEAR_UNIT]

/-- and those of the keywords -/
def baseKeywords : List (TimeUnit × Multiplier) := [(.day, ⟨0, 0⟩), (.day, ⟨1, 0⟩), (.day, ⟨-1, 0⟩)]

theorem units_base {w : Bytes} {u : TimeUnit × Multiplier} (h : TIME_UNITS.get w = some u) : u ∈ baseUnits := by
  rw [Props.gnu_units_get, look_some (by decide)] at h
  have : ∀ e ∈ unitTable, e.2 ∈ baseUnits := by decide
  exact this _ h

theorem keywords_base {w : Bytes} {u : TimeUnit × Multiplier} (h : TIME_KEYWORDS.get w = some u) : u ∈ baseKeywords := by
  rw [Props.gnu_keywords_get, look_some (by decide)] at h
  have : ∀ e ∈ keywordTable, e.2 ∈ baseKeywords := by decide
  exact this _ h

theorem numerals_base {w : Bytes} {q : Multiplier} (h : NUMERALS w = some q) : q.exponent = 0 ∧ q.coefficient.natAbs ≤ 12 := by
  rw [Props.gnu_numerals_get, look_some (by decide)] at h
  have : ∀ e ∈ numeralTable, e.2.exponent = 0 ∧ e.2.coefficient.natAbs ≤ 12 := by decide
  exact this _ h

instance (u : TimeUnit × Multiplier) : Decidable (UnitOk u) := by unfold UnitOk; infer_instance

theorem base_ok {u : TimeUnit × Multiplier} (h : u ∈ baseUnits) (ago : Bool) :
    UnitOk (u.1, withAgo ago u.2) ∧ (withAgo ago u.2).coefficient ≠ 0 := by
  revert u ago; decide

theorem keyword_ok {u : TimeUnit × Multiplier} (h : u ∈ baseKeywords) : UnitOk u := by
  revert u; decide

theorem wordAt_units {s rest : Bytes} {len : GnuLength} :
    GnuWordAt gnuUnits s len rest ↔ ∃ u, WordIn GnuEnd TIME_UNITS s u rest ∧ UnitMeans u len := by
  constructor
  · rintro ⟨w, h1, h2⟩
    obtain ⟨u, g1, g2⟩ := ((Props.C41_units w).1 len).1 h2
    exact ⟨u, ⟨w, h1, gnuWord_ne h2 (by decide), g1⟩, g2⟩
  · rintro ⟨u, ⟨w, h1, -, h3⟩, h4⟩
    exact ⟨w, h1, ((Props.C41_units w).1 len).2 ⟨u, h3, h4⟩⟩

theorem wordIn_units {s rest : Bytes} {u : TimeUnit × Multiplier} (h : WordIn GnuEnd TIME_UNITS s u rest) :
    ∃ len, UnitMeans u len ∧ GnuWordAt gnuUnits s len rest := by
  obtain ⟨w, h1, -, h3⟩ := h
  obtain ⟨len, g1, g2⟩ := (Props.C41_units w).2 u h3
  exact ⟨len, g1, w, h1, g2⟩

theorem wordAt_keywords {s rest : Bytes} {len : GnuLength} :
    GnuWordAt gnuKeywords s len rest ↔ ∃ u, WordIn GnuEnd TIME_KEYWORDS s u rest ∧ UnitMeans u len := by
  constructor
  · rintro ⟨w, h1, h2⟩
    obtain ⟨u, g1, g2⟩ := ((Props.C41_keywords w).1 len).1 h2
    exact ⟨u, ⟨w, h1, gnuWord_ne h2 (by decide), g1⟩, g2⟩
  · rintro ⟨u, ⟨w, h1, -, h3⟩, h4⟩
    exact ⟨w, h1, ((Props.C41_keywords w).1 len).2 ⟨u, h3, h4⟩⟩

theorem wordIn_keywords {s rest : Bytes} {u : TimeUnit × Multiplier} (h : WordIn GnuEnd TIME_KEYWORDS s u rest) :
    ∃ len, UnitMeans u len ∧ GnuWordAt gnuKeywords s len rest := by
  obtain ⟨w, h1, -, h3⟩ := h
  obtain ⟨len, g1, g2⟩ := (Props.C41_keywords w).2 u h3
  exact ⟨len, g1, w, h1, g2⟩

theorem unitMulti_gnu {s rest : Bytes} {u' : TimeUnit × Multiplier} (h : UnitMulti CONFIG TIME_UNITS s u' rest) :
    ∃ u len ago, u ∈ baseUnits ∧ UnitMeans u len ∧ GnuUnitAt s len ago rest ∧ u' = (u.1, withAgo ago u.2) := by
  cases h with
  | @mk t m m' r r' _ h1 h2 h3 =>
    rw [unitEnd_eq] at h1
    obtain ⟨len, g1, g2⟩ := wordIn_units h1
    obtain ⟨r2, ago, k1, k2, rfl⟩ := agoPart_gnu.1 ⟨r', h2, h3⟩
    obtain ⟨w, -, -, h5⟩ := h1
    exact ⟨(t, m), len, ago, units_base h5, g1, ⟨r, r2, g2, k1, k2⟩, rfl⟩

theorem gnu_unitMulti {s rest : Bytes} {len : GnuLength} {ago : Bool} (h : GnuUnitAt s len ago rest) :
    ∃ u, u ∈ baseUnits ∧ UnitMeans u len ∧ UnitMulti CONFIG TIME_UNITS s (u.1, withAgo ago u.2) rest := by
  obtain ⟨r, r', h1, h2, h3⟩ := h
  obtain ⟨⟨t, m⟩, g1, g2⟩ := wordAt_units.1 h1
  obtain ⟨r2, k1, k2⟩ := agoPart_gnu.2 ⟨r', ago, h2, h3, (rfl : withAgo ago m = withAgo ago m)⟩
  have hb : (t, m) ∈ baseUnits := by
    obtain ⟨w, -, -, h5⟩ := g1
    exact units_base h5
  exact ⟨(t, m), hb, g2, .mk (by rw [unitEnd_eq]; exact g1) k1 k2⟩

/-! ## Amounts -/

theorem amount_unit {u : TimeUnit × Multiplier} {len : GnuLength} (hb : u ∈ baseUnits) (h : UnitMeans u len) (neg ago : Bool)
    (n : Int) : amount u.1 (sg neg * (withAgo ago u.2).coefficient * n) = timesLength (signedBy neg ago n) len := by
  have key : ∀ k : Int, u.2.coefficient = k → (withAgo ago u.2).coefficient = if ago then -k else k := by
    intro k hk
    have : ∀ u ∈ baseUnits, ∀ ago, (withAgo ago u.2).coefficient = if ago then -u.2.coefficient else u.2.coefficient := by decide
    rw [this u hb ago, hk]
  unfold baseUnits at hb
  simp only [List.mem_cons, List.not_mem_nil, or_false] at hb
  have ex : ∀ (t : TimeUnit) (k l : Int), u = (t, ⟨k, 0⟩) → t ≠ .month → t ≠ .year → len = .seconds l →
      t.multiplier.coefficient * k = l →
      amount u.1 (sg neg * (withAgo ago u.2).coefficient * n) = timesLength (signedBy neg ago n) len := by
    intro t k l hu hm hy hl hk
    rw [key k (by rw [hu])]
    subst hu hl hk
    rw [amount_exact hm hy]
    unfold timesLength sg signedBy
    simp only
    congr 2
    cases neg <;> cases ago <;> simp <;> ring
  have fz : u.2.coefficient = 1 → sg neg * (withAgo ago u.2).coefficient * n = signedBy neg ago n := by
    intro hk
    rw [key 1 hk]
    unfold sg signedBy
    cases neg <;> cases ago <;> simp
  rcases hb with rfl | rfl | rfl | rfl | rfl | rfl | rfl | rfl
  · exact ex .second 1 1 rfl (by decide) (by decide) (Props.unitMeans_unique h (by decide)) (by decide)
  · exact ex .minute 1 60 rfl (by decide) (by decide) (Props.unitMeans_unique h (by decide)) (by decide)
  · exact ex .hour 1 3600 rfl (by decide) (by decide) (Props.unitMeans_unique h (by decide)) (by decide)
  · exact ex .day 1 86400 rfl (by decide) (by decide) (Props.unitMeans_unique h (by decide)) (by decide)
  · exact ex .week 1 604800 rfl (by decide) (by decide) (Props.unitMeans_unique h (by decide)) (by decide)
  · exact ex .week 2 1209600 rfl (by decide) (by decide) (Props.unitMeans_unique h (by decide)) (by decide)
  · rw [fz rfl, Props.unitMeans_unique h (show UnitMeans MONTH_UNIT .months from rfl)]; rfl
  · rw [fz rfl, Props.unitMeans_unique h (show UnitMeans YEAR_UNIT .years from rfl)]; rfl

theorem amount_keyword {u : TimeUnit × Multiplier} {len : GnuLength} (hb : u ∈ baseKeywords) (h : UnitMeans u len) (neg : Bool) :
    amount u.1 (sg neg * u.2.coefficient) = timesLength (signedBy neg false 1) len := by
  unfold baseKeywords at hb
  simp only [List.mem_cons, List.not_mem_nil, or_false] at hb
  rcases hb with rfl | rfl | rfl
  · rw [Props.unitMeans_unique h (show UnitMeans (.day, ⟨0, 0⟩) (.seconds 0) by decide)]
    cases neg <;> decide
  · rw [Props.unitMeans_unique h (show UnitMeans (.day, ⟨1, 0⟩) (.seconds 86400) by decide)]
    cases neg <;> decide
  · rw [Props.unitMeans_unique h (show UnitMeans (.day, ⟨-1, 0⟩) (.seconds (-86400)) by decide)]
    cases neg <;> decide

theorem second_iff {u : TimeUnit × Multiplier} {len : GnuLength} (hb : u ∈ baseUnits) (h : UnitMeans u len) :
    u.1 = .second ↔ len = .seconds 1 := by
  constructor
  · intro hs
    have : u = SECOND_UNIT := by
      have : ∀ u ∈ baseUnits, u.1 = .second → u = SECOND_UNIT := by decide
      exact this u hb hs
    subst this
    exact Props.unitMeans_unique h (by decide)
  · rintro rfl
    have : ∀ u ∈ baseUnits, UnitMeans u (.seconds 1) → u.1 = .second := by decide
    exact this u hb h

theorem second_coefficient {u : TimeUnit × Multiplier} (hb : u ∈ baseUnits) (hs : u.1 = .second) (neg ago : Bool) (x : Int) :
    sg neg * (withAgo ago u.2).coefficient * x = signedBy neg ago x := by
  have : u = SECOND_UNIT := by
    have : ∀ u ∈ baseUnits, u.1 = .second → u = SECOND_UNIT := by decide
    exact this u hb hs
  subst this
  have hk : ∀ ago, (withAgo ago SECOND_UNIT.2).coefficient = if ago then -1 else 1 := by decide
  rw [hk]
  unfold sg signedBy
  cases neg <;> cases ago <;> simp

/-! ## Numbers -/

theorem exponent_gnu {s rest : Bytes} {e : Int} (h : ExponentPart CONFIG s e rest) :
    e = 0 ∧ rest = s ∧ ¬ StartsWith (fun b => b = 101 ∨ b = 69) s := by
  cases h with
  | absent h => exact ⟨rfl, rfl, h⟩
  | present _ h => exact absurd h (by decide)

theorem point_of_split {s W r : Bytes} (h : Split IsDigit s W r) : L.point s = true ↔ StartsWith (· = 46) r := by
  have := ((splitDigit_iff s W r).1 h).2
  unfold L.point
  rw [← this, ← startsWith_iff point_iff]

theorem number_digits {s W F rest : Bytes} {e : Int} (h : NumberText CONFIG s W F e rest) :
    e = 0 ∧ ((L.point s = false ∧ F = [] ∧ GnuDigits s W rest) ∨
      (L.point s = true ∧ (W ≠ [] → F ≠ [] → GnuDecimal s W F rest))) := by
  obtain ⟨r1, r2, h1, h2, h3⟩ := h
  obtain ⟨rfl, rfl, h4⟩ := exponent_gnu h3
  refine ⟨rfl, ?_⟩
  cases h2 with
  | absent g1 g2 =>
    left
    refine ⟨by rw [← Bool.not_eq_true, point_of_split h1]; exact g2, rfl, h1, g1, ?_⟩
    rintro ⟨b, l, k1, k2 | k2⟩
    · exact g2 ⟨b, l, k1, k2⟩
    · exact h4 ⟨b, l, k1, k2⟩
  | present g1 g2 g3 =>
    right
    refine ⟨(point_of_split h1).2 (startsWith_cons.2 rfl), fun k1 k2 => ⟨_, h1, k1, g2, k2, h4⟩⟩

theorem digits_number {s W rest : Bytes} (h : GnuDigits s W rest) : NumberText CONFIG s W [] 0 rest ∧ L.point s = false := by
  obtain ⟨h1, h2, h3⟩ := h
  have g : ¬ StartsWith (· = 46) rest := fun ⟨b, l, k1, k2⟩ => h3 ⟨b, l, k1, Or.inl k2⟩
  refine ⟨⟨rest, rest, h1, .absent h2 g, .absent fun ⟨b, l, k1, k2⟩ => h3 ⟨b, l, k1, Or.inr k2⟩⟩, ?_⟩
  rw [← Bool.not_eq_true, point_of_split h1]; exact g

theorem decimal_number {s W F rest : Bytes} (h : GnuDecimal s W F rest) :
    NumberText CONFIG s W F 0 rest ∧ L.point s = true ∧ W ≠ [] ∧ F ≠ [] := by
  obtain ⟨r, h1, h2, h3, h4, h5⟩ := h
  exact ⟨⟨_, rest, h1, .present rfl h3 (Or.inl h2), .absent h5⟩, (point_of_split h1).2 (startsWith_cons.2 rfl), h2, h4⟩

theorem afterDelims_gnu {s r : Bytes} : AfterDelims CONFIG.allowTimeUnitDelimiter CONFIG.innerDelimiter s r ↔ Spaces s r := by
  unfold AfterDelims Spaces
  rw [if_pos (show CONFIG.allowTimeUnitDelimiter = true from rfl)]
  rw [inner_eq]

theorem sign_delims_gnu {s r : Bytes} : AfterDelims CONFIG.allowSignDelimiter CONFIG.innerDelimiter s r ↔ Spaces s r := by
  unfold AfterDelims Spaces
  rw [if_pos (show CONFIG.allowSignDelimiter = true from rfl)]
  rw [inner_eq]

theorem spaces_end {s r : Bytes} (h : Spaces s r) : ¬ StartsWith PosixSpace r := by
  obtain ⟨sp, h⟩ := h; exact h.2.2

/-- a number without a unit -/
theorem noUnit_gnu {r rest : Bytes} :
    (r = [] ∧ rest = [] ∨ ∃ r', Spaces r r' ∧ r' ≠ [] ∧ (TIME_UNITS.isEmpty = false → ¬ ∃ u t, WordIn (UnitEnd CONFIG) TIME_UNITS r' u t) ∧
      Connection CONFIG r' rest) ↔ NoUnit r rest := by
  constructor
  · rintro (⟨rfl, rfl⟩ | ⟨r', h1, h2, h3, h4⟩)
    · refine ⟨[], ⟨[], split_nil_run startsWith_nil⟩, fun _ => rfl, ?_, rfl⟩
      rintro ⟨len, t, w, hw, hg⟩
      have : w = [] := by
        have := hw.1
        simp at this
        exact this.1
      exact gnuWord_ne hg (by decide) this
    · refine ⟨r', h1, fun h => absurd h h2, ?_, ?_⟩
      · rintro ⟨len, t, hw⟩
        obtain ⟨u, g1, -⟩ := wordAt_units.1 hw
        exact h3 rfl ⟨u, t, by rw [unitEnd_eq]; exact g1⟩
      · obtain ⟨⟨sp, g1⟩, -⟩ := connection_gnu.1 h4
        exact (split_unique g1 (split_nil_run (spaces_end h1))).2
  · rintro ⟨r', h1, h2, h3, rfl⟩
    by_cases hr : rest = []
    · exact Or.inl ⟨h2 hr, hr⟩
    · refine Or.inr ⟨rest, h1, hr, ?_, ?_⟩
      · rintro - ⟨u, t, hw⟩
        rw [unitEnd_eq] at hw
        obtain ⟨len, -, g⟩ := wordIn_units hw
        exact h3 ⟨len, t, g⟩
      · exact connection_gnu.2 ⟨⟨[], split_nil_run (spaces_end h1)⟩, fun h => absurd h hr⟩

/-! ## One part -/

/-- the grammar of one part -/
abbrev Multi (s : Bytes) (item : Item) (rest : Bytes) : Prop :=
  MultiText CONFIG TIME_UNITS (some TIME_KEYWORDS) (some NUMERALS) s item rest

theorem multi_ok {s rest : Bytes} {item : Item} (h : Multi s item rest) : ItemOk item := by
  cases h with
  | numberEnd h => exact ⟨(number_digits h).1, by intro u hu; cases hu⟩
  | numberUnit h1 h2 h3 h4 =>
    refine ⟨(number_digits h1).1, ?_⟩
    rintro u hu
    cases hu
    obtain ⟨u, len, ago, g1, -, -, rfl⟩ := unitMulti_gnu h4
    exact base_ok g1 ago
  | number h1 h2 h3 h4 => exact ⟨(number_digits h1).1, by intro u hu; cases hu⟩
  | inf h => exact absurd h (by decide)
  | infinity h => exact absurd h (by decide)
  | keyword h1 h2 h3 h4 =>
    cases h2
    obtain ⟨w, -, -, g⟩ := h3
    exact keyword_ok (keywords_base g)
  | unit h1 h2 h3 h4 =>
    obtain ⟨u, len, ago, g1, -, -, rfl⟩ := unitMulti_gnu h4
    exact (base_ok g1 ago).1
  | numeral h1 h2 h3 h4 h5 h6 h7 h8 h9 h10 =>
    cases h4
    obtain ⟨u, len, ago, g1, -, -, rfl⟩ := unitMulti_gnu h10
    exact ⟨(numerals_base h7).1, (numerals_base h7).2, (base_ok g1 ago).1⟩

theorem number_part {neg : Bool} {s W F r : Bytes} {e : Int} {u : Option (TimeUnit × Multiplier)} {part : GnuPart}
    (h : NumberText CONFIG s W F e r) (hp : partOf neg (L.point s) (.number W F e u) = some part) :
    (GnuDigits s W r ∧ part = amount (u.getD (.second, ⟨1, 0⟩)).1 (sg neg * (u.getD (.second, ⟨1, 0⟩)).2.coefficient * decimal W)) ∨
    (GnuDecimal s W F r ∧ (u.getD (.second, ⟨1, 0⟩)).1 = .second ∧
      part = .exact (clamp (sg neg * (u.getD (.second, ⟨1, 0⟩)).2.coefficient * decimalNanos W F))) := by
  obtain ⟨rfl, ⟨h1, h2, h3⟩ | ⟨h1, h2⟩⟩ := number_digits h
  · left
    rw [h1] at hp
    simp only [partOf, Bool.false_eq_true, if_false, Option.some.injEq] at hp
    exact ⟨h3, hp.symm⟩
  · right
    rw [h1] at hp
    simp only [partOf, if_true] at hp
    split at hp
    · rename_i hc
      simp only [Option.some.injEq] at hp
      exact ⟨h2 hc.2.1 hc.2.2, hc.1, hp.symm⟩
    · cases hp

theorem seconds_amount (neg : Bool) (n : Int) :
    amount .second (sg neg * 1 * n) = timesLength (signedBy neg false n) (.seconds 1) :=
  amount_unit (u := SECOND_UNIT) (by decide) (by decide) neg false n

theorem noUnit_part {neg : Bool} {s W F r rest : Bytes} {e : Int} {part : GnuPart}
    (h : NumberText CONFIG s W F e r) (hp : partOf neg (L.point s) (.number W F e none) = some part) (hn : NoUnit r rest) :
    GnuText neg s part rest := by
  rcases number_part h hp with ⟨g1, rfl⟩ | ⟨g1, -, rfl⟩
  · have := GnuText.number (neg := neg) g1 hn
    rw [← seconds_amount] at this
    exact this
  · have := GnuText.decimal (neg := neg) g1 hn
    have e : sg neg * 1 * decimalNanos W F = signedBy neg false (decimalNanos W F) :=
      second_coefficient (u := SECOND_UNIT) (by decide) rfl neg false _
    show GnuText neg s (.exact (clamp (sg neg * 1 * decimalNanos W F))) rest
    rw [e]
    exact this

theorem multi_gnu {neg : Bool} {s rest : Bytes} {item : Item} {part : GnuPart} (h : Multi s item rest)
    (hp : partOf neg (L.point s) item = some part) : GnuText neg s part rest := by
  cases h with
  | numberEnd h => exact noUnit_part h hp (noUnit_gnu.1 (Or.inl ⟨rfl, rfl⟩))
  | numberUnit h1 h2 h3 h4 =>
    obtain ⟨u, len, ago, g1, g2, g3, rfl⟩ := unitMulti_gnu h4
    rw [afterDelims_gnu] at h2
    rcases number_part h1 hp with ⟨k1, rfl⟩ | ⟨k1, k2, rfl⟩
    · simp only [Option.getD_some]
      rw [amount_unit g1 g2]
      exact .numberUnit k1 h2 g3
    · simp only [Option.getD_some] at k2 ⊢
      rw [second_coefficient g1 k2]
      rw [(second_iff g1 g2).1 k2] at g3
      exact .decimalUnit k1 h2 g3
  | number h1 h2 h3 h4 h5 =>
    exact noUnit_part h1 hp (noUnit_gnu.1 (Or.inr ⟨_, afterDelims_gnu.1 h2, h3, h4, h5⟩))
  | inf h => exact absurd h (by decide)
  | infinity h => exact absurd h (by decide)
  | keyword h1 h2 h3 h4 =>
    cases h2
    rw [keywordEnd_eq] at h3
    obtain ⟨len, g1, g2⟩ := wordIn_keywords h3
    obtain ⟨w, -, -, g⟩ := h3
    simp only [partOf, Option.some.injEq] at hp
    subst hp
    rw [amount_keyword (keywords_base g) g1]
    exact .keyword g2 (connection_gnu.1 h4)
  | unit h1 h2 h3 h4 =>
    obtain ⟨u, len, ago, g1, g2, g3, rfl⟩ := unitMulti_gnu h4
    simp only [partOf, Option.some.injEq] at hp
    subst hp
    have := amount_unit g1 g2 neg ago 1
    rw [Int.mul_one] at this
    rw [this]
    exact .unit g3
  | numeral h1 h2 h3 h4 h5 h6 h7 h8 h9 h10 =>
    cases h4
    obtain ⟨u, len, ago, g1, g2, g3, rfl⟩ := unitMulti_gnu h10
    simp only [partOf, Option.some.injEq] at hp
    subst hp
    rw [amount_unit g1 g2]
    rw [inner_eq] at h8
    refine .numeral ?_ ((Props.C41_numerals _ _).1 h7).2 ⟨_, h8⟩ g3
    have : (fun b => ¬ CONFIG.innerDelimiter b = true) = fun b => ¬ PosixSpace b := by
      funext b; exact propext (not_congr (delimiter_iff b))
    rw [this] at h5
    exact h5

/-! ### The other direction -/

/-- an ASCII letter -/
def Letter (b : UInt8) : Prop := 97 ≤ (lower b).toNat ∧ (lower b).toNat ≤ 122

instance (b : UInt8) : Decidable (PosixSpace b) := by unfold PosixSpace; infer_instance
instance (b : UInt8) : Decidable (IsDigit b) := by unfold IsDigit; infer_instance
instance (b : UInt8) : Decidable (NextDuration b) := by unfold NextDuration; infer_instance
instance (b : UInt8) : Decidable (GnuEnd b) := by unfold GnuEnd; infer_instance
instance (b : UInt8) : Decidable (Letter b) := by unfold Letter; infer_instance

theorem letter_not {b : UInt8} (h : Letter b) : ¬ GnuEnd b ∧ ¬ PosixSpace b ∧ ¬ IsDigit b ∧ b ≠ 46 := by
  have key : ∀ n < 256, Letter (UInt8.ofNat n) → ¬ GnuEnd (UInt8.ofNat n) ∧
      ¬ PosixSpace (UInt8.ofNat n) ∧ ¬ IsDigit (UInt8.ofNat n) ∧ UInt8.ofNat n ≠ 46 := by
    decide +kernel
  have := key b.toNat b.toNat_lt
  rw [UInt8.ofNat_toNat] at this
  exact this h

theorem letters_of {w name : Bytes} (h : SameText w name) (hn : ∀ b ∈ name.map lower, 97 ≤ b.toNat ∧ b.toNat ≤ 122) :
    ∀ b ∈ w, Letter b := by
  intro b hb
  unfold SameText at h
  have : lower b ∈ w.map lower := List.mem_map_of_mem hb
  rw [h] at this
  exact hn _ this

theorem word_letters {table : List (List Bytes × GnuLength)} {w : Bytes} {len : GnuLength} (h : GnuWord table w len)
    (ht : ∀ p ∈ table, ∀ n ∈ p.1, ∀ b ∈ n.map lower, 97 ≤ b.toNat ∧ b.toNat ≤ 122) : ∀ b ∈ w, Letter b := by
  obtain ⟨names, h1, n, h2, h3⟩ := h
  exact letters_of h3 (ht _ h1 n h2)

theorem unit_letters {w : Bytes} {len : GnuLength} (h : GnuWord gnuUnits w len) : ∀ b ∈ w, Letter b := word_letters h (by decide)
theorem keyword_letters {w : Bytes} {len : GnuLength} (h : GnuWord gnuKeywords w len) : ∀ b ∈ w, Letter b := word_letters h (by decide)

theorem numeral_word {w : Bytes} {n : Int} (h : GnuNumeral w n) : w ≠ [] ∧ ∀ b ∈ w, Letter b := by
  obtain ⟨name, h1, h2⟩ := h
  have k : ∀ p ∈ gnuNumerals, p.1 ≠ [] ∧ ∀ b ∈ p.1.map lower, 97 ≤ b.toNat ∧ b.toNat ≤ 122 := by decide
  refine ⟨?_, letters_of h2 (k _ h1).2⟩
  rintro rfl
  have : name.length = 0 := by
    have := congrArg List.length h2
    simpa using this.symm
  exact (k _ h1).1 (List.length_eq_zero_iff.1 this)

theorem wordStart_of {w r : Bytes} (hw : w ≠ []) (hl : ∀ b ∈ w, Letter b) : WordStart CONFIG (w ++ r) := by
  cases w with
  | nil => exact absurd rfl hw
  | cons b w =>
    have := letter_not (hl b (by simp))
    refine ⟨by simp, ?_, ?_, fun h => absurd h (by decide)⟩
    · rw [List.cons_append, startsWith_cons]; exact this.2.2.1
    · rw [List.cons_append, startsWith_cons]; exact this.2.2.2

theorem gnu_multi {neg : Bool} {s rest : Bytes} {part : GnuPart} (h : GnuText neg s part rest) :
    ∃ item, Multi s item rest ∧ partOf neg (L.point s) item = some part := by
  have noKeyword : ∀ {s w r : Bytes} {a : GnuLength}, Split (¬ GnuEnd ·) s w r → (∀ b, ¬ GnuWord gnuKeywords w b) →
      ∀ k, some TIME_KEYWORDS = some k → ¬ ∃ u r, WordIn (KeywordEnd CONFIG) k s u r := by
    rintro s w r a h1 h2 k hk ⟨u, r', h3⟩
    cases hk
    rw [keywordEnd_eq] at h3
    obtain ⟨len, -, w', g1, g2⟩ := wordIn_keywords h3
    obtain ⟨rfl, -⟩ := split_unique h1 g1
    exact h2 _ g2
  have numberCase : ∀ {s W F r : Bytes}, NumberText CONFIG s W F 0 r → NoUnit r rest → Multi s (.number W F 0 none) rest := by
    intro s W F r h1 h2
    rcases noUnit_gnu.2 h2 with ⟨rfl, rfl⟩ | ⟨r', k1, k2, k3, k4⟩
    · exact .numberEnd h1
    · exact .number h1 (afterDelims_gnu.2 k1) k2 k3 k4
  cases h with
  | numberUnit h1 h2 h3 =>
    obtain ⟨g1, g2⟩ := digits_number h1
    obtain ⟨u, k1, k2, k3⟩ := gnu_unitMulti h3
    refine ⟨_, .numberUnit g1 (afterDelims_gnu.2 h2) rfl k3, ?_⟩
    rw [g2]
    simp only [partOf, Bool.false_eq_true, if_false, Option.getD_some]
    rw [amount_unit k1 k2]
  | number h1 h2 =>
    obtain ⟨g1, g2⟩ := digits_number h1
    refine ⟨_, numberCase g1 h2, ?_⟩
    rw [g2]
    simp only [partOf, Bool.false_eq_true, if_false, Option.getD_none]
    rw [seconds_amount]
  | decimalUnit h1 h2 h3 =>
    obtain ⟨g1, g2, g3, g4⟩ := decimal_number h1
    obtain ⟨u, k1, k2, k3⟩ := gnu_unitMulti h3
    refine ⟨_, .numberUnit g1 (afterDelims_gnu.2 h2) rfl k3, ?_⟩
    rw [g2]
    have hs := (second_iff k1 k2).2 rfl
    simp only [partOf, if_true, Option.getD_some]
    rw [if_pos ⟨hs, g3, g4⟩, second_coefficient k1 hs]
  | @decimal W F r _ h1 h2 =>
    obtain ⟨g1, g2, g3, g4⟩ := decimal_number h1
    refine ⟨_, numberCase g1 h2, ?_⟩
    rw [g2]
    have e : sg neg * 1 * decimalNanos W F = signedBy neg false (decimalNanos W F) :=
      second_coefficient (u := SECOND_UNIT) (by decide) rfl neg false _
    simp only [partOf, if_true, Option.getD_none]
    rw [if_pos ⟨trivial, g3, g4⟩, e]
  | keyword h1 h2 =>
    obtain ⟨u, g1, g2⟩ := wordAt_keywords.1 h1
    obtain ⟨w, k1, k2⟩ := h1
    refine ⟨.word u, .keyword ?_ rfl (by rw [keywordEnd_eq]; exact g1) (connection_gnu.2 h2), ?_⟩
    · rw [k1.1]
      exact wordStart_of (gnuWord_ne k2 (by decide)) (keyword_letters k2)
    · obtain ⟨w', -, -, hg⟩ := g1
      simp only [partOf]
      rw [amount_keyword (keywords_base hg) g2]
  | @unit len ago _ h1 =>
    obtain ⟨u, k1, k2, k3⟩ := gnu_unitMulti h1
    obtain ⟨r, r', ⟨w, g1, g2⟩, -⟩ := h1
    refine ⟨_, .unit ?_ (noKeyword (a := .months) g1 (fun b hb => (Props.C41_unambiguous w).2.2.1 _ _ g2 hb)) rfl k3, ?_⟩
    · rw [g1.1]
      exact wordStart_of (gnuWord_ne g2 (by decide)) (unit_letters g2)
    · simp only [partOf]
      have := amount_unit k1 k2 neg ago 1
      rw [Int.mul_one] at this
      rw [this]
  | @numeral w n r r' len ago _ h1 h2 h3 h4 =>
    obtain ⟨u, k1, k2, k3⟩ := gnu_unitMulti h4
    obtain ⟨g1, g2⟩ := numeral_word h2
    obtain ⟨sp, h3⟩ := h3
    have hsplit : Split (¬ GnuEnd ·) s w r := by
      refine ⟨h1.1, fun b hb => (letter_not (g2 b hb)).1, ?_⟩
      rintro ⟨b, l, hb, hn⟩
      refine h1.2.2 ⟨b, l, hb, fun hs => hn (Or.inl hs)⟩
    have hr' : r' ≠ [] := by
      obtain ⟨_, _, ⟨w', hw', hg⟩, -⟩ := h4
      rintro rfl
      have : w' = [] := by
        have := hw'.1
        simp at this
        exact this.1
      exact gnuWord_ne hg (by decide) this
    have e : (fun b => ¬ CONFIG.innerDelimiter b = true) = fun b => ¬ PosixSpace b := by
      funext b; exact propext (not_congr (delimiter_iff b))
    refine ⟨.numeral ⟨n, 0⟩ (u.1, withAgo ago u.2), .numeral ?_ (noKeyword (a := .months) hsplit ?_) ?_ rfl (by rw [e]; exact h1) g1
      ((Props.C41_numerals w ⟨n, 0⟩).2 ⟨rfl, h2⟩) (by rw [inner_eq]; exact h3) hr' k3, ?_⟩
    · rw [h1.1]
      exact wordStart_of g1 g2
    · intro b hb
      refine (Props.C41_unambiguous w).2.2.2 b n ?_ h2
      obtain ⟨names, q1, q2⟩ := hb
      exact ⟨names, List.mem_append_right _ q1, q2⟩
    · rintro - ⟨u, r2, hw⟩
      rw [unitEnd_eq] at hw
      obtain ⟨len', -, w', q1, q2⟩ := wordIn_units hw
      obtain ⟨rfl, -⟩ := split_unique hsplit q1
      refine (Props.C41_unambiguous w).2.2.2 len' n ?_ h2
      obtain ⟨names, p1, p2⟩ := q2
      exact ⟨names, List.mem_append_left _ p1, p2⟩
    · simp only [partOf]
      rw [amount_unit k1 k2]

/-! ## Signs -/

theorem gnuText_ne {neg : Bool} {s rest : Bytes} {part : GnuPart} (h : GnuText neg s part rest) : s ≠ [] := by
  obtain ⟨item, h1, -⟩ := gnu_multi h
  intro hs
  subst hs
  have hn : ∀ {W F r : Bytes} {e : Int}, ¬ NumberText CONFIG [] W F e r := by
    rintro W F r e ⟨r1, r2, g1, g2, -⟩
    have : W = [] ∧ r1 = [] := by have := g1.1; simpa using this
    obtain ⟨rfl, rfl⟩ := this
    cases g2 with
    | absent h => exact h rfl
  cases h1 with
  | numberEnd h5 => exact hn h5
  | numberUnit h => exact hn h
  | number h => exact hn h
  | inf h => exact absurd h (by decide)
  | infinity h => exact absurd h (by decide)
  | keyword h => exact h.1 rfl
  | unit h => exact h.1 rfl
  | numeral h => exact h.1 rfl

theorem sign_gnu {s r : Bytes} {neg : Bool} : SignPart CONFIG s neg r ↔ GnuSign s neg r ∧ r ≠ [] := by
  constructor
  · intro h
    cases h with
    | absent h1 h2 => exact ⟨.absent h2, h1⟩
    | plus h1 h2 => exact ⟨.plus (sign_delims_gnu.1 h1), h2⟩
    | minus h1 h2 => exact ⟨.minus (sign_delims_gnu.1 h1), h2⟩
  · rintro ⟨h, h2⟩
    cases h with
    | absent h1 => exact .absent h2 h1
    | plus h1 => exact .plus (sign_delims_gnu.2 h1) h2
    | minus h1 => exact .minus (sign_delims_gnu.2 h1) h2

end Fundu.Gnu
