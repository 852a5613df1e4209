import Verif.Proofs.GnuSuffix
import Verif.Proofs.GnuExampleValue
/-!
# Property C101: the parser of the example gnu.rs agrees with fundu-gnu

The specification of relative times is `Verif/Spec/Gnu.lean`, the length of average months and years is in
`Verif/Spec/GnuExample.lean`.
-/
namespace Fundu.Props
open Fundu Fundu.Spec Fundu.Gnu Fundu.GnuRegexProof

/-! ## The tables -/

theorem table_of_custom {regs : List CustomTimeUnit} {L : Type} {table : List (List Bytes × L)} {Means : TimeUnit × Multiplier → L → Prop}
    (h1 : ∀ r ∈ regs, ∀ id ∈ r.identifiers, ∃ p ∈ table, id ∈ p.1 ∧ Means (r.baseUnit, r.multiplier) p.2)
    (h2 : ∀ p ∈ table, ∀ id ∈ p.1, id ≠ [] ∧ ∃ r ∈ regs, id ∈ r.identifiers ∧ Means (r.baseUnit, r.multiplier) p.2)
    (h3 : ∀ r ∈ regs, ∀ r' ∈ regs, ∀ id ∈ r.identifiers, id ∈ r'.identifiers → r'.baseUnit = r.baseUnit ∧ r'.multiplier = r.multiplier)
    (id : Bytes) :
    (∀ x, (CustomTimeUnits.withTimeUnits regs).like.get id = some x → ∃ p ∈ table, id ∈ p.1 ∧ Means x p.2) ∧
    ∀ p ∈ table, id ∈ p.1 → ∃ x, (CustomTimeUnits.withTimeUnits regs).like.get id = some x ∧ Means x p.2 := by
  constructor
  · rintro ⟨u, m⟩ h
    obtain ⟨r, hr, rfl, rfl, hid⟩ := C36_sound regs id u m h
    exact h1 r hr id hid
  · intro p hp hid
    obtain ⟨k1, r, k2, k3, k4⟩ := h2 p hp id hid
    exact ⟨_, C36_unique regs id r k2 k3 k1 fun r' hr' hid' => h3 r k2 r' hr' id k3 hid', k4⟩

/-- C101, the tables of gnu.rs: its parser knows the words of fundu-gnu in lower case, as time units and as keywords, and each
stands for the same length. -/
theorem C101_tables (id : Bytes) :
    (∀ x, Examples.Gnu.parser.timeUnits.like.get id = some x → ∃ p ∈ gnuUnits, id ∈ p.1 ∧ UnitMeans x p.2) ∧
    (∀ p ∈ gnuUnits, id ∈ p.1 → ∃ x, Examples.Gnu.parser.timeUnits.like.get id = some x ∧ UnitMeans x p.2) ∧
    (∀ x, Examples.Gnu.parser.keywords.like.get id = some x → ∃ p ∈ gnuKeywords, id ∈ p.1 ∧ UnitMeans x p.2) ∧
    (∀ p ∈ gnuKeywords, id ∈ p.1 → ∃ x, Examples.Gnu.parser.keywords.like.get id = some x ∧ UnitMeans x p.2) ∧
    Examples.Gnu.parser.numerals = [] := by
  have e : Examples.Gnu.parser.keywords =
      CustomTimeUnits.withTimeUnits (Examples.Gnu.GNU_KEYWORDS.map TimeKeyword.toCustomTimeUnit) := by decide +kernel
  have e' : Examples.Gnu.parser.timeUnits = CustomTimeUnits.withTimeUnits Examples.Gnu.GNU_TIME_UNITS := by decide +kernel
  rw [e, e']
  obtain ⟨a1, a2⟩ := table_of_custom (regs := Examples.Gnu.GNU_TIME_UNITS) (table := gnuUnits) (Means := UnitMeans) (by decide +kernel)
    (by decide +kernel) (by decide +kernel) id
  obtain ⟨b1, b2⟩ := table_of_custom (regs := Examples.Gnu.GNU_KEYWORDS.map TimeKeyword.toCustomTimeUnit) (table := gnuKeywords)
    (Means := UnitMeans) (by decide +kernel) (by decide +kernel) (by decide +kernel) id
  exact ⟨a1, a2, b1, b2, rfl⟩

/-- the unit is `n` times 10 milliseconds long -/
def InCentis (x : TimeUnit × Multiplier) (n : Int) : Prop :=
  let m := product x.1.multiplier x.2
  (m.exponent = 0 ∧ m.coefficient * 100 = n) ∨ (m.exponent = -2 ∧ m.coefficient = n)
/-- the unit is `n` nanoseconds long -/
def InNanos (x : TimeUnit × Multiplier) (n : Int) : Prop :=
  let m := product x.1.multiplier x.2
  0 ≤ m.exponent + 9 ∧ m.coefficient * 10 ^ (m.exponent + 9).toNat = n
instance (x : TimeUnit × Multiplier) (n : Int) : Decidable (InCentis x n) := by unfold InCentis; infer_instance
instance (x : TimeUnit × Multiplier) (n : Int) : Decidable (InNanos x n) := by unfold InNanos; infer_instance

/-- C101, the table of custom.rs. -/
theorem C101_custom_table (id : Bytes) :
    (∀ x, Examples.Custom.parser.timeUnits.like.get id = some x →
      (∃ p ∈ customExampleUnits, id ∈ p.1 ∧ InCentis x p.2) ∨ ∃ p ∈ customExampleSmall, id ∈ p.1 ∧ InNanos x p.2) ∧
    (∀ p ∈ customExampleUnits, id ∈ p.1 → ∃ x, Examples.Custom.parser.timeUnits.like.get id = some x ∧ InCentis x p.2) ∧
    (∀ p ∈ customExampleSmall, id ∈ p.1 → ∃ x, Examples.Custom.parser.timeUnits.like.get id = some x ∧ InNanos x p.2) := by
  have e : Examples.Custom.parser.timeUnits = CustomTimeUnits.withTimeUnits Examples.Custom.CUSTOM_TIME_UNITS := by decide +kernel
  rw [e]
  obtain ⟨a1, a2⟩ := table_of_custom (regs := Examples.Custom.CUSTOM_TIME_UNITS)
    (table := customExampleUnits.map (fun p => (p.1, true, p.2)) ++ customExampleSmall.map fun p => (p.1, false, p.2))
    (Means := fun x q => if q.1 = true then InCentis x q.2 else InNanos x q.2) (by decide +kernel)
    (by decide +kernel) (by decide +kernel) id
  refine ⟨fun x hx => ?_, fun p hp hid => ?_, fun p hp hid => ?_⟩
  · obtain ⟨p, h1, h2, h3⟩ := a1 x hx
    rcases List.mem_append.1 h1 with h1 | h1
    · obtain ⟨q, hq, rfl⟩ := List.mem_map.1 h1
      exact Or.inl ⟨q, hq, h2, by simpa using h3⟩
    · obtain ⟨q, hq, rfl⟩ := List.mem_map.1 h1
      exact Or.inr ⟨q, hq, h2, by simpa using h3⟩
  · obtain ⟨x, h1, h2⟩ := a2 _ (List.mem_append_left _ (List.mem_map.2 ⟨p, hp, rfl⟩)) hid
    exact ⟨x, h1, by simpa using h2⟩
  · obtain ⟨x, h1, h2⟩ := a2 _ (List.mem_append_right _ (List.mem_map.2 ⟨p, hp, rfl⟩)) hid
    exact ⟨x, h1, by simpa using h2⟩

/-! ## Texts without white space around them -/

theorem unitAt_end {s : Bytes} {len : GnuLength} {ago : Bool} (h : GnuUnitAt s len ago []) : EndsWell s := by
  obtain ⟨r, r', ⟨w, h1, h2⟩, h3, -, h4⟩ := h
  have h4 := h4 rfl
  subst h4
  have hw : EndsWell w := letters_end (gnuWord_ne h2 (by decide)) (unit_letters h2)
  cases h3 with
  | absent _ => rw [h1.1, List.append_nil]; exact hw
  | present h =>
    obtain ⟨sp, r1, k1, -, ⟨a, k2, k3⟩, -⟩ := h
    rw [h1.1, k1.1, k2, List.append_nil]
    exact endsWell_append (endsWell_append (letters_end (Gnu.ago_letters k3).1 (Gnu.ago_letters k3).2))

theorem noUnit_end {s : Bytes} (h : NoUnit s []) : s = [] := by
  obtain ⟨r, h1, h2, -, rfl⟩ := h
  exact h2 rfl

theorem run_end {p : UInt8 → Prop} {s a r : Bytes} (h : Split p s a r) (hr : EndsWell r) : EndsWell s := by
  rw [h.1]; exact endsWell_append hr

theorem gnuText_end {neg : Bool} {s : Bytes} {part : GnuPart} (h : GnuText neg s part []) : EndsWell s := by
  have digits : ∀ {s W r : Bytes}, Split IsDigit s W r → W ≠ [] → r = [] → EndsWell s := by
    rintro s W r h hW rfl
    rw [h.1, List.append_nil]
    exact digits_end ⟨hW, h.2.1⟩
  cases h with
  | numberUnit h1 h2 h3 =>
    obtain ⟨sp, h2⟩ := h2
    exact run_end h1.1 (run_end h2 (unitAt_end h3))
  | number h1 h2 => exact digits h1.1 h1.2.1 (noUnit_end h2)
  | decimalUnit h1 h2 h3 =>
    obtain ⟨sp, h2⟩ := h2
    obtain ⟨r, k1, -, k2, -⟩ := h1
    exact run_end k1 (endsWell_cons (run_end k2 (run_end h2 (unitAt_end h3))))
  | decimal h1 h2 =>
    obtain ⟨r, k1, -, k2, k3, -⟩ := h1
    exact run_end k1 (endsWell_cons (digits k2 k3 (noUnit_end h2)))
  | keyword h1 h2 =>
    obtain ⟨w, k1, k2⟩ := h1
    rw [h2.2 rfl] at k1
    rw [k1.1, List.append_nil]
    exact letters_end (gnuWord_ne k2 (by decide)) (keyword_letters k2)
  | unit h => exact unitAt_end h
  | numeral h1 h2 h3 h4 =>
    obtain ⟨sp, h3⟩ := h3
    exact run_end h1 (run_end h3 (unitAt_end h4))

/-- relative times have no white space around them -/
theorem relative_trimmed {s : Bytes} {l : List GnuPart} (h : RelativeTime s l) : Trimmed s s := by
  have hend : EndsWell s := by
    induction h with
    | last h1 h2 =>
      obtain ⟨a, rfl⟩ := gnuSign_suffix h1
      exact endsWell_append (gnuText_end h2)
    | more h1 h2 h3 ih =>
      obtain ⟨a, rfl⟩ := gnuSign_suffix h1
      obtain ⟨b, rfl⟩ := gnuText_suffix h2
      exact endsWell_append (endsWell_append ih)
  have hstart : ¬ StartsWith PosixSpace s := by
    obtain ⟨part, rest, ⟨neg, r, h1, h2⟩, -⟩ := relative_iff.1 h
    cases h1 with
    | absent _ =>
      obtain ⟨item, g1, -⟩ := gnu_multi h2
      have := multi_start (GnuExample.orderly (c := CONFIG) rfl rfl) g1
      intro k
      exact this (startsWith_mono (fun b hb => (GnuExample.delimiter_iff rfl rfl b).2 hb) k)
    | plus _ => rw [startsWith_cons]; decide
    | minus _ => rw [startsWith_cons]; decide
  refine ⟨[], [], by simp, by simp, by simp, ?_, ?_⟩
  · intro b hb hs
    cases s with
    | nil => cases hb
    | cons x l => cases hb; exact hstart ⟨_, _, rfl, hs⟩
  · intro b hb
    obtain ⟨y, x, rfl, hx⟩ := hend
    rw [List.getLast?_append] at hb
    cases hb
    exact hx

/-! ## Texts -/

/-- C101: whatever the parser of gnu.rs accepts is a relative time of fundu-gnu without white space around it, and it returns the
sum of its parts (which saturates), with months and years of average length. -/
theorem C101_parts (s : Bytes) (hs : IsText s) (d : Duration) (h : Examples.Gnu.parser.parse s = .ok d) :
    ∃ l, Trimmed s s ∧ RelativeTime s l ∧ nanos d = saturatingSum (l.map averageNanos) := by
  rw [exampleGnu_parse] at h
  obtain ⟨ds, ⟨items, h1, h2⟩, h3⟩ := (C27_multiple _ _ _ _ s (nanos d) hs exampleGnu_text rfl
    (Or.inl GnuExample.compatible.delimiters)).1 ⟨d, h, parse_wf hs exampleGnu_text h, rfl⟩
  obtain ⟨l, g1, g2⟩ := GnuExample.parts_example h1 (h2.imp fun _ _ k => k.1)
  exact ⟨l, relative_trimmed g1, g1, by rw [← g2, h3]⟩

theorem gnuTotal_exact {l : List GnuPart} (h : ∀ p ∈ l, ∃ x, p = .exact x) (X : Int) :
    l.foldl GnuTotal.add ⟨0, 0, X⟩ = ⟨0, 0, (l.map averageNanos).foldl (fun acc x => clamp (acc + x)) X⟩ := by
  induction l generalizing X with
  | nil => rfl
  | cons p l ih =>
    obtain ⟨x, rfl⟩ := h p (by simp)
    exact ih (fun q hq => h q (by simp [hq])) _

/-- C101: without months and years fundu-gnu returns exactly the same duration. -/
theorem C101_exact (s : Bytes) (hs : IsText s) (d : Duration) (h : Examples.Gnu.parser.parse s = .ok d) (l : List GnuPart)
    (hl : RelativeTime s l) (hx : ∀ p ∈ l, ∃ x, p = .exact x) :
    ∃ d', Gnu.parseFuzzy s = .ok (0, 0, d') ∧ d'.WF ∧ nanos d' = nanos d := by
  obtain ⟨l', h1, h2, h3⟩ := C101_parts s hs d h
  cases relative_unique hl h2
  refine (C60_parse_fuzzy s hs 0 0 (nanos d)).2 ⟨s, l, h1, hl, ?_⟩
  rw [h3]
  exact gnuTotal_exact hx 0

/-- the sum with calendar units and the one with average units, while nothing saturates -/
theorem total_average {kb ka : Int} {f : GnuPart → Int} (hka : maxNanos < 2 ^ 63 * ka) (hkb : maxNanos < 2 ^ 63 * kb)
    (h1 : ∀ x, f (.exact x) = x) (h2 : ∀ n, f (.months n) = clamp (n * ka)) (h3 : ∀ n, f (.years n) = clamp (n * kb))
    (l : List GnuPart) (y m x A : Int) (hA : A = x + y * kb + m * ka)
    (hb : |x| + |y| * kb + |m| * ka + (l.map fun p => |f p|).sum < maxNanos) :
    let t := l.foldl GnuTotal.add ⟨y, m, x⟩
    (l.map f).foldl (fun acc x => clamp (acc + x)) A = t.nanoseconds + t.years * kb + t.months * ka := by
  have hM : (0 : Int) ≤ maxNanos := by decide
  have cl : ∀ z : Int, |z| ≤ maxNanos → clamp z = z := by
    intro z hz
    rw [abs_le] at hz
    unfold clamp
    omega
  have hka0 : 0 < ka := by omega
  have hkb0 : 0 < kb := by omega
  have nocl : ∀ z : Int, |clamp z| < maxNanos → clamp z = z := by
    intro z hz
    rw [abs_lt] at hz
    unfold clamp at *
    omega
  have small : ∀ {k n : Int}, 0 < k → maxNanos < 2 ^ 63 * k → |n| * k < maxNanos → clampI64 n = n := by
    intro k n hk hk' hn
    have : |n| < 2 ^ 63 := by
      by_contra hc
      rw [not_lt] at hc
      have : 2 ^ 63 * k ≤ |n| * k := mul_le_mul_of_nonneg_right hc hk.le
      omega
    rw [abs_lt] at this
    unfold clampI64
    omega
  have pos : ∀ l : List GnuPart, 0 ≤ (l.map fun p => |f p|).sum := by
    intro l
    apply sum_nonneg'
    intro z hz
    obtain ⟨p, -, rfl⟩ := List.mem_map.1 hz
    exact abs_nonneg _
  have pa : ∀ n : Int, 0 ≤ |n| * ka := fun n => mul_nonneg (abs_nonneg _) hka0.le
  have pb : ∀ n : Int, 0 ≤ |n| * kb := fun n => mul_nonneg (abs_nonneg _) hkb0.le
  induction l generalizing y m x A with
  | nil => exact hA
  | cons p l ih =>
    rw [List.map_cons, List.sum_cons] at hb
    have q := pos l
    have q1 := pa m
    have q2 := pb y
    have q0 := abs_nonneg x
    have qy : |y * kb| = |y| * kb := by rw [abs_mul, abs_of_pos hkb0]
    have qm : |m * ka| = |m| * ka := by rw [abs_mul, abs_of_pos hka0]
    have tri : |A| ≤ |x| + |y| * kb + |m| * ka := by
      rw [hA, ← qy, ← qm]
      exact (abs_add_le _ _).trans (add_le_add_left (abs_add_le _ _) _)
    rw [List.map_cons, List.foldl_cons, List.foldl_cons]
    have tri2 := abs_add_le A (f p)
    rw [cl _ (by omega)]
    cases p with
    | exact z =>
      rw [h1] at hb ⊢
      have tri3 := abs_add_le x z
      have e : GnuTotal.add ⟨y, m, x⟩ (.exact z) = ⟨y, m, x + z⟩ := by
        unfold GnuTotal.add
        dsimp only
        rw [cl _ (by omega)]
      rw [e]
      exact ih y m (x + z) (A + z) (by rw [hA]; ring) (by omega)
    | months n =>
      have hn : f (.months n) = n * ka := by rw [h2, nocl]; rw [← h2]; omega
      rw [hn] at hb ⊢
      have qn : |n * ka| = |n| * ka := by rw [abs_mul, abs_of_pos hka0]
      have tri3 := mul_le_mul_of_nonneg_right (abs_add_le m n) hka0.le
      rw [add_mul] at tri3
      have e : GnuTotal.add ⟨y, m, x⟩ (.months n) = ⟨y, m + n, x⟩ := by
        unfold GnuTotal.add
        dsimp only
        rw [small hka0 hka (by omega)]
      rw [e]
      exact ih y (m + n) x (A + n * ka) (by rw [hA]; ring) (by omega)
    | years n =>
      have hn : f (.years n) = n * kb := by rw [h3, nocl]; rw [← h3]; omega
      rw [hn] at hb ⊢
      have qn : |n * kb| = |n| * kb := by rw [abs_mul, abs_of_pos hkb0]
      have tri3 := mul_le_mul_of_nonneg_right (abs_add_le y n) hkb0.le
      rw [add_mul] at tri3
      have e : GnuTotal.add ⟨y, m, x⟩ (.years n) = ⟨y + n, m, x⟩ := by
        unfold GnuTotal.add
        dsimp only
        rw [small hkb0 hkb (by omega)]
      rw [e]
      exact ih (y + n) m x (A + n * kb) (by rw [hA]; ring) (by omega)

/-- C101: if the lengths of all parts together stay below the largest duration, the two results differ only in the months and years, which
gnu.rs counts with 2629800 and 31557600 seconds each. -/
theorem C101_agree (s : Bytes) (hs : IsText s) (d : Duration) (h : Examples.Gnu.parser.parse s = .ok d) (l : List GnuPart)
    (hl : RelativeTime s l) (hx : (l.map fun p => |averageNanos p|).sum < maxNanos) :
    ∃ y m d', Gnu.parseFuzzy s = .ok (y, m, d') ∧ d'.WF ∧
      nanos d = nanos d' + y * (31557600 * 10 ^ 9) + m * (2629800 * 10 ^ 9) := by
  obtain ⟨l', h1, h2, h3⟩ := C101_parts s hs d h
  cases relative_unique hl h2
  obtain ⟨d', g1, g2, g3⟩ := (C60_parse_fuzzy s hs (gnuTotal l).years (gnuTotal l).months (gnuTotal l).nanoseconds).2 ⟨s, l, h1, hl, rfl⟩
  refine ⟨_, _, d', g1, g2, ?_⟩
  rw [h3, g3]
  refine total_average (f := averageNanos) (by decide +kernel) (by decide +kernel) (fun _ => rfl) (fun n => ?_) (fun n => ?_) l 0 0 0 0
    (by simp) (by simpa using hx)
  · rw [← mul_assoc]; rfl
  · rw [← mul_assoc]; rfl

/-- hypotheses are met -/
example : ∃ d l, Examples.Gnu.parser.parse (b! "3months -2 weeks ago") = .ok d ∧ RelativeTime (b! "3months -2 weeks ago") l ∧
    (l.map fun p => |averageNanos p|).sum < maxNanos := by
  have h : Examples.Gnu.parser.parse (b! "3months -2 weeks ago") = .ok ⟨false, ⟨3 * 2629800 + 2 * 604800, 0⟩⟩ := by decide +kernel
  obtain ⟨l, h1, h2, h3⟩ := C101_parts _ (isText_ascii (by decide)) _ h
  have k1 : Phrase false (b! "3months") (.months 3) :=
    .count (W := b! "3") (sp := []) (u := b! "months") (len := .months) (ago := false) (by decide) (by unfold IsDigit; decide) (by unfold IsSpaces; simp)
      (.unit ⟨[b! "months", b! "month"], by decide, b! "months", by decide, rfl⟩)
  have e : timesLength (signedBy true true (decimal (b! "2"))) (.seconds (7 * 86400)) = .exact (2 * 604800 * 10 ^ 9) := by decide +kernel
  have k2 : Phrase true (b! "2 weeks ago") (.exact (2 * 604800 * 10 ^ 9)) := by
    rw [← e]
    exact .count (W := b! "2") (sp := [32]) (u := b! "weeks ago") (len := .seconds (7 * 86400)) (ago := true) (by decide)
      (by unfold IsDigit; decide) (by unfold IsSpaces PosixSpace; simp)
      (.ago (w := b! "weeks") (sp := [32]) (a := b! "ago") ⟨[b! "weeks", b! "week"], by decide, b! "weeks", by decide, rfl⟩
        (by unfold IsSpaces PosixSpace; simp) (by decide) rfl)
  have k : RelativeTime (b! "3months -2 weeks ago") [.months 3, .exact (2 * 604800 * 10 ^ 9)] :=
    (sentence_relative (.more (sp := [32]) .none k1 (by unfold IsSpaces PosixSpace; simp) (by decide)
      (.last (sg := b! "-") (.minus (sp := []) (by unfold IsSpaces; simp)) k2))).1
  exact ⟨_, _, h, k, by decide +kernel⟩

end Fundu.Props
