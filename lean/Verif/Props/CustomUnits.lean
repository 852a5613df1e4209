import Verif.Spec.CustomUnits
import Verif.Props.Units
import Verif.Props.Builder
import Verif.Props.Multiplier
import Verif.Props.Systemd
/-!
# Properties C69, C70: custom time units
-/
namespace Fundu.Props
open Fundu Fundu.Spec

/-! ## C69: the ready-made lists -/

theorem like_ext {a b : TimeUnitsLike} (h : a.isEmpty = b.isEmpty) (h' : ∀ id x, a.get id = some x ↔ b.get id = some x) : a = b := by
  obtain ⟨e, g⟩ := a
  obtain ⟨e', g'⟩ := b
  obtain rfl : e = e' := h
  have : g = g' := by
    funext id
    cases hg : g' id with
    | none =>
      cases hx : g id with
      | none => rfl
      | some x => have : g' id = some x := (h' id x).1 hx; rw [hg] at this; cases this
    | some x => exact (h' id x).2 hg
  rw [this]

/-- C69: a table of custom units, each with its default identifier, is the same as the table of the standard units. -/
theorem C69_same_table (units : List TimeUnit) :
    (CustomTimeUnits.withTimeUnits (units.map fun u => CustomTimeUnit.withDefault u [u.defaultIdentifier])).like =
      (DurationParser.withTimeUnits units).timeUnits.like := by
  have hne : ∀ u : TimeUnit, u.defaultIdentifier ≠ [] := by intro u; cases u <;> decide
  apply like_ext
  · rw [Bool.eq_iff_iff, C36_is_empty, C34_is_empty]
    constructor
    · intro h
      cases units with
      | nil => rfl
      | cons u us => exact absurd (h _ (by simp; left; rfl) u.defaultIdentifier (by simp [CustomTimeUnit.withDefault])) (hne u)
    · rintro rfl r hr
      cases hr
  · intro id x
    rw [C34_get]
    constructor
    · intro h
      obtain ⟨u, m⟩ := x
      obtain ⟨r, hr, h1, h2, h3⟩ := C36_sound _ id u m h
      obtain ⟨v, hv, rfl⟩ := List.mem_map.1 hr
      subst h1 h2
      rw [show (CustomTimeUnit.withDefault v [v.defaultIdentifier]).identifiers = [v.defaultIdentifier] from rfl,
        List.mem_singleton] at h3
      exact ⟨v, hv, h3.symm, rfl⟩
    · rintro ⟨u, hu, rfl, rfl⟩
      have hinj : ∀ v w : TimeUnit, v.defaultIdentifier = w.defaultIdentifier → v = w := by
        intro v w; cases v <;> cases w <;> decide
      refine C36_unique _ u.defaultIdentifier (.withDefault u [u.defaultIdentifier]) (List.mem_map.2 ⟨u, hu, rfl⟩)
        (by simp [CustomTimeUnit.withDefault]) (hne u) ?_
      intro r' hr' h
      obtain ⟨v, hv, rfl⟩ := List.mem_map.1 hr'
      rw [show (CustomTimeUnit.withDefault v [v.defaultIdentifier]).identifiers = [v.defaultIdentifier] from rfl,
        List.mem_singleton] at h
      rw [hinj _ _ h]
      exact ⟨rfl, rfl⟩

theorem same_setters (calls : List SetterCall) : ∀ (p : CustomDurationParser) (q : DurationParser), p.config = q.config →
    (calls.foldl callCustomParser p).config = (calls.foldl callStandardParser q).config := by
  induction calls with
  | nil => intro p q h; exact h
  | cons k ks ih =>
    intro p q h
    rw [List.foldl_cons, List.foldl_cons]
    apply ih
    obtain ⟨_, _, _, c⟩ := p
    obtain ⟨_, c'⟩ := q
    obtain rfl : c = c' := h
    cases k with
    | allowAgo v => cases v <;> rfl
    | _ => rfl

/-- C69: A `CustomDurationParser` with time units with their default identifiers and a `DurationParser` with the same
units give the same result for every text after the same calls of setters, be it a duration or an error. -/
theorem C69_custom_is_standard (units : List TimeUnit) (calls : List SetterCall) (s : Bytes) :
    (calls.foldl callCustomParser (CustomDurationParser.withTimeUnits
      (units.map fun u => CustomTimeUnit.withDefault u [u.defaultIdentifier]))).parse s =
    (calls.foldl callStandardParser (DurationParser.withTimeUnits units)).parse s := by
  obtain ⟨-, h1, h2, h3⟩ := C35_custom_setters (CustomDurationParser.withTimeUnits
      (units.map fun u => CustomTimeUnit.withDefault u [u.defaultIdentifier])) calls
  obtain ⟨-, h4⟩ := C35_standard_setters (DurationParser.withTimeUnits units) calls
  have h5 := same_setters calls (CustomDurationParser.withTimeUnits
      (units.map fun u => CustomTimeUnit.withDefault u [u.defaultIdentifier])) (DurationParser.withTimeUnits units) rfl
  unfold CustomDurationParser.parse DurationParser.parse
  rw [h1, h2, h3, h4, h5, ← C69_same_table]
  rfl

/-- C69: in particular the lists `DEFAULT_TIME_UNITS` and `DEFAULT_ALL_TIME_UNITS` give the parsers of the standard feature. -/
theorem C69_default_lists (calls : List SetterCall) (s : Bytes) :
    (calls.foldl callCustomParser (CustomDurationParser.withTimeUnits DEFAULT_TIME_UNITS)).parse s =
      (calls.foldl callStandardParser DurationParser.new).parse s ∧
    (calls.foldl callCustomParser (CustomDurationParser.withTimeUnits DEFAULT_ALL_TIME_UNITS)).parse s =
      (calls.foldl callStandardParser DurationParser.withAllTimeUnits).parse s := by
  obtain ⟨h1, h2, -⟩ := C34_constructors
  constructor
  · rw [h1, ← C69_custom_is_standard]; rfl
  · rw [h2, ← C69_custom_is_standard]; rfl

theorem systemd_list_ids : ∀ r ∈ SYSTEMD_TIME_UNITS, r.multiplier = ⟨1, 0⟩ ∧ ∀ id ∈ r.identifiers, id ≠ greekMicroSecond ∧
    (∃ p ∈ systemdUnitsNanos, ∃ q ∈ documentedUnits, id ∈ p.1 ∧ q.1 = r.baseUnit ∧ q.2.2 = p.2) ∧
    ∀ r' ∈ SYSTEMD_TIME_UNITS, id ∈ r'.identifiers → r'.baseUnit = r.baseUnit := by decide +kernel

theorem systemd_list_complete : ∀ p ∈ systemdUnitsNanos, ∀ id ∈ p.1, id ≠ greekMicroSecond → id ≠ [] ∧
    ∃ r ∈ SYSTEMD_TIME_UNITS, id ∈ r.identifiers ∧ ∀ q ∈ documentedUnits, q.2.2 = p.2 → q.1 = r.baseUnit := by decide +kernel

/-- C69: `SYSTEMD_TIME_UNITS` has the identifiers documented for fundu-systemd with their lengths, and no others. Only the
microsecond written with a Greek letter is missing (finding F19). -/
theorem C69_systemd_list (id : Bytes) (u : TimeUnit) (m : Multiplier) :
    (CustomDurationParser.withTimeUnits SYSTEMD_TIME_UNITS).getTimeUnitById id = some (u, m) ↔
      id ≠ greekMicroSecond ∧ m = ⟨1, 0⟩ ∧ ∃ len s, UnitIn systemdUnitsNanos id len ∧ (u, s, len) ∈ documentedUnits := by
  constructor
  · intro h
    obtain ⟨r, hr, h1, h2, h3⟩ := C36_sound SYSTEMD_TIME_UNITS id u m h
    obtain ⟨g1, g2⟩ := systemd_list_ids r hr
    obtain ⟨g3, ⟨p, hp, q, hq, k1, k2, k3⟩, -⟩ := g2 id h3
    refine ⟨g3, h2 ▸ g1, p.2, q.2.1, ⟨p.1, hp, k1⟩, ?_⟩
    rw [← h1, ← k2, ← k3]
    exact hq
  · rintro ⟨hne, rfl, len, s, ⟨ids, h1, h2⟩, h3⟩
    obtain ⟨h0, r, hr, k1, k2⟩ := systemd_list_complete _ h1 id h2 hne
    have hu : u = r.baseUnit := k2 _ h3 rfl
    have := C36_unique SYSTEMD_TIME_UNITS id r hr k1 h0 (fun r' hr' h' =>
      ⟨((systemd_list_ids r hr).2 id k1).2.2 r' hr' h', by rw [(systemd_list_ids r' hr').1, (systemd_list_ids r hr).1]⟩)
    rw [(systemd_list_ids r hr).1, ← hu] at this
    exact this

/-- C69: compared with the table of fundu-systemd -/
theorem C69_systemd_table (id : Bytes) (h : id ≠ greekMicroSecond) :
    (CustomDurationParser.withTimeUnits SYSTEMD_TIME_UNITS).getTimeUnitById id = Systemd.TIME_UNITS_WITH_NANOS.get id := by
  have key : ∀ x, (CustomDurationParser.withTimeUnits SYSTEMD_TIME_UNITS).getTimeUnitById id = some x ↔
      Systemd.TIME_UNITS_WITH_NANOS.get id = some x := by
    rintro ⟨u, m⟩
    rw [C69_systemd_list]
    exact ⟨fun g => (C58_table true id u m).2 g.2, fun g => ⟨h, (C58_table true id u m).1 g⟩⟩
  cases hg : Systemd.TIME_UNITS_WITH_NANOS.get id with
  | none =>
    cases hx : (CustomDurationParser.withTimeUnits SYSTEMD_TIME_UNITS).getTimeUnitById id with
    | none => rfl
    | some x => rw [(key x).1 hx] at hg; cases hg
  | some x => exact (key x).2 hg

example : (CustomDurationParser.withTimeUnits SYSTEMD_TIME_UNITS).parse (b! "3hr") = .ok ⟨false, ⟨10800, 0⟩⟩ ∧
    (CustomDurationParser.withTimeUnits SYSTEMD_TIME_UNITS).parse (b! "3\u00b5s") = .ok ⟨false, ⟨0, 3000⟩⟩ ∧
    (CustomDurationParser.withTimeUnits SYSTEMD_TIME_UNITS).parse (b! "3\u03bcs") =
      fail (.timeUnit 1 (.invalidTimeUnit (b! "\u03bcs"))) ∧
    Systemd.parseNanos (b! "3\u03bcs") none none = .ok ⟨false, ⟨0, 3000⟩⟩ := by decide +kernel

example : ([SetterCall.allowAgo true, .numberIsOptional true].foldl callCustomParser
    (CustomDurationParser.withTimeUnits DEFAULT_ALL_TIME_UNITS)).parse (b! "y ago") = .ok ⟨true, ⟨31557600, 0⟩⟩ := by
  decide +kernel

/-! ## C70: limits and equality -/

/-- C70: the constructors of custom time units and keywords panic exactly if the multiplier is not within the limits. -/
theorem C70_limits (u : TimeUnit) (lo hi elo : Int) (h : (u, lo, hi, elo) ∈ multiplierLimits) (ids : List Bytes) (m : Multiplier)
    (h1 : IsI64 m.coefficient) (h2 : IsI16 m.exponent) :
    (lo ≤ m.coefficient ∧ m.coefficient ≤ hi ∧ elo ≤ m.exponent →
      CustomTimeUnit.new u ids (some m) = .ok ⟨u, m, ids⟩ ∧ TimeKeyword.new u ids (some m) = .ok ⟨⟨u, m, ids⟩⟩) ∧
    (¬ (lo ≤ m.coefficient ∧ m.coefficient ≤ hi ∧ elo ≤ m.exponent) →
      CustomTimeUnit.new u ids (some m) = .error .assert ∧ TimeKeyword.new u ids (some m) = .error .assert) := by
  have hfit : (lo ≤ m.coefficient ∧ m.coefficient ≤ hi ∧ elo ≤ m.exponent) ↔
      IsI64 (u.multiplier.coefficient * m.coefficient) ∧ IsI16 (u.multiplier.exponent + m.exponent) := by
    obtain ⟨c, e⟩ := m
    unfold IsI64 IsI16 I64_MIN I64_MAX I16_MIN I16_MAX at *
    simp only at h1 h2 ⊢
    unfold multiplierLimits at h
    simp only [List.mem_cons, List.not_mem_nil, or_false, Prod.mk.injEq] at h
    rcases h with h | h | h | h | h | h | h | h | h | h <;> obtain ⟨rfl, rfl, rfl, rfl⟩ := h <;>
      simp only [TimeUnit.multiplier] <;> omega
  have hc := C10_checked_mul u.multiplier m
  have hk : TimeKeyword.new u ids (some m) = (CustomTimeUnit.new u ids (some m)).map TimeKeyword.mk := by
    unfold TimeKeyword.new
    cases CustomTimeUnit.new u ids (some m) <;> rfl
  rw [hfit, hk]
  unfold CustomTimeUnit.new
  simp only
  constructor
  · intro hf
    rw [(hc.1 hf).1]
    exact ⟨rfl, rfl⟩
  · intro hf
    rw [(hc.2 hf).1]
    exact ⟨rfl, rfl⟩

/-- C70: there are limits for every base unit. Without a multiplier the constructors do not panic. -/
theorem C70_default (u : TimeUnit) (ids : List Bytes) :
    (∃ lo hi elo, (u, lo, hi, elo) ∈ multiplierLimits ∧ lo ≤ 1 ∧ 1 ≤ hi ∧ elo ≤ 0) ∧
    CustomTimeUnit.new u ids none = .ok (CustomTimeUnit.withDefault u ids) ∧
    CustomTimeUnit.new u ids (some ⟨1, 0⟩) = .ok (CustomTimeUnit.withDefault u ids) ∧
    TimeKeyword.new u ids none = .ok ⟨CustomTimeUnit.withDefault u ids⟩ := by
  refine ⟨?_, rfl, ?_, rfl⟩
  · have : ∃ x ∈ multiplierLimits, x.1 = u ∧ x.2.1 ≤ 1 ∧ 1 ≤ x.2.2.1 ∧ x.2.2.2 ≤ 0 := by cases u <;> decide
    obtain ⟨⟨v, lo, hi, elo⟩, h, rfl, h1, h2, h3⟩ := this
    exact ⟨lo, hi, elo, h, h1, h2, h3⟩
  · cases u <;> rfl

/-- C70: two custom time units are equal iff their base units and multipliers are; then they feed equal data to a hasher, and only
then. Keywords are compared in the same way. -/
theorem C70_eq (a b : CustomTimeUnit) :
    (a.eq b = true ↔ a.baseUnit = b.baseUnit ∧ a.multiplier = b.multiplier) ∧ (a.eq b = true ↔ a.hashData = b.hashData) ∧
    (⟨a⟩ : TimeKeyword).eq ⟨b⟩ = a.eq b := by
  have hi : ∀ u v : TimeUnit, u.index = v.index ↔ u = v := by intro u v; cases u <;> cases v <;> decide
  obtain ⟨u, ⟨c, e⟩, ids⟩ := a
  obtain ⟨u', ⟨c', e'⟩, ids'⟩ := b
  refine ⟨?_, ?_, rfl⟩
  · simp [CustomTimeUnit.eq]
  · simp [CustomTimeUnit.eq, CustomTimeUnit.hashData, hi]

/-- C70: an identifier which is registered with units which are equal means this unit, whatever the order of the registrations. -/
theorem C70_equal_units (regs : List CustomTimeUnit) (id : Bytes) (r : CustomTimeUnit) (hr : r ∈ regs)
    (hid : id ∈ r.identifiers) (hne : id ≠ []) (hall : ∀ r' ∈ regs, id ∈ r'.identifiers → r'.eq r = true) :
    (CustomDurationParser.withTimeUnits regs).getTimeUnitById id = some (r.baseUnit, r.multiplier) :=
  C36_unique regs id r hr hid hne fun r' hr' h => (C70_eq r' r).1.1 (hall r' hr' h)

/-- the limit for minutes in the documentation (`u64::MAX / 60`) is too great -/
example : CustomTimeUnit.new .minute [] (some ⟨307445734561825860, 0⟩) = .error .assert ∧
    CustomTimeUnit.new .minute [] (some ⟨153722867280912931, 0⟩) = .error .assert ∧
    CustomTimeUnit.new .minute [] (some ⟨153722867280912930, 0⟩) = .ok ⟨.minute, ⟨153722867280912930, 0⟩, []⟩ := by
  decide +kernel

/-- the example of the documentation: two weeks are not equal to 14 days -/
example : (⟨.week, ⟨2, 0⟩, [b! "fortnight"]⟩ : CustomTimeUnit).eq ⟨.day, ⟨14, 0⟩, [b! "fortnight"]⟩ = false ∧
    (⟨.week, ⟨2, 0⟩, [b! "fortnight"]⟩ : CustomTimeUnit).eq ⟨.week, ⟨2, 0⟩, []⟩ = true := by decide

end Fundu.Props
