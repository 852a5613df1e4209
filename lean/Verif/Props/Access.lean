import Verif.Props.TimeAccess
import Verif.Props.DateTime
import Verif.Props.Units
import Verif.Props.Builder
import Verif.Props.Message
/-!
# Properties C72, C73, C74: the constructors of durations, the units of a custom parser, the day of a date
-/
namespace Fundu.Props
open Fundu Fundu.Spec

/-! ## C72 -/

theorem std_new (s n : Nat) (hs : s < 2 ^ 64) :
    (s + n / 10 ^ 9 < 2 ^ 64 →
      ∃ d : StdDuration, StdDuration.new s n = .ok d ∧ d.WF ∧ stdNanos d = (s : Int) * 10 ^ 9 + n) ∧
    (2 ^ 64 ≤ s + n / 10 ^ 9 → StdDuration.new s n = .error .overflow) := by
  unfold StdDuration.new
  by_cases h : n < 1000000000
  · rw [if_pos h]
    have h0 : n / 1000000000 = 0 := Nat.div_eq_of_lt h
    refine ⟨fun _ => ⟨_, rfl, ⟨by show s ≤ 18446744073709551615; omega, h⟩, ?_⟩, fun hc => by omega⟩
    simp only [stdNanos]; omega
  · rw [if_neg h]
    by_cases h2 : s + n / 1000000000 ≤ 18446744073709551615
    · rw [show U64_MAX = 18446744073709551615 from rfl, if_pos h2]
      refine ⟨fun _ => ⟨_, rfl, ⟨h2, Nat.mod_lt _ (by decide)⟩, ?_⟩, fun hc => by omega⟩
      simp only [stdNanos]; omega
    · rw [show U64_MAX = 18446744073709551615 from rfl, if_neg h2]
      exact ⟨fun hc => by omega, fun _ => rfl⟩

/-- C72: `positive` and `negative` give the duration with the given number of seconds and nanoseconds (also if there
are more than `10^9` nanoseconds) and this sign. They panic if and only if such a duration cannot be represented. -/
theorem C72_constructors (s n : Nat) (hs : s < 2 ^ 64) :
    (s * 10 ^ 9 + n ≤ maxNanos →
      (∃ d, Duration.positive s n = .ok d ∧ d.WF ∧ d.isNegative = false ∧ nanos d = s * 10 ^ 9 + n) ∧
      (∃ d, Duration.negative s n = .ok d ∧ d.WF ∧ d.isNegative = true ∧ nanos d = -(s * 10 ^ 9 + n))) ∧
    (maxNanos < s * 10 ^ 9 + n →
      Duration.positive s n = .error .overflow ∧ Duration.negative s n = .error .overflow) := by
  obtain ⟨h1, h2⟩ := std_new s n hs
  simp only [maxNanos]
  refine ⟨fun h => ?_, fun h => ?_⟩
  · obtain ⟨d, hd, hw, hn⟩ := h1 (by omega)
    have hn' : (d.secs : Int) * 1000000000 + d.nanos = s * 10 ^ 9 + n := hn
    refine ⟨⟨⟨false, d⟩, ?_, hw, rfl, ?_⟩, ⟨⟨true, d⟩, ?_, hw, rfl, ?_⟩⟩
    · unfold Duration.positive; rw [hd]; rfl
    · exact hn'
    · unfold Duration.negative; rw [hd]; rfl
    · simp only [nanos, if_true]; rw [hn']
  · have := h2 (by omega)
    exact ⟨by unfold Duration.positive; rw [this]; rfl, by unfold Duration.negative; rw [this]; rfl⟩

/-- C72: every duration is given by one of the constructors, applied to its absolute seconds and nanoseconds. -/
theorem C72_every (d : Duration) (h : d.WF) :
    ∃ s n : Nat, s < 2 ^ 64 ∧ n < 10 ^ 9 ∧
      (d.asSeconds = .ok (if d.isNegative then -(s : Int) else s)) ∧
      (d.subsecNanos = .ok (if d.isNegative then -(n : Int) else n)) ∧
      (if d.isNegative then Duration.negative s n else Duration.positive s n) = .ok d := by
  have hs := asSeconds_eq d h
  have hn := subsecNanos_eq d h
  obtain ⟨w1, w2⟩ := h
  have w1 : d.inner.secs ≤ 18446744073709551615 := w1
  have w2 : d.inner.nanos < 1000000000 := w2
  refine ⟨d.inner.secs, d.inner.nanos, by omega, by omega, hs, hn, ?_⟩
  rcases d with ⟨b, i⟩
  have e : StdDuration.new i.secs i.nanos = .ok i := by unfold StdDuration.new; rw [if_pos w2]
  cases b
  · simp only [Bool.false_eq_true, if_false]; unfold Duration.positive; rw [e]; rfl
  · simp only [if_true]; unfold Duration.negative; rw [e]; rfl

/-- the nanoseconds are carried; there is a negative zero; the greatest duration; one nanosecond more -/
example :
    Duration.positive 1 3500000000 = .ok ⟨false, ⟨4, 500000000⟩⟩ ∧
    Duration.negative 0 0 = .ok ⟨true, ⟨0, 0⟩⟩ ∧
    Duration.negative (2 ^ 64 - 2) 1999999999 = .ok Duration.MIN ∧
    Duration.positive (2 ^ 64 - 2) 2000000000 = .error .overflow := by decide +kernel

/-! ## C73 -/

/-- C73: After any calls which add time units, keywords and numerals or set options, a custom parser is empty if and
only if no time unit with a non-empty identifier has been added - whatever keywords and numerals it has. -/
theorem C73_is_empty (calls : List CustomCall) :
    (calls.foldl callCustomSetter CustomDurationParser.new).isEmpty = true ↔
      ∀ r ∈ calls.flatMap CustomCall.units, ∀ id ∈ r.identifiers, id = [] := by
  have h := (C35_custom_tables calls).1
  show CustomTimeUnits.isEmpty _ = true ↔ _
  rw [h]
  exact C36_is_empty _

theorem getById_eq (calls : List CustomCall) (id : Bytes) :
    (calls.foldl callCustomSetter CustomDurationParser.new).getTimeUnitById id =
      (CustomTimeUnits.withTimeUnits (calls.flatMap CustomCall.units)).like.get id := by
  show CustomTimeUnits.get _ id = _
  rw [(C35_custom_tables calls).1]; rfl

/-- C73: `get_time_unit_by_id` knows exactly the non-empty identifiers of the added time units, and gives a unit and a
multiplier which were added with this identifier; identifiers of keywords and numerals are not known to it. -/
theorem C73_get (calls : List CustomCall) (id : Bytes) :
    ((calls.foldl callCustomSetter CustomDurationParser.new).getTimeUnitById id = none ↔
      ∀ r ∈ calls.flatMap CustomCall.units, id ∈ r.identifiers → id = []) ∧
    (∀ u m, (calls.foldl callCustomSetter CustomDurationParser.new).getTimeUnitById id = some (u, m) →
      ∃ r ∈ calls.flatMap CustomCall.units, r.baseUnit = u ∧ r.multiplier = m ∧ id ∈ r.identifiers) := by
  rw [getById_eq]
  refine ⟨?_, fun u m h => C36_sound _ id u m h⟩
  have hr := C36_resolves (calls.flatMap CustomCall.units) id
  constructor
  · intro h r h1 h2
    apply Classical.byContradiction
    intro h3
    obtain ⟨p, hp⟩ := hr.2 ⟨h3, r, h1, h2⟩
    rw [h] at hp; cases hp
  · intro h
    cases hg : (CustomTimeUnits.withTimeUnits (calls.flatMap CustomCall.units)).like.get id with
    | none => rfl
    | some p =>
      obtain ⟨h1, r, h2, h3⟩ := hr.1 ⟨p, hg⟩
      exact absurd (h r h2 h3) h1

/-- C73: a parser is empty exactly if it knows no identifier. -/
theorem C73_empty_knows_nothing (calls : List CustomCall) :
    (calls.foldl callCustomSetter CustomDurationParser.new).isEmpty = true ↔
      ∀ id, (calls.foldl callCustomSetter CustomDurationParser.new).getTimeUnitById id = none := by
  rw [C73_is_empty]
  constructor
  · intro h id
    exact (C73_get calls id).1.2 (fun r hr hid => h r hr id hid)
  · intro h r hr id hid
    exact (C73_get calls id).1.1 (h id) r hr hid

/-- keywords, numerals and units without identifiers leave a parser empty -/
example :
    ([.keyword ⟨⟨.day, ⟨1, 0⟩, [b! "tomorrow"]⟩⟩, .numeral ⟨[b! "one"], ⟨1, 0⟩⟩, .timeUnits [⟨.week, ⟨1, 0⟩, [[]]⟩],
      .option .allowNegative].foldl callCustomSetter CustomDurationParser.new).isEmpty = true ∧
    ([.keyword ⟨⟨.day, ⟨1, 0⟩, [b! "tomorrow"]⟩⟩, .timeUnit ⟨.week, ⟨2, 0⟩, [[], b! "fortnight"]⟩].foldl callCustomSetter
      CustomDurationParser.new).isEmpty = false ∧
    ([.keyword ⟨⟨.day, ⟨1, 0⟩, [b! "tomorrow"]⟩⟩, .timeUnit ⟨.week, ⟨2, 0⟩, [[], b! "fortnight"]⟩].foldl callCustomSetter
      CustomDurationParser.new).getTimeUnitById (b! "tomorrow") = none := by decide +kernel

/-! ## C74 -/

/-- C74: The Julian day of a date and time: the day number of its date, whatever the time of day is. -/
theorem C74_of_date (y : Int) (m d h mi s n : Nat) (hy : IsI64 y) (hd : ValidDate y m d) (ht : ValidTime h mi s n)
    (hi : IsI64 (dayNumber y m d)) :
    ∃ dt, DateTime.fromGregorianDateTime y m d h mi s n = .ok dt ∧ dt.asJulianDay = dayNumber y m d := by
  have h31 := (monthDays_le y m).2
  obtain ⟨v1, v2, v3, v4⟩ := hd
  have e := (C44_from_gregorian y m d hy v1 v2 v3 (by omega)).1 hi
  refine ⟨⟨dayNumber y m d, DateTime.timeOf h mi s n⟩, ?_, rfl⟩
  rw [fromGregorianDateTime_valid y m d h mi s n ht, e]; rfl

/-- C74: `as_julian_day` is the number of whole days since the start of day 0 (rounded down): adding a duration shorter
than the rest of the day does not change it, and it never decreases when time passes. -/
theorem C74_of_instant (dt : DateTime) (h : DateTimeOk dt) : dt.asJulianDay = instant dt / dayNanos := by
  obtain ⟨_, h2⟩ := h
  have h0 : (0 : Int) ≤ dt.time := Int.natCast_nonneg _
  simp only [DateTime.asJulianDay, instant, dayNanos] at *
  omega

theorem C74_monotone (a b : DateTime) (ha : DateTimeOk a) (hb : DateTimeOk b) (h : instant a ≤ instant b) :
    a.asJulianDay ≤ b.asJulianDay := by
  rw [C74_of_instant a ha, C74_of_instant b hb]
  exact Int.ediv_le_ediv (by decide) h

/-- C74: `to_gregorian_date` gives the date with this day number. -/
theorem C74_to_gregorian (dt : DateTime) (y : Int) (m d : Nat) (h : dt.toGregorianDate = .ok (some (y, m, d))) :
    ValidDate y m d ∧ dayNumber y m d = dt.asJulianDay := by
  have := C45_to_gregorian dt.days y m d h
  exact ⟨this.1, this.2.1⟩

example : ValidDate 1582 10 15 ∧
    ((DateTime.fromGregorianDateTime 1582 10 15 23 59 59 999999999).map DateTime.asJulianDay) = .ok 2299161 ∧
    (DateTime.fromGregorianDateTime (-4713) 11 24 0 0 0 0).map DateTime.asJulianDay = .ok 0 := by
  refine ⟨by decide, rfl, rfl⟩

/-! ## C67: the messages of errors of conversions -/

/-- C67: The messages of the three errors of conversions are different. -/
theorem C67_conversion_messages (e e' : TryFromDurationError) (h : e.display = e'.display) : e = e' := by
  cases e <;> cases e' <;> first | rfl | exact absurd h (by decide +kernel)

/-- C67: the message names the range which is exceeded -/
example :
    (TryFromDurationError.negativeDuration).display = b! "Error converting duration: value is negative" ∧
    (TryFromDurationError.positiveOverflow).display =
      b! "Error converting duration: value overflows the positive value range" ∧
    (TryFromDurationError.negativeOverflow).display =
      b! "Error converting duration: value overflows the negative value range" := by decide +kernel

end Fundu.Props
