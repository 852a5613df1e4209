import Verif.Model.Serde
import Verif.Spec.Time
import Verif.Spec.Calendar
import Verif.Props.Message
/-!
# Property C83: values can be serialized and deserialized without loss
-/
namespace Fundu.Props
open Fundu Fundu.Spec Fundu.Serde

theorem toInt_int {min max n : Int} (h1 : min ≤ n) (h2 : n ≤ max) : (Data.int n).toInt min max = some n := if_pos ⟨h1, h2⟩

theorem toInt_some {min max n : Int} {d : Data} (h : d.toInt min max = some n) : d = .int n ∧ min ≤ n ∧ n ≤ max := by
  unfold Data.toInt at h
  split at h
  · split at h
    · cases h; exact ⟨rfl, by assumption⟩
    · cases h
  · cases h

theorem new_eq {secs nanos : Nat} (h : secs + nanos / 1000000000 ≤ U64_MAX) :
    StdDuration.new secs nanos = .ok ⟨secs + nanos / 1000000000, nanos % 1000000000⟩ := by
  unfold StdDuration.new
  by_cases hn : nanos < 1000000000
  · rw [if_pos hn, Nat.div_eq_of_lt hn, Nat.mod_eq_of_lt hn, Nat.add_zero]
  · rw [if_neg hn, if_pos h]

/-- what `std::time::Duration` is deserialized to -/
theorem deStd_some {d : Data} {s : StdDuration} (h : deStd d = some s) : s.WF ∧ ∃ secs nanos : Nat,
    d.twoFields (b! "secs") (b! "nanos") = some (.int secs, .int nanos) ∧ nanos ≤ 4294967295 ∧ stdNanos s = secs * 1000000000 + nanos := by
  unfold deStd at h
  cases h1 : d.twoFields (b! "secs") (b! "nanos") with
  | none => rw [h1] at h; cases h
  | some p =>
    obtain ⟨a, c⟩ := p
    rw [h1] at h
    simp only [Option.bind_eq_bind, Option.bind_some] at h
    cases h2 : a.toInt 0 U64_MAX with
    | none => rw [h2] at h; cases h
    | some x =>
      rw [h2, Option.bind_some] at h
      cases h3 : c.toInt 0 U32_MAX with
      | none => rw [h3] at h; cases h
      | some y =>
        rw [h3, Option.bind_some] at h
        obtain ⟨rfl, hx1, hx2⟩ := toInt_some h2
        obtain ⟨rfl, hy1, hy2⟩ := toInt_some h3
        unfold checkedU64 at h
        unfold U32_MAX at hy2
        by_cases hc : x.toNat + y.toNat / 1000000000 ≤ U64_MAX
        · rw [if_pos hc, Option.bind_some] at h
          rw [new_eq hc] at h
          cases h
          refine ⟨⟨hc, Nat.mod_lt _ (by decide)⟩, x.toNat, y.toNat, ?_, by omega, ?_⟩
          · rw [Int.toNat_of_nonneg hx1, Int.toNat_of_nonneg hy1]
          · show ((x.toNat + y.toNat / 1000000000 : Nat) : Int) * 1000000000 + ((y.toNat % 1000000000 : Nat) : Int) = _
            omega
        · rw [if_neg hc] at h
          cases h

theorem deStd_seq {secs nanos : Nat} (h1 : secs ≤ U64_MAX) (h2 : nanos < 1000000000) {d : Data}
    (h : d.twoFields (b! "secs") (b! "nanos") = some (.int secs, .int nanos)) : deStd d = some ⟨secs, nanos⟩ := by
  have hs : (Data.int secs).toInt 0 U64_MAX = some (secs : Int) := toInt_int (by omega) (by exact_mod_cast h1)
  have hn : (Data.int nanos).toInt 0 U32_MAX = some (nanos : Int) := toInt_int (by omega) (by unfold U32_MAX; omega)
  have h3 : nanos / 1000000000 = 0 := by omega
  have hc : (Int.toNat (secs : Int)) + (Int.toNat (nanos : Int)) / 1000000000 ≤ U64_MAX := by
    rw [Int.toNat_natCast, Int.toNat_natCast, h3]; exact h1
  unfold deStd
  rw [h]
  simp only [Option.bind_eq_bind, Option.bind_some]
  rw [hs, Option.bind_some, hn, Option.bind_some]
  unfold checkedU64
  rw [if_pos hc, Option.bind_some]
  unfold StdDuration.new
  rw [if_pos (by rw [Int.toNat_natCast]; exact h2)]
  rfl

/-- C83: a duration, serialized and deserialized, is the same duration. -/
theorem C83_duration (d : Duration) (h : d.WF) : deDuration (serDuration d) = some d := by
  obtain ⟨neg, ⟨secs, nanos⟩⟩ := d
  have e : deStd (serStd ⟨secs, nanos⟩) = some ⟨secs, nanos⟩ := deStd_seq h.1 h.2 rfl
  show (deStd (serStd ⟨secs, nanos⟩)).bind _ = _
  rw [e]
  rfl

example : (⟨true, ⟨18446744073709551615, 999999999⟩⟩ : Duration).WF := by decide

/-- C83: the same in a format which keeps the values of the fields in their order, but not the names. -/
theorem C83_duration_seq (d : Duration) (h : d.WF) :
    deDuration (.seq [.bool d.isNegative, .seq [.int d.inner.secs, .int d.inner.nanos]]) = some d := by
  obtain ⟨neg, ⟨secs, nanos⟩⟩ := d
  have e : deStd (.seq [.int secs, .int nanos]) = some ⟨secs, nanos⟩ := deStd_seq h.1 h.2 rfl
  show (deStd (.seq [.int secs, .int nanos])).bind _ = _
  rw [e]
  rfl

/-- C83: in a format with names, the order of the fields has no influence, and fields with other names are ignored. -/
theorem C83_duration_fields (d : Duration) (h : d.WF) (fields fields' : List (Bytes × Data))
    (h1 : Data.field (b! "is_negative") fields = some (.bool d.isNegative))
    (h2 : Data.field (b! "inner") fields = some (.struct fields'))
    (h3 : Data.field (b! "secs") fields' = some (.int d.inner.secs))
    (h4 : Data.field (b! "nanos") fields' = some (.int d.inner.nanos)) :
    deDuration (.struct fields) = some d := by
  obtain ⟨neg, ⟨secs, nanos⟩⟩ := d
  have e : deStd (.struct fields') = some ⟨secs, nanos⟩ := deStd_seq h.1 h.2 (by
    unfold Data.twoFields
    simp only [Option.bind_eq_bind, h3, h4, Option.bind_some])
  unfold deDuration Data.twoFields
  simp only [Option.bind_eq_bind, h1, h2, Option.bind_some, e]
  rfl

example : deDuration (.struct [(b! "inner", .struct [(b! "nanos", .int 7), (b! "x", .bool true), (b! "secs", .int 1)]),
    (b! "is_negative", .bool true)]) = some ⟨true, ⟨1, 7⟩⟩ :=
  C83_duration_fields ⟨true, ⟨1, 7⟩⟩ (by decide) _ [(b! "nanos", .int 7), (b! "x", .bool true), (b! "secs", .int 1)] (by rfl) (by rfl) (by rfl) (by rfl)

/-- C83: whatever is read, a duration which is returned is a valid one: less than one second of nanoseconds, and its value is that of
the fields. -/
theorem C83_duration_valid (x : Data) (d : Duration) (h : deDuration x = some d) : d.WF ∧
    ∃ inner, ∃ secs nanos : Nat, x.twoFields (b! "is_negative") (b! "inner") = some (.bool d.isNegative, inner) ∧
      inner.twoFields (b! "secs") (b! "nanos") = some (.int secs, .int nanos) ∧
      nanos ≤ 4294967295 ∧ stdNanos d.inner = secs * 1000000000 + nanos := by
  unfold deDuration at h
  cases h1 : x.twoFields (b! "is_negative") (b! "inner") with
  | none => rw [h1] at h; cases h
  | some p =>
    obtain ⟨a, c⟩ := p
    rw [h1] at h
    simp only [Option.bind_eq_bind, Option.bind_some] at h
    cases a with
    | bool neg =>
      have h : (deStd c).bind (fun i => some (⟨neg, i⟩ : Duration)) = some d := h
      cases h2 : deStd c with
      | none => rw [h2] at h; cases h
      | some s =>
        rw [h2] at h
        cases h
        obtain ⟨hw, secs, nanos, h3, h4, h5⟩ := deStd_some h2
        exact ⟨hw, c, secs, nanos, rfl, h3, h4, h5⟩
    | _ => cases h

/-- C83: every pair of a `u64` and a `u32` is read, also with more than a second of nanoseconds, unless the sum of the seconds is too large. -/
theorem C83_duration_accepted (x inner : Data) (neg : Bool) (secs nanos : Nat)
    (h1 : x.twoFields (b! "is_negative") (b! "inner") = some (.bool neg, inner))
    (h2 : inner.twoFields (b! "secs") (b! "nanos") = some (.int secs, .int nanos)) (hn : nanos < 2 ^ 32)
    (hs : secs * 1000000000 + nanos < 2 ^ 64 * 1000000000) :
    ∃ d, deDuration x = some d ∧ d.isNegative = neg ∧ stdNanos d.inner = secs * 1000000000 + nanos := by
  have k1 : (Data.int secs).toInt 0 U64_MAX = some (secs : Int) := toInt_int (by omega) (by unfold U64_MAX; omega)
  have k2 : (Data.int nanos).toInt 0 U32_MAX = some (nanos : Int) := toInt_int (by omega) (by unfold U32_MAX; omega)
  have hc : secs + nanos / 1000000000 ≤ U64_MAX := by unfold U64_MAX; omega
  refine ⟨⟨neg, ⟨secs + nanos / 1000000000, nanos % 1000000000⟩⟩, ?_, rfl, ?_⟩
  · unfold deDuration
    rw [h1]
    show (deStd inner).bind (fun i => some (⟨neg, i⟩ : Duration)) = _
    have : deStd inner = some ⟨secs + nanos / 1000000000, nanos % 1000000000⟩ := by
      unfold deStd
      rw [h2]
      simp only [Option.bind_eq_bind, Option.bind_some]
      rw [k1, Option.bind_some, k2, Option.bind_some, Int.toNat_natCast, Int.toNat_natCast]
      unfold checkedU64
      rw [if_pos hc, Option.bind_some, new_eq hc]
      rfl
    rw [this]
    rfl
  · show ((secs + nanos / 1000000000 : Nat) : Int) * 1000000000 + ((nanos % 1000000000 : Nat) : Int) = _
    omega

example : ∃ d, deDuration (.seq [.bool true, .seq [.int 1, .int 4294967295]]) = some d ∧ d.isNegative = true ∧ stdNanos d.inner = (1 : Nat) * 1000000000 + (4294967295 : Nat) :=
  C83_duration_accepted _ (.seq [.int 1, .int 4294967295]) true 1 4294967295 rfl rfl (by decide) (by decide)

/-- an invalid number of nanoseconds is carried over, and refused if there is no room for it -/
example : deDuration (.seq [.bool false, .seq [.int 1, .int 2500000000]]) = some ⟨false, ⟨3, 500000000⟩⟩ := by decide +kernel
example : deDuration (.seq [.bool false, .seq [.int 18446744073709551615, .int 1000000000]]) = none := by decide +kernel
example : deDuration (.seq [.bool false, .seq [.int (-1), .int 0]]) = none := by decide +kernel

/-- a field is found iff it is present exactly once -/
theorem field_some {name : Bytes} {fields : List (Bytes × Data)} {d : Data} (h : Data.field name fields = some d) :
    (fields.map (·.1)).count name = 1 := by
  have hl : (fields.map (·.1)).count name = (fields.filter (fun f => f.1 = name)).length := by
    rw [List.count, List.countP_map, List.countP_eq_length_filter]
    refine congrArg List.length (List.filter_congr fun x _ => ?_)
    rw [Bool.eq_iff_iff]
    simp
  rw [hl]
  unfold Data.field at h
  split at h
  · next e => rw [e]; rfl
  · cases h

/-- C83: a field has the value which is stored under its name; it must be stored exactly once. Other fields have no influence. -/
theorem C83_field (name : Bytes) (fields : List (Bytes × Data)) (d : Data) :
    Data.field name fields = some d ↔ (name, d) ∈ fields ∧ (fields.map (·.1)).count name = 1 := by
  constructor
  · intro h
    refine ⟨?_, field_some h⟩
    unfold Data.field at h
    split at h
    · next f e =>
      have hf : f ∈ fields.filter (fun f => f.1 = name) := by rw [e]; simp
      obtain ⟨h1, h2⟩ := List.mem_filter.1 hf
      simp only [decide_eq_true_eq] at h2
      cases h
      rw [← h2]
      exact h1
    · cases h
  · rintro ⟨h1, h2⟩
    have hl : (fields.map (·.1)).count name = (fields.filter (fun f => f.1 = name)).length := by
      rw [List.count, List.countP_map, List.countP_eq_length_filter]
      refine congrArg List.length (List.filter_congr fun x _ => ?_)
      rw [Bool.eq_iff_iff]
      simp
    rw [hl] at h2
    have hm : (name, d) ∈ fields.filter (fun f => f.1 = name) := List.mem_filter.2 ⟨h1, by simp⟩
    unfold Data.field
    obtain ⟨f, hf⟩ := List.length_eq_one_iff.1 h2
    have hfd : (name, d) = f := by
      rw [hf] at hm
      exact List.mem_singleton.1 hm
    simp only [hf]
    rw [← hfd]

/-- C83: in a format without names there must be exactly the two fields. -/
theorem C83_seq_length (l : List Data) :
    (∀ d, deDuration (.seq l) = some d → l.length = 2) ∧ (∀ d, deStd (.seq l) = some d → l.length = 2) ∧
    (∀ dt, deDateTime (.seq l) = some dt → l.length = 2) ∧ ∀ m, deMultiplier (.seq l) = some m → l.length = 2 := by
  have key : ∀ {a b : Bytes} {r}, (Data.seq l).twoFields a b = some r → l.length = 2 := by
    intro a b r h
    match l, h with
    | [x, y], _ => rfl
  refine ⟨fun d h => ?_, fun d h => ?_, fun d h => ?_, fun m h => ?_⟩
  · unfold deDuration at h
    cases h1 : (Data.seq l).twoFields (b! "is_negative") (b! "inner") with
    | none => rw [h1] at h; cases h
    | some r => exact key h1
  · unfold deStd at h
    cases h1 : (Data.seq l).twoFields (b! "secs") (b! "nanos") with
    | none => rw [h1] at h; cases h
    | some r => exact key h1
  · unfold deDateTime at h
    cases h1 : (Data.seq l).twoFields (b! "days") (b! "time") with
    | none => rw [h1] at h; cases h
    | some r => exact key h1
  · match l, h with
    | [x, y], _ => rfl

theorem field_perm {name : Bytes} {fields fields' : List (Bytes × Data)} (h : fields.Perm fields') :
    Data.field name fields = Data.field name fields' := by
  have hp := h.filter (fun f => decide (f.1 = name))
  unfold Data.field
  generalize fields.filter (fun f => decide (f.1 = name)) = a at hp ⊢
  generalize fields'.filter (fun f => decide (f.1 = name)) = b at hp ⊢
  match a, b, hp.length_eq with
  | [], [], _ => rfl
  | [x], [y], _ => rw [List.singleton_perm_singleton.1 hp]
  | _ :: _ :: _, _ :: _ :: _, _ => rfl

/-- C83: in a format with names a missing field and a field which occurs twice are errors. -/
theorem C83_fields_once (fields : List (Bytes × Data)) :
    (∀ d, deDuration (.struct fields) = some d →
      (fields.map (·.1)).count (b! "is_negative") = 1 ∧ (fields.map (·.1)).count (b! "inner") = 1) ∧
    (∀ d, deStd (.struct fields) = some d → (fields.map (·.1)).count (b! "secs") = 1 ∧ (fields.map (·.1)).count (b! "nanos") = 1) ∧
    (∀ dt, deDateTime (.struct fields) = some dt → (fields.map (·.1)).count (b! "days") = 1 ∧ (fields.map (·.1)).count (b! "time") = 1) := by
  have key : ∀ {a b : Bytes} {r}, (Data.struct fields).twoFields a b = some r → (fields.map (·.1)).count a = 1 ∧ (fields.map (·.1)).count b = 1 := by
    intro a b r h
    change (Data.field a fields).bind (fun x => (Data.field b fields).bind fun y => some (x, y)) = some r at h
    cases h1 : Data.field a fields with
    | none => rw [h1] at h; cases h
    | some x =>
      cases h2 : Data.field b fields with
      | none => rw [h1, Option.bind_some, h2] at h; cases h
      | some y => exact ⟨field_some h1, field_some h2⟩
  refine ⟨fun d h => ?_, fun d h => ?_, fun d h => ?_⟩
  · unfold deDuration at h
    cases h1 : (Data.struct fields).twoFields (b! "is_negative") (b! "inner") with
    | none => rw [h1] at h; cases h
    | some r => exact key h1
  · unfold deStd at h
    cases h1 : (Data.struct fields).twoFields (b! "secs") (b! "nanos") with
    | none => rw [h1] at h; cases h
    | some r => exact key h1
  · unfold deDateTime at h
    cases h1 : (Data.struct fields).twoFields (b! "days") (b! "time") with
    | none => rw [h1] at h; cases h
    | some r => exact key h1

/-- C83: the order of the fields does not matter. -/
theorem C83_fields_order (fields fields' : List (Bytes × Data)) (h : fields.Perm fields') :
    deDuration (.struct fields) = deDuration (.struct fields') ∧ deStd (.struct fields) = deStd (.struct fields') ∧
    deDateTime (.struct fields) = deDateTime (.struct fields') := by
  have key : ∀ a b : Bytes, (Data.struct fields).twoFields a b = (Data.struct fields').twoFields a b := by
    intro a b
    change (Data.field a fields).bind (fun x => (Data.field b fields).bind fun y => some (x, y)) =
      (Data.field a fields').bind (fun x => (Data.field b fields').bind fun y => some (x, y))
    rw [field_perm h, field_perm h]
  refine ⟨?_, ?_, ?_⟩
  · unfold deDuration; rw [key]
  · unfold deStd; rw [key]
  · unfold deDateTime; rw [key]

/-- one second, the fields in the other order; and with a field twice -/
example : deDuration (.struct [(b! "inner", .struct [(b! "nanos", .int 0), (b! "secs", .int 1)]), (b! "is_negative", .bool false)]) =
      some ⟨false, ⟨1, 0⟩⟩ ∧
    deDuration (.struct [(b! "is_negative", .bool false), (b! "inner", .struct [(b! "nanos", .int 0), (b! "secs", .int 1)]),
      (b! "is_negative", .bool false)]) = none := by decide +kernel

/-- C83: time units -/
theorem C83_time_unit (u : TimeUnit) : deTimeUnit (serTimeUnit u) = some u := by cases u <;> decide

/-- C83: only what is written for a unit is read as this unit -/
theorem C83_time_unit_only (x : Data) (u : TimeUnit) (h : deTimeUnit x = some u) : x = serTimeUnit u := by
  unfold deTimeUnit at h
  split at h
  · next name =>
    have := List.find?_some h
    simp only [decide_eq_true_eq] at this
    unfold serTimeUnit
    rw [this]
  · cases h

example : deTimeUnit (.unitVariant (b! "Fortnight")) = none := by decide

/-- The stored names of time units: what has been written with one version of the library is read by others only if these names stay
the same. -/
def storedUnits : List (TimeUnit × Bytes) :=
  [(.nanoSecond, b! "NanoSecond"), (.microSecond, b! "MicroSecond"), (.milliSecond, b! "MilliSecond"), (.second, b! "Second"),
    (.minute, b! "Minute"), (.hour, b! "Hour"), (.day, b! "Day"), (.week, b! "Week"), (.month, b! "Month"), (.year, b! "Year")]

/-- C83: a time unit is stored under its name, and exactly these names are read -/
theorem C83_stored_units (u : TimeUnit) (x : Data) :
    (serTimeUnit u = x ↔ ∃ n, x = .unitVariant n ∧ (u, n) ∈ storedUnits) ∧
    (deTimeUnit x = some u ↔ ∃ n, x = .unitVariant n ∧ (u, n) ∈ storedUnits) := by
  have fwd : ∀ p ∈ storedUnits, timeUnitName p.1 = p.2 := by decide +kernel
  have ex : ∀ u : TimeUnit, (u, timeUnitName u) ∈ storedUnits := by intro u; cases u <;> decide +kernel
  have hser : serTimeUnit u = x ↔ ∃ n, x = .unitVariant n ∧ (u, n) ∈ storedUnits := by
    constructor
    · rintro rfl
      exact ⟨_, rfl, ex u⟩
    · rintro ⟨n, rfl, hn⟩
      exact congrArg Data.unitVariant (fwd _ hn)
  refine ⟨hser, ?_⟩
  rw [← hser]
  constructor
  · intro h; exact (C83_time_unit_only x u h).symm
  · rintro rfl; exact C83_time_unit u

/-- C83: multipliers, and nothing else is read as a multiplier -/
theorem C83_multiplier (m : Multiplier) (h : m.WF) (x : Data) : deMultiplier x = some m ↔ x = serMultiplier m := by
  obtain ⟨c, e⟩ := m
  constructor
  · intro hx
    unfold deMultiplier at hx
    split at hx
    · next a b =>
      simp only [Option.bind_eq_bind] at hx
      cases h1 : a.toInt I64_MIN I64_MAX with
      | none => rw [h1] at hx; cases hx
      | some y =>
        cases h2 : b.toInt I16_MIN I16_MAX with
        | none => rw [h1, h2] at hx; cases hx
        | some z =>
          rw [h1, h2] at hx
          cases hx
          rw [(toInt_some h1).1, (toInt_some h2).1]
          rfl
    · cases hx
  · rintro rfl
    have h1 : (Data.int c).toInt I64_MIN I64_MAX = some c := toInt_int h.1.1 h.1.2
    have h2 : (Data.int e).toInt I16_MIN I16_MAX = some e := toInt_int h.2.1 h.2.2
    show ((Data.int c).toInt I64_MIN I64_MAX).bind _ = _
    rw [h1, Option.bind_some]
    show ((Data.int e).toInt I16_MIN I16_MAX).bind _ = _
    rw [h2]
    rfl

/-- C83: a multiplier which was read is in the range of its types -/
theorem C83_multiplier_valid (x : Data) (m : Multiplier) (h : deMultiplier x = some m) : m.WF := by
  unfold deMultiplier at h
  split at h
  · next a b =>
    simp only [Option.bind_eq_bind] at h
    cases h1 : a.toInt I64_MIN I64_MAX with
    | none => rw [h1] at h; cases h
    | some y =>
      cases h2 : b.toInt I16_MIN I16_MAX with
      | none => rw [h1, h2] at h; cases h
      | some z =>
        rw [h1, h2] at h
        cases h
        exact ⟨(toInt_some h1).2, (toInt_some h2).2⟩
  · cases h

example : (⟨-3, 32767⟩ : Multiplier).WF := by decide

/-- C83: julian days -/
theorem C83_julian_day (jd : Int) (h : IsI64 jd) : deJulianDay (serJulianDay jd) = some jd := toInt_int h.1 h.2

/-- C83: dates -/
theorem C83_date_time (dt : DateTime) (h : DateTimeOk dt) : deDateTime (serDateTime dt) = some dt := by
  obtain ⟨days, time⟩ := dt
  obtain ⟨h1, h2⟩ : IsI64 days ∧ (time : Int) < dayNanos := h
  have ht : (Data.int time).toInt 0 U64_MAX = some (time : Int) := toInt_int (by omega) (by unfold dayNanos at h2; unfold U64_MAX; omega)
  have hd := C83_julian_day days h1
  show ((Data.int time).toInt 0 U64_MAX).bind _ = _
  rw [ht, Option.bind_some]
  show (deJulianDay (serJulianDay days)).bind _ = _
  rw [hd, Option.bind_some, Int.toNat_natCast]

/-- C83: dates, in a format without names, and in one with names in any order and with further names -/
theorem C83_date_time_fields (dt : DateTime) (h : DateTimeOk dt) :
    deDateTime (.seq [.newtype (.int dt.days), .int dt.time]) = some dt ∧
    ∀ fields, Data.field (b! "days") fields = some (.newtype (.int dt.days)) → Data.field (b! "time") fields = some (.int dt.time) →
      deDateTime (.struct fields) = some dt := by
  obtain ⟨days, time⟩ := dt
  obtain ⟨h1, h2⟩ : IsI64 days ∧ (time : Int) < dayNanos := h
  have ht : (Data.int time).toInt 0 U64_MAX = some (time : Int) := toInt_int (by omega) (by unfold dayNanos at h2; unfold U64_MAX; omega)
  have hd : deJulianDay (.newtype (.int days)) = some days := C83_julian_day days h1
  refine ⟨?_, fun fields f1 f2 => ?_⟩
  · show ((Data.int time).toInt 0 U64_MAX).bind _ = _
    rw [ht, Option.bind_some]
    show (deJulianDay (.newtype (.int days))).bind _ = _
    rw [hd, Option.bind_some, Int.toNat_natCast]
  · unfold deDateTime Data.twoFields
    simp only [Option.bind_eq_bind, f1, f2, Option.bind_some, ht, hd, Int.toNat_natCast]

example : DateTimeOk ⟨-9223372036854775808, 86399999999999⟩ := by decide

example : deDateTime (.struct [(b! "time", .int 5), (b! "zone", .bool true), (b! "days", .newtype (.int (-7)))]) = some ⟨-7, 5⟩ :=
  (C83_date_time_fields ⟨-7, 5⟩ (by decide)).2 _ (by rfl) (by rfl)

/-- C83: errors of conversions -/
theorem C83_conversion_error (e : TryFromDurationError) : deConversionError (serConversionError e) = some e := by cases e <;> decide

/-- C83: errors of parsers. The error which is read has the same variant, position and text, and so the same message. -/
theorem C83_parse_error (e : ParseError)
    (h : ∀ p r, e = .syntax p r ∨ e = .timeUnit p r → p ≤ U64_MAX) :
    ∃ e', deParseError (serParseError e) = some e' ∧ view e' = view e ∧ e'.display = e.display := by
  cases e with
  | «syntax» p r =>
    have hp : (Data.int p).toInt 0 U64_MAX = some (p : Int) := toInt_int (by omega) (by exact_mod_cast h p r (Or.inl rfl))
    refine ⟨.syntax p (.text r.message), ?_, rfl, rfl⟩
    show dePosition .syntax (.int p) (.str r.message) = _
    unfold dePosition
    simp only [Option.bind_eq_bind, hp, Option.bind_some, Int.toNat_natCast]
    rfl
  | timeUnit p r =>
    have hp : (Data.int p).toInt 0 U64_MAX = some (p : Int) := toInt_int (by omega) (by exact_mod_cast h p r (Or.inr rfl))
    refine ⟨.timeUnit p (.text r.message), ?_, rfl, rfl⟩
    show dePosition .timeUnit (.int p) (.str r.message) = _
    unfold dePosition
    simp only [Option.bind_eq_bind, hp, Option.bind_some, Int.toNat_natCast]
    rfl
  | invalidInput r => exact ⟨.invalidInput (.text r.message), rfl, rfl, rfl⟩
  | empty => exact ⟨_, rfl, rfl, rfl⟩
  | overflow => exact ⟨_, rfl, rfl, rfl⟩
  | negativeExponentOverflow => exact ⟨_, rfl, rfl, rfl⟩
  | positiveExponentOverflow => exact ⟨_, rfl, rfl, rfl⟩
  | negativeNumber => exact ⟨_, rfl, rfl, rfl⟩

/-- C83: different errors are written differently. -/
theorem C83_parse_error_injective (e e' : ParseError) (h : serParseError e = serParseError e') : view e = view e' := by
  cases e <;> cases e' <;> simp_all [serParseError, view] <;> revert h <;> decide

/-- C83: the stored form of errors: the name of the variant, and position and message if there are any -/
theorem C83_stored_errors (p : Nat) (r : Reason) :
    serParseError .empty = .unitVariant (b! "Empty") ∧ serParseError .overflow = .unitVariant (b! "Overflow") ∧
    serParseError .negativeExponentOverflow = .unitVariant (b! "NegativeExponentOverflow") ∧
    serParseError .positiveExponentOverflow = .unitVariant (b! "PositiveExponentOverflow") ∧
    serParseError .negativeNumber = .unitVariant (b! "NegativeNumber") ∧
    serParseError (.syntax p r) = .tupleVariant (b! "Syntax") [.int p, .str r.message] ∧
    serParseError (.timeUnit p r) = .tupleVariant (b! "TimeUnit") [.int p, .str r.message] ∧
    serParseError (.invalidInput r) = .tupleVariant (b! "InvalidInput") [.str r.message] ∧
    serConversionError .negativeDuration = .unitVariant (b! "NegativeDuration") ∧
    serConversionError .positiveOverflow = .unitVariant (b! "PositiveOverflow") ∧
    serConversionError .negativeOverflow = .unitVariant (b! "NegativeOverflow") :=
  ⟨rfl, rfl, rfl, rfl, rfl, rfl, rfl, rfl, rfl, rfl, rfl⟩

/-- C83: the stored form of durations, multipliers and dates -/
theorem C83_stored_fields (d : Duration) (m : Multiplier) (dt : DateTime) :
    serDuration d = .struct [(b! "is_negative", .bool d.isNegative),
      (b! "inner", .struct [(b! "secs", .int d.inner.secs), (b! "nanos", .int d.inner.nanos)])] ∧
    serMultiplier m = .seq [.int m.coefficient, .int m.exponent] ∧
    serDateTime dt = .struct [(b! "days", .newtype (.int dt.days)), (b! "time", .int dt.time)] := ⟨rfl, rfl, rfl⟩

/-- The whole of C83 does not hold for what is read as a date: the time of day is not checked (finding F23). Calculating with it
panics. -/
example : ∃ dt, deDateTime (.seq [.newtype (.int 0), .int 18446744073709551615]) = some dt ∧ ¬ DateTimeOk dt ∧
    (dt.checkedAddDuration ⟨false, ⟨1, 0⟩⟩).toBool = false := ⟨⟨0, 18446744073709551615⟩, by decide +kernel, by decide +kernel, by decide +kernel⟩

end Fundu.Props
