import Verif.Props.Calendar
import Verif.Props.TimeAccess
/-! # Lemmas about `DateTime` -/
namespace Fundu
open Fundu.Spec Fundu.Props

theorem dayNanos_eq : dayNanos = 86400000000000 := by decide

/-- the date and time at an instant, if its day is an `i64` -/
def ofInstant (x : Int) : Option DateTime :=
  if IsI64 (x / 86400000000000) then some ⟨x / 86400000000000, (x % 86400000000000).toNat⟩ else none

theorem ofInstant_iff (x : Int) (dt : DateTime) :
    ofInstant x = some dt ↔ DateTimeOk dt ∧ instant dt = x := by
  unfold ofInstant DateTimeOk instant
  rw [dayNanos_eq]
  by_cases h : IsI64 (x / 86400000000000)
  · rw [if_pos h]
    constructor
    · intro he
      cases he
      exact ⟨⟨h, by simp only; omega⟩, by simp only; omega⟩
    · rintro ⟨⟨h1, h2⟩, h3⟩
      congr 1
      obtain ⟨d, t⟩ := dt
      simp only at *
      rw [DateTime.mk.injEq]
      omega
  · rw [if_neg h]
    constructor
    · intro he; cases he
    · rintro ⟨⟨h1, h2⟩, h3⟩
      exfalso
      apply h
      have : x / 86400000000000 = dt.days := by omega
      rw [this]; exact h1

theorem onDay_eq (jd days : Int) (t : Nat) (ht : t < 86400000000000) :
    DateTime.onDay jd days t = ofInstant ((jd + days) * 86400000000000 + t) := by
  have e1 : ((jd + days) * 86400000000000 + t) / 86400000000000 = jd + days := by omega
  have e2 : ((jd + days) * 86400000000000 + (t : Int)) % 86400000000000 = t := by omega
  unfold DateTime.onDay JulianDay.checkedAddDays ofInstant checkedI64
  rw [e1, e2, Int.toNat_natCast]
  by_cases h : IsI64 (jd + days)
  · rw [if_pos h, if_pos h]
  · rw [if_neg h, if_neg h]

theorem normalize_eq (jd t : Int) (h1 : -86400000000000 < t) (h2 : t < 172800000000000) (hjd : IsI64 jd) :
    DateTime.normalize jd t = .ok (ofInstant (jd * 86400000000000 + t)) := by
  have hn : NANOS_PER_DAY = 86400000000000 := rfl
  unfold DateTime.normalize tryFromUnsigned U64_MAX
  rw [hn]
  by_cases hneg : t < 0
  · rw [if_pos hneg, arithI64_ok (by omega) (by omega), ok_bind, if_pos (by omega), ok_bind, ok_pure,
      onDay_eq _ _ _ (by omega)]
    congr 2; omega
  · rw [if_neg hneg]
    by_cases hlt : t < 86400000000000
    · rw [if_pos hlt, if_pos (by omega), ok_bind, ok_pure]
      congr 1
      have e1 : (jd * 86400000000000 + t) / 86400000000000 = jd := by omega
      have e2 : (jd * 86400000000000 + t) % 86400000000000 = t := by omega
      unfold ofInstant
      rw [e1, e2, if_pos hjd]
    · rw [if_neg hlt, arithI64_ok (by omega) (by omega), ok_bind, if_pos (by omega), ok_bind, ok_pure,
        onDay_eq _ _ _ (by omega)]
      congr 2; omega

theorem tryFromSigned_ok {lo hi x : Int} (h1 : lo ≤ x) (h2 : x ≤ hi) : tryFromSigned lo hi x = .ok x :=
  if_pos ⟨h1, h2⟩

theorem checkedAddDuration_eq (dt : DateTime) (d : Duration) (hdt : DateTimeOk dt) (hd : d.WF) :
    dt.checkedAddDuration d = .ok (ofInstant (instant dt + nanos d)) := by
  obtain ⟨hi, ht⟩ := hdt
  rw [dayNanos_eq] at ht
  have hi' : -9223372036854775808 ≤ dt.days ∧ dt.days ≤ 9223372036854775807 := hi
  obtain ⟨n, r, hex, hr, _, hn, habs, hsign⟩ := extractI64_spec d hd 86400 (by omega)
  have hk : ((86400 : Nat) : Int) * 1000000000 = 86400000000000 := by decide
  rw [hk] at hn habs
  rw [abs_lt] at habs
  have hsgn : (d.isNegative = true → nanos r ≤ 0) ∧ (d.isNegative = false → 0 ≤ nanos r) := by
    rw [← hsign]
    unfold nanos
    constructor <;> intro hh <;> rw [hh] <;> simp <;> omega
  have hsgnd : (d.isNegative = true → nanos d ≤ 0) ∧ (d.isNegative = false → 0 ≤ nanos d) := by
    unfold nanos
    constructor <;> intro hh <;> rw [hh] <;> simp <;> omega
  have hasn : r.asNanos = .ok (nanos r) := (C04_as_seconds_millis_micros_nanos r hr).2.2.2
  unfold DateTime.checkedAddDuration Duration.extractDays
  rw [hex, ok_bind]
  simp only
  unfold JulianDay.checkedAddDays
  have hmin : I64_MIN = -9223372036854775808 := rfl
  have hmax : I64_MAX = 9223372036854775807 := rfl
  have hinst : instant dt = dt.days * 86400000000000 + dt.time := by unfold instant; rw [dayNanos_eq]
  by_cases hc : IsI64 (dt.days + n)
  · rw [show checkedI64 (dt.days + n) = some (dt.days + n) from if_pos hc]
    simp only
    rw [hasn, ok_bind, tryFromSigned_ok (by omega) (by omega), ok_bind, tryFromSigned_ok (by omega) (by omega),
      ok_bind, arithI64_ok (by omega) (by omega), ok_bind, normalize_eq _ _ (by omega) (by omega) hc]
    congr 2
    rw [hinst, hn]
    omega
  · rw [show checkedI64 (dt.days + n) = none from if_neg hc]
    simp only
    rw [ok_pure]
    congr 1
    have hc' : ¬ (-9223372036854775808 ≤ dt.days + n ∧ dt.days + n ≤ 9223372036854775807) := hc
    unfold ofInstant
    rw [if_neg]
    intro hq
    have hq' : -9223372036854775808 ≤ (instant dt + nanos d) / 86400000000000 ∧
      (instant dt + nanos d) / 86400000000000 ≤ 9223372036854775807 := hq
    rw [hinst, hn] at hq'
    rw [hn] at hsgnd
    cases hneg : d.isNegative with
    | true =>
      have s1 := hsgn.1 hneg
      have s2 := hsgnd.1 hneg
      omega
    | false =>
      have s1 := hsgn.2 hneg
      have s2 := hsgnd.2 hneg
      omega

/-- the signed difference -/
theorem durationOf_eq (x : Int) :
    (Representable x → ∃ d, DateTime.durationOf x = .ok (some d) ∧ d.WF ∧ nanos d = x ∧
      d.isNegative = decide (x < 0)) ∧
    (¬ Representable x → DateTime.durationOf x = .ok none) := by
  have hm : maxNanos = 18446744073709551615999999999 := by decide
  unfold Representable
  rw [hm]
  unfold DateTime.durationOf
  constructor
  · rintro ⟨h1, h2⟩
    have hq : x.natAbs / 1000000000 ≤ U64_MAX := by unfold U64_MAX; omega
    have hlt : x.natAbs % 1000000000 < 1000000000 := Nat.mod_lt _ (by decide)
    rw [if_pos hq]
    unfold tryFromUnsigned U32_MAX
    rw [if_pos (by omega), ok_bind, Int.toNat_natCast]
    unfold StdDuration.new
    rw [if_pos hlt]
    refine ⟨_, rfl, ⟨hq, hlt⟩, ?_, rfl⟩
    unfold nanos Duration.fromStd
    simp only
    by_cases hx : x < 0
    · rw [if_pos (by simp [hx])]; omega
    · rw [if_neg (by simp [hx])]; omega
  · intro h
    rw [if_neg (by unfold U64_MAX; omega)]

theorem durationSince_eq (a b : DateTime) (ha : DateTimeOk a) (hb : DateTimeOk b) :
    a.durationSince b = DateTime.durationOf (instant a - instant b) := by
  obtain ⟨ha1, ha2⟩ := ha
  obtain ⟨hb1, hb2⟩ := hb
  have ha' : -9223372036854775808 ≤ a.days ∧ a.days ≤ 9223372036854775807 := ha1
  have hb' : -9223372036854775808 ≤ b.days ∧ b.days ≤ 9223372036854775807 := hb1
  have hmin : I64_MIN = -9223372036854775808 := rfl
  have hmax : I64_MAX = 9223372036854775807 := rfl
  have hnd : NANOS_PER_DAY = 86400000000000 := rfl
  unfold instant
  rw [dayNanos_eq] at *
  unfold DateTime.durationSince JulianDay.checkedSubDays
  by_cases hc : -9223372036854775808 ≤ a.days - b.days ∧ a.days - b.days ≤ 9223372036854775807
  · rw [checkedI64_some hc.1 hc.2]
    simp only
    rw [tryFromSigned_ok (by omega) (by omega), ok_bind, tryFromSigned_ok (by omega) (by omega), ok_bind,
      checkedI64_some (by omega) (by omega)]
    simp only
    unfold DateTime.totalNanos DateTime.checkedI128
    rw [hnd, if_pos ((isI128_iff _).2 (by omega))]
    simp only [Option.bind_some]
    rw [if_pos ((isI128_iff _).2 (by omega))]
    simp only
    congr 1
    omega
  · rw [checkedI64_none (by omega)]
    simp only
    rw [(durationOf_eq _).2, ok_pure]
    unfold Representable
    have hm : maxNanos = 18446744073709551615999999999 := by decide
    rw [hm]
    omega

/-! ## Calendar arithmetic -/

/-- division towards zero by 12 -/
theorem tdiv12 (m : Int) : m = 12 * m.tdiv 12 + m.tmod 12 ∧ (0 ≤ m → 0 ≤ m.tmod 12 ∧ m.tmod 12 ≤ 11) ∧
    (m ≤ 0 → -11 ≤ m.tmod 12 ∧ m.tmod 12 ≤ 0) := by
  have h := Int.mul_tdiv_add_tmod m 12
  refine ⟨by omega, fun hm => ?_, fun hm => ?_⟩
  · have h1 := Int.tmod_nonneg 12 hm
    have h2 := Int.tmod_lt_of_pos m (b := 12) (by omega)
    omega
  · have h1 := Int.tmod_nonneg 12 (a := -m) (by omega)
    have h2 := Int.tmod_lt_of_pos (-m) (b := 12) (by omega)
    rw [Int.neg_tmod] at h1 h2
    omega

theorem divI64_ok (a : Int) (h1 : -9223372036854775808 ≤ a) (h2 : a ≤ 9223372036854775807) :
    divI64 a 12 = .ok (a.tdiv 12) ∧ remI64 a 12 = .ok (a.tmod 12) := by
  have ht := tdiv12 a
  unfold divI64 remI64
  refine ⟨?_, ?_⟩
  · rw [if_neg (by decide)]
    exact arithI64_ok (by omega) (by omega)
  · rw [if_neg (by decide), if_neg (by omega)]

/-- the year and the (0-based) month after moving by `y` years and `m` months from month `M` -/
theorem carryMonth_eq (y m : Int) (M : Nat) (hM1 : 1 ≤ M) (hM2 : M ≤ 12)
    (hm1 : -9223372036854775808 ≤ m) (hm2 : m ≤ 9223372036854775807)
    (k : Int) (hk : k = m.tmod 12 + M - 1) :
    DateTime.carryMonth y m M =
      .ok (if k < 0 then (checkedI64 (y - 1)).map (fun y => ((k + 12).toNat, y))
        else if k < 12 then some (k.toNat, y)
        else (checkedI64 (y + 1)).map (fun y => ((k - 12).toNat, y))) := by
  have ht := tdiv12 m
  have hkb : -12 ≤ k ∧ k ≤ 22 := by omega
  unfold DateTime.carryMonth
  rw [(divI64_ok m hm1 hm2).2, ok_bind, tryFromSigned_ok (by omega) (by omega), ok_bind,
    tryFromSigned_ok (by omega) (by omega), ok_bind]
  simp only
  rw [← hk]
  unfold tryFromUnsigned
  by_cases h1 : k < 0
  · rw [if_pos h1, if_pos h1, if_pos (by omega), ok_bind, ok_pure]
  · rw [if_neg h1, if_neg h1]
    by_cases h2 : k < 12
    · rw [if_pos h2, if_pos h2, if_pos (by omega), ok_bind, ok_pure]
    · rw [if_neg h2, if_neg h2, if_pos (by omega), ok_bind, ok_pure]

/-- moving within the calendar: `Y'`, `M'` are the year and month of the shifted month -/
theorem checkedAddGregorian_eq (dt : DateTime) (hdt : DateTimeOk dt) (Y : Int) (M D : Nat)
    (hg : JulianDay.toGregorian dt.days = .ok (some (Y, M, D))) (y m d : Int)
    (hy : IsI64 y) (hm : IsI64 m) (_hd : IsI64 d) (k : Int) (hk : k = 12 * Y + (M - 1) + 12 * y + m) :
    dt.checkedAddGregorian y m d =
      .ok (if IsI64 (dayNumber (k / 12) ((k % 12).toNat + 1) D) ∧
            IsI64 (dayNumber (k / 12) ((k % 12).toNat + 1) D + d) then
          some ⟨dayNumber (k / 12) ((k % 12).toNat + 1) D + d, dt.time⟩ else none) := by
  have hy' : -9223372036854775808 ≤ y ∧ y ≤ 9223372036854775807 := hy
  have hm' : -9223372036854775808 ≤ m ∧ m ≤ 9223372036854775807 := hm
  obtain ⟨hv, hdn, _⟩ := C45_to_gregorian _ _ _ _ hg
  have hi : IsI64 (dayNumber Y M D) := by rw [hdn]; exact hdt.1
  have h31 := (monthDays_le Y M).2
  have hYb : -26000000000000000 ≤ Y ∧ Y ≤ 26000000000000000 := by
    have hb := marchDays_bound M
    have hi' : -9223372036854775808 ≤ dayNumber Y M D ∧ dayNumber Y M D ≤ 9223372036854775807 := hi
    obtain ⟨v1, v2, v3, v4⟩ := hv
    rw [dayNumber_eq Y M D v1 v2] at hi'
    by_cases h3 : M < 3
    · rw [if_pos h3] at hi'; omega
    · rw [if_neg h3] at hi'; omega
  obtain ⟨v1, v2, v3, v4⟩ := hv
  obtain ⟨j, hj⟩ : ∃ j, j = m.tmod 12 + M - 1 := ⟨_, rfl⟩
  have ht := tdiv12 m
  have hjb : -12 ≤ j ∧ j ≤ 22 := by omega
  obtain ⟨Y', hY'⟩ : ∃ Y', Y' = k / 12 := ⟨_, rfl⟩
  obtain ⟨M', hM'⟩ : ∃ M', M' = (k % 12).toNat := ⟨_, rfl⟩
  have hM'b : M' < 12 := by omega
  rw [← hY', ← hM']
  -- what is left to show if the year is not an `i64`, or far out
  have hbig : ¬ (-30000000000000000 ≤ Y' ∧ Y' ≤ 30000000000000000) → ¬ IsI64 (dayNumber Y' (M' + 1) D) := by
    intro h hc
    have hb := marchDays_bound (M' + 1)
    have hc' : -9223372036854775808 ≤ dayNumber Y' (M' + 1) D ∧
      dayNumber Y' (M' + 1) D ≤ 9223372036854775807 := hc
    rw [dayNumber_eq _ _ _ (by omega) (by omega)] at hc'
    by_cases h3 : M' + 1 < 3
    · rw [if_pos h3] at hc'; omega
    · rw [if_neg h3] at hc'; omega
  have hnone : ¬ (-30000000000000000 ≤ Y' ∧ Y' ≤ 30000000000000000) →
      (if IsI64 (dayNumber Y' (M' + 1) D) ∧ IsI64 (dayNumber Y' (M' + 1) D + d) then
          some (⟨dayNumber Y' (M' + 1) D + d, dt.time⟩ : DateTime) else none) = none := by
    intro h
    rw [if_neg (fun hc => hbig h hc.1)]
  have hmain : ∀ ys : Int, Y + ys = Y' → dt.addYears Y ys M' D d =
      .ok (if IsI64 (dayNumber Y' (M' + 1) D) ∧ IsI64 (dayNumber Y' (M' + 1) D + d) then
          some ⟨dayNumber Y' (M' + 1) D + d, dt.time⟩ else none) := by
    intro ys hys
    unfold DateTime.addYears
    rw [hys]
    by_cases hc : -9223372036854775808 ≤ Y' ∧ Y' ≤ 9223372036854775807
    · rw [checkedI64_some hc.1 hc.2]
      simp only
      unfold DateTime.inMonth
      rw [tryFromGregorian_eq Y' (M' + 1) D hc (by omega) (by omega) v3 (by omega), ok_bind]
      by_cases hq : IsI64 (dayNumber Y' (M' + 1) D)
      · rw [show checkedI64 (dayNumber Y' (M' + 1) D) = some _ from if_pos hq]
        simp only
        rw [ok_pure]
        unfold DateTime.onDay JulianDay.checkedAddDays
        by_cases hq2 : IsI64 (dayNumber Y' (M' + 1) D + d)
        · rw [show checkedI64 (dayNumber Y' (M' + 1) D + d) = some _ from if_pos hq2, if_pos ⟨hq, hq2⟩]
        · rw [show checkedI64 (dayNumber Y' (M' + 1) D + d) = none from if_neg hq2,
            if_neg (fun h => hq2 h.2)]
      · rw [show checkedI64 (dayNumber Y' (M' + 1) D) = none from if_neg hq, if_neg (fun h => hq h.1)]
        rfl
    · rw [checkedI64_none (by omega), hnone (by omega)]
  unfold DateTime.checkedAddGregorian
  rw [hg, ok_bind]
  simp only
  unfold DateTime.addMonths
  rw [(divI64_ok m hm'.1 hm'.2).1, ok_bind]
  have hsum : m = 12 * m.tdiv 12 + m.tmod 12 := by omega
  by_cases hc : -9223372036854775808 ≤ y + m.tdiv 12 ∧ y + m.tdiv 12 ≤ 9223372036854775807
  · rw [checkedI64_some hc.1 hc.2]
    simp only
    rw [carryMonth_eq _ m M v1 v2 hm'.1 hm'.2 j hj, ok_bind]
    by_cases h1 : j < 0
    · rw [if_pos h1]
      by_cases hc2 : -9223372036854775808 ≤ y + m.tdiv 12 - 1
      · rw [checkedI64_some hc2 (by omega)]
        simp only [Option.map_some]
        rw [show (j + 12).toNat = M' by omega]
        exact hmain _ (by omega)
      · rw [checkedI64_none (by omega), hnone (by omega)]
        rfl
    · rw [if_neg h1]
      by_cases h2 : j < 12
      · rw [if_pos h2]
        simp only
        rw [show j.toNat = M' by omega]
        exact hmain _ (by omega)
      · rw [if_neg h2]
        by_cases hc2 : y + m.tdiv 12 + 1 ≤ 9223372036854775807
        · rw [checkedI64_some (by omega) hc2]
          simp only [Option.map_some]
          rw [show (j - 12).toNat = M' by omega]
          exact hmain _ (by omega)
        · rw [checkedI64_none (by omega), hnone (by omega)]
          rfl
  · rw [checkedI64_none (by omega), hnone (by omega)]
    rfl

end Fundu
