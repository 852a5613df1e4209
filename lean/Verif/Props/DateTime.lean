import Verif.Proofs.DateTime
/-!
# Properties C47-C50, C53, C54: `DateTime`

`instant dt` (Spec/Calendar.lean) is the number of nanoseconds from the start of Julian day 0 to `dt`.
-/
namespace Fundu.Props
open Fundu Fundu.Spec

theorem instant_injective {a b : DateTime} (ha : DateTimeOk a) (hb : DateTimeOk b)
    (h : instant a = instant b) : a = b := by
  have h1 := (ofInstant_iff (instant b) a).2 ⟨ha, h⟩
  have h2 := (ofInstant_iff (instant b) b).2 ⟨hb, rfl⟩
  rw [h1] at h2
  exact Option.some.inj h2

/-! ## C47 -/

/-- C47: `checked_add_duration` moves the instant by exactly the duration; it is `None` only if there is no
such `DateTime` (the day is not an `i64`). -/
theorem C47_checked_add_duration (dt : DateTime) (d : Duration) (hdt : DateTimeOk dt) (hd : d.WF) :
    ∃ r, dt.checkedAddDuration d = .ok r ∧
      ∀ dt', r = some dt' ↔ DateTimeOk dt' ∧ instant dt' = instant dt + nanos d :=
  ⟨_, checkedAddDuration_eq dt d hdt hd, fun dt' => ofInstant_iff _ dt'⟩

/-- C47: `None` exactly if the day of the exact result leaves `i64`. -/
theorem C47_add_none (dt : DateTime) (d : Duration) (hdt : DateTimeOk dt) (hd : d.WF) :
    dt.checkedAddDuration d = .ok none ↔ ¬ IsI64 ((instant dt + nanos d) / dayNanos) := by
  rw [checkedAddDuration_eq dt d hdt hd, dayNanos_eq]
  unfold ofInstant
  by_cases h : IsI64 ((instant dt + nanos d) / 86400000000000)
  · rw [if_pos h]; simp [h]
  · rw [if_neg h]; simp [h]

/-- C47: the same for `checked_sub_duration`. -/
theorem C47_checked_sub_duration (dt : DateTime) (d : Duration) (hdt : DateTimeOk dt) (hd : d.WF) :
    ∃ r, dt.checkedSubDuration d = .ok r ∧
      ∀ dt', r = some dt' ↔ DateTimeOk dt' ∧ instant dt' = instant dt - nanos d := by
  unfold DateTime.checkedSubDuration
  refine ⟨_, checkedAddDuration_eq dt d.neg hdt (neg_wf d hd), fun dt' => ?_⟩
  rw [ofInstant_iff, nanos_neg, ← Int.sub_eq_add_neg]

/-- C47: `duration_since` is the exact signed difference if a duration can represent it, else `None`. -/
theorem C47_duration_since (a b : DateTime) (ha : DateTimeOk a) (hb : DateTimeOk b) :
    (Representable (instant a - instant b) →
      ∃ d, a.durationSince b = .ok (some d) ∧ d.WF ∧ nanos d = instant a - instant b ∧
        d.isNegative = decide (instant a < instant b)) ∧
    (¬ Representable (instant a - instant b) → a.durationSince b = .ok none) := by
  rw [durationSince_eq a b ha hb]
  refine ⟨fun h => ?_, fun h => (durationOf_eq _).2 h⟩
  obtain ⟨d, e1, e2, e3, e4⟩ := (durationOf_eq _).1 h
  refine ⟨d, e1, e2, e3, ?_⟩
  rw [e4]
  apply decide_eq_decide.2
  omega

/-- C47: adding the difference leads from one to the other. -/
theorem C47_inverse (a b : DateTime) (ha : DateTimeOk a) (hb : DateTimeOk b) (d : Duration)
    (h : b.durationSince a = .ok (some d)) : a.checkedAddDuration d = .ok (some b) := by
  obtain ⟨h1, h2⟩ := C47_duration_since b a hb ha
  have hr : Representable (instant b - instant a) := by
    apply Classical.byContradiction
    intro hc
    rw [h2 hc] at h; cases h
  obtain ⟨d', e1, e2, e3, _⟩ := h1 hr
  rw [e1] at h
  cases h
  rw [checkedAddDuration_eq a d ha e2, e3]
  congr 1
  rw [ofInstant_iff]
  exact ⟨hb, by omega⟩

/-- one nanosecond before the epoch, and back again -/
example : DateTimeOk DateTime.UNIX_EPOCH ∧
    (DateTime.UNIX_EPOCH.checkedSubDuration ⟨false, ⟨0, 1⟩⟩).toOption =
      some (some ⟨2440587, 86399999999999⟩) ∧
    ((⟨2440587, 86399999999999⟩ : DateTime).durationSince DateTime.UNIX_EPOCH).toOption =
      some (some ⟨true, ⟨0, 1⟩⟩) ∧
    ((⟨9223372036854775807, 1⟩ : DateTime).checkedAddDuration ⟨false, ⟨86399, 999999999⟩⟩).toOption =
      some none := by
  decide +kernel

/-! ## C48 -/

/-- the `DateTime`s which can be obtained with the methods of the public API -/
inductive Reachable : DateTime → Prop
  | epoch : Reachable DateTime.UNIX_EPOCH
  | fromGregorian (y : Int) (m d h mi s n : Nat) (dt : DateTime) : IsI64 y →
      DateTime.fromGregorianDateTime y m d h mi s n = .ok dt → Reachable dt
  | now (before : Bool) (distance : StdDuration) (dt : DateTime) : distance.WF →
      DateTime.nowUtcWithSystemTime before distance = .ok dt → Reachable dt
  | ofTime (c : DateTime.Civil) (dt : DateTime) : IsI64 c.year → DateTime.ofTime c = .ok dt → Reachable dt
  | ofChrono (c : DateTime.Civil) (dt : DateTime) : IsI64 c.year → DateTime.ofChrono c = .ok dt → Reachable dt
  | add (dt : DateTime) (d : Duration) (dt' : DateTime) : Reachable dt → d.WF →
      dt.checkedAddDuration d = .ok (some dt') → Reachable dt'
  | sub (dt : DateTime) (d : Duration) (dt' : DateTime) : Reachable dt → d.WF →
      dt.checkedSubDuration d = .ok (some dt') → Reachable dt'
  | gregorian (dt : DateTime) (y m d : Int) (dt' : DateTime) : Reachable dt → IsI64 y → IsI64 m → IsI64 d →
      dt.checkedAddGregorian y m d = .ok (some dt') → Reachable dt'

theorem validateMax_ok {x hi : Nat} (h : validateMax x hi = .ok ()) : x ≤ hi := by
  unfold validateMax at h
  split at h
  · cases h
  · omega

theorem validateMax_of {x hi : Nat} (h : x ≤ hi) : validateMax x hi = .ok () := by
  unfold validateMax; rw [if_neg (by omega)]

theorem validateMax_error {x hi : Nat} (h : hi < x) : validateMax x hi = .error .assert := by
  unfold validateMax; rw [if_pos h]

theorem fromGregorianDateTime_valid (y : Int) (m d h mi s n : Nat) (ht : ValidTime h mi s n) :
    DateTime.fromGregorianDateTime y m d h mi s n =
      (JulianDay.fromGregorian y m d).map (fun jd => ⟨jd, DateTime.timeOf h mi s n⟩) := by
  obtain ⟨h1, h2, h3, h4⟩ := ht
  unfold DateTime.fromGregorianDateTime
  rw [validateMax_of (by omega), ok_bind, validateMax_of (by omega), ok_bind, validateMax_of (by omega),
    ok_bind, validateMax_of (by omega), ok_bind]
  cases JulianDay.fromGregorian y m d <;> rfl

theorem fromGregorianDateTime_invalid (y : Int) (m d h mi s n : Nat) (ht : ¬ ValidTime h mi s n) :
    DateTime.fromGregorianDateTime y m d h mi s n = .error .assert := by
  unfold ValidTime at ht
  unfold DateTime.fromGregorianDateTime
  by_cases h1 : h ≤ 23
  · rw [validateMax_of h1, ok_bind]
    by_cases h2 : mi ≤ 59
    · rw [validateMax_of h2, ok_bind]
      by_cases h3 : s ≤ 59
      · rw [validateMax_of h3, ok_bind, validateMax_error (by omega)]; rfl
      · rw [validateMax_error (by omega)]; rfl
    · rw [validateMax_error (by omega)]; rfl
  · rw [validateMax_error (by omega)]; rfl

theorem fromGregorian_ok {y : Int} {m d : Nat} {jd : Int} (hy : IsI64 y)
    (h : JulianDay.fromGregorian y m d = .ok jd) :
    1 ≤ m ∧ m ≤ 12 ∧ 1 ≤ d ∧ d ≤ 31 ∧ jd = dayNumber y m d ∧ IsI64 jd := by
  by_cases hb : m < 1 ∨ 12 < m ∨ d < 1 ∨ 31 < d
  · unfold JulianDay.fromGregorian at h
    rw [C44_panics y m d hb] at h; cases h
  · have hb' : 1 ≤ m ∧ m ≤ 12 ∧ 1 ≤ d ∧ d ≤ 31 := by omega
    obtain ⟨e1, e2⟩ := C44_from_gregorian y m d hy hb'.1 hb'.2.1 hb'.2.2.1 hb'.2.2.2
    by_cases hi : IsI64 (dayNumber y m d)
    · rw [e1 hi] at h
      cases h
      exact ⟨hb'.1, hb'.2.1, hb'.2.2.1, hb'.2.2.2, rfl, hi⟩
    · rw [e2 hi] at h; cases h

theorem timeOf_lt {h m s n : Nat} (ht : ValidTime h m s n) :
    (DateTime.timeOf h m s n : Int) < 86400000000000 := by
  obtain ⟨h1, h2, h3, h4⟩ := ht
  unfold DateTime.timeOf
  omega

theorem fromGregorianDateTime_ok {y : Int} {m d h mi s n : Nat} {dt : DateTime} (hy : IsI64 y)
    (he : DateTime.fromGregorianDateTime y m d h mi s n = .ok dt) : DateTimeOk dt := by
  by_cases ht : ValidTime h mi s n
  · rw [fromGregorianDateTime_valid y m d h mi s n ht] at he
    cases hj : JulianDay.fromGregorian y m d with
    | error p => rw [hj] at he; cases he
    | ok jd =>
      rw [hj] at he
      cases he
      refine ⟨(fromGregorian_ok hy hj).2.2.2.2.2, ?_⟩
      rw [dayNanos_eq]
      exact timeOf_lt ht
  · rw [fromGregorianDateTime_invalid y m d h mi s n ht] at he; cases he

theorem epoch_ok : DateTimeOk DateTime.UNIX_EPOCH := by decide

theorem ofChrono_eq (c : DateTime.Civil) {dt : DateTime} (h : DateTime.ofChrono c = .ok dt) :
    DateTime.ofTime c = .ok dt := by
  unfold DateTime.ofChrono tryFromUnsigned at h
  by_cases h1 : c.month ≤ 255
  · rw [if_pos (by omega), ok_bind] at h
    by_cases h2 : c.day ≤ 255
    · rw [if_pos (by omega), ok_bind] at h
      by_cases h3 : c.hour ≤ 255
      · rw [if_pos (by omega), ok_bind] at h
        by_cases h4 : c.minute ≤ 255
        · rw [if_pos (by omega), ok_bind] at h
          by_cases h5 : c.second ≤ 255
          · rw [if_pos (by omega), ok_bind] at h
            exact h
          · rw [if_neg (by omega)] at h; cases h
        · rw [if_neg (by omega)] at h; cases h
      · rw [if_neg (by omega)] at h; cases h
    · rw [if_neg (by omega)] at h; cases h
  · rw [if_neg (by omega)] at h; cases h

theorem toGregorian_cases (jd : Int) :
    (∃ y m d, JulianDay.toGregorian jd = .ok (some (y, m, d))) ∨ JulianDay.toGregorian jd = .ok none ∨
    (jd = -92233720366826639 ∧ ∃ p, JulianDay.toGregorian jd = .error p) := by
  cases h : JulianDay.toGregorian jd with
  | error p => exact .inr (.inr ⟨(C46_to_gregorian jd).2.1 ⟨p, h⟩, p, rfl⟩)
  | ok r =>
    cases r with
    | none => exact .inr (.inl rfl)
    | some d => obtain ⟨y, m, d⟩ := d; exact .inl ⟨y, m, d, rfl⟩

theorem gregorian_ok {dt dt' : DateTime} (hdt : DateTimeOk dt) {y m d : Int} (hy : IsI64 y) (hm : IsI64 m)
    (hd : IsI64 d) (h : dt.checkedAddGregorian y m d = .ok (some dt')) : DateTimeOk dt' := by
  rcases toGregorian_cases dt.days with ⟨Y, M, D, hg⟩ | hg | ⟨_, p, hg⟩
  · rw [checkedAddGregorian_eq dt hdt Y M D hg y m d hy hm hd _ rfl] at h
    split at h
    · rename_i hc
      cases h
      exact ⟨hc.2, hdt.2⟩
    · cases h
  · unfold DateTime.checkedAddGregorian at h
    rw [hg] at h; cases h
  · unfold DateTime.checkedAddGregorian at h
    rw [hg] at h; cases h

/-- C48: every `DateTime` obtainable through the API has a time of day below 24 hours (and a day of type
`i64`). -/
theorem C48_reachable (dt : DateTime) (h : Reachable dt) : DateTimeOk dt := by
  induction h with
  | epoch => exact epoch_ok
  | fromGregorian y m d h mi s n dt hy he => exact fromGregorianDateTime_ok hy he
  | now before distance dt hw he =>
    unfold DateTime.nowUtcWithSystemTime at he
    have key : ∀ d : Duration, d.WF →
        (do unwrap (← DateTime.UNIX_EPOCH.checkedAddDuration d)) = Except.ok dt → DateTimeOk dt := by
      intro d hd he
      obtain ⟨r, e1, e2⟩ := C47_checked_add_duration DateTime.UNIX_EPOCH d epoch_ok hd
      rw [e1, ok_bind] at he
      cases r with
      | none => cases he
      | some x => cases he; exact ((e2 dt).1 rfl).1
    cases before with
    | true => exact key _ (show (Duration.fromStd true distance).WF from hw) he
    | false => exact key _ (show (Duration.ofStd distance).WF from hw) he
  | ofTime c dt hy he => exact fromGregorianDateTime_ok hy he
  | ofChrono c dt hy he => exact fromGregorianDateTime_ok hy (ofChrono_eq c he)
  | add dt d dt' _ hd he ih =>
    obtain ⟨r, e1, e2⟩ := C47_checked_add_duration dt d ih hd
    rw [e1] at he
    cases he
    exact ((e2 dt').1 rfl).1
  | sub dt d dt' _ hd he ih =>
    obtain ⟨r, e1, e2⟩ := C47_checked_sub_duration dt d ih hd
    rw [e1] at he
    cases he
    exact ((e2 dt').1 rfl).1
  | gregorian dt y m d dt' _ hy hm hd he ih => exact gregorian_ok ih hy hm hd he

/-- C48: so the time of day is a time of day, and is not changed by `as u8`, `as u32`. -/
theorem C48_as_hmsn (dt : DateTime) (h : DateTimeOk dt) :
    ∃ hour minute second nano, dt.asHmsn = (hour, minute, second, nano) ∧
      ValidTime hour minute second nano ∧
      (dt.time : Int) = ((hour * 60 + minute) * 60 + second) * 10 ^ 9 + nano := by
  obtain ⟨_, h2⟩ := h
  rw [dayNanos_eq] at h2
  unfold DateTime.asHmsn ValidTime
  refine ⟨_, _, _, _, rfl, ⟨?_, ?_, ?_, ?_⟩, ?_⟩
  · omega
  · omega
  · omega
  · omega
  · rw [show ((10 : Int) ^ 9) = 1000000000 by decide]
    have a1 := Nat.div_add_mod dt.time 1000000000
    have a2 := Nat.mod_lt dt.time (y := 1000000000) (by decide)
    generalize dt.time / 1000000000 = q at *
    generalize dt.time % 1000000000 = r at *
    have b1 := Nat.div_add_mod q 3600
    have b2 := Nat.mod_lt q (y := 3600) (by decide)
    generalize q / 3600 = q2 at *
    generalize q % 3600 = r2 at *
    omega

/-- C48: none of the operations panics on such a value, except for the calendar operations on one single day
(see C46). -/
theorem C48_no_panic (a b : DateTime) (d : Duration) (ha : DateTimeOk a) (hb : DateTimeOk b) (hd : d.WF)
    (y m n : Int) (hy : IsI64 y) (hm : IsI64 m) (hn : IsI64 n) :
    (∃ r, a.checkedAddDuration d = .ok r) ∧ (∃ r, a.checkedSubDuration d = .ok r) ∧
    (∃ r, a.durationSince b = .ok r) ∧
    (a.days ≠ -92233720366826639 →
      (∃ r, a.checkedAddGregorian y m n = .ok r) ∧ (∃ r, a.toGregorianDate = .ok r) ∧
      (∃ r, a.toGregorianDateTime = .ok r)) := by
  refine ⟨?_, ?_, ?_, fun hne => ?_⟩
  · obtain ⟨r, h, _⟩ := C47_checked_add_duration a d ha hd; exact ⟨r, h⟩
  · obtain ⟨r, h, _⟩ := C47_checked_sub_duration a d ha hd; exact ⟨r, h⟩
  · obtain ⟨h1, h2⟩ := C47_duration_since a b ha hb
    by_cases h : Representable (instant a - instant b)
    · obtain ⟨r, h, _⟩ := h1 h; exact ⟨_, h⟩
    · exact ⟨_, h2 h⟩
  · unfold DateTime.toGregorianDate DateTime.toGregorianDateTime
    rcases toGregorian_cases a.days with ⟨Y, M, D, hg⟩ | hg | ⟨hp, _⟩
    · rw [checkedAddGregorian_eq a ha Y M D hg y m n hy hm hn _ rfl, hg]
      exact ⟨⟨_, rfl⟩, ⟨_, rfl⟩, ⟨_, rfl⟩⟩
    · unfold DateTime.checkedAddGregorian
      rw [hg]
      exact ⟨⟨_, rfl⟩, ⟨_, rfl⟩, ⟨_, rfl⟩⟩
    · exact absurd hp hne

example : ∃ dt, Reachable dt ∧ dt.asHmsn = (23, 59, 59, 999999999) :=
  ⟨⟨2440587, 86399999999999⟩,
    .sub DateTime.UNIX_EPOCH ⟨false, ⟨0, 1⟩⟩ _ .epoch (by decide) (by rfl), by decide⟩

/-! ## C49 -/

/-- C49: let `Y-M-D` be the date of `dt`. `checked_add_gregorian(y, m, d)` shifts the month `12 * Y + M` by `12 *
y + m`, takes the day with number `D` counted from the start of this month (so days beyond its end are
carried into the following month) and then goes `d` days further; the time of day is kept. `None`
only if one of the two day numbers is not an `i64`. -/
theorem C49_checked_add_gregorian (dt : DateTime) (hdt : DateTimeOk dt) (Y : Int) (M D : Nat)
    (hg : dt.toGregorianDate = .ok (some (Y, M, D))) (y m d : Int)
    (hy : IsI64 y) (hm : IsI64 m) (hd : IsI64 d) (Y' : Int) (M' : Nat) (h1 : 1 ≤ M') (h2 : M' ≤ 12)
    (hs : 12 * Y' + M' = (12 * Y + M) + (12 * y + m)) :
    (IsI64 (dayNumber Y' M' D) ∧ IsI64 (dayNumber Y' M' D + d) →
      dt.checkedAddGregorian y m d = .ok (some ⟨dayNumber Y' M' D + d, dt.time⟩)) ∧
    (¬ (IsI64 (dayNumber Y' M' D) ∧ IsI64 (dayNumber Y' M' D + d)) →
      dt.checkedAddGregorian y m d = .ok none) := by
  have e := checkedAddGregorian_eq dt hdt Y M D hg y m d hy hm hd _ rfl
  have e1 : (12 * Y + ((M : Int) - 1) + 12 * y + m) / 12 = Y' := by omega
  have e2 : ((12 * Y + ((M : Int) - 1) + 12 * y + m) % 12).toNat + 1 = M' := by omega
  rw [e1, e2] at e
  rw [e]
  exact ⟨fun h => by rw [if_pos h], fun h => by rw [if_neg h]⟩

theorem daysOfMonths_same (y : Int) (m d : Nat) :
    dayNumber y m d = dayNumber y m 1 + ((d : Int) - 1) := by
  unfold dayNumber; omega

theorem monthDays_pos (y : Int) (m : Nat) (h1 : 1 ≤ m) (h2 : m ≤ 12) : 1 ≤ monthDays y m := by
  refine Nat.le_trans ?_ (monthDays_le y m).1
  revert h1 h2
  have : ∀ k : Fin 13, 1 ≤ k.val → 1 ≤ monthDays 1 k.val := by decide
  intro h1 h2
  exact this ⟨m, by omega⟩ h1

/-- C49: a day beyond the end of the month is carried into the following month. -/
theorem C49_carry (y : Int) (m d : Nat) (h1 : 1 ≤ m) (h2 : m ≤ 12) (hd : monthDays y m < d)
    (hd2 : d ≤ 31) :
    (m < 12 → dayNumber y m d = dayNumber y (m + 1) (d - monthDays y m)) ∧
    (m = 12 → dayNumber y m d = dayNumber (y + 1) 1 (d - 31)) := by
  have hl : ValidDate y m (monthDays y m) := ⟨h1, h2, monthDays_pos y m h1 h2, Nat.le_refl _⟩
  have hn := dayNumber_next y m (monthDays y m) hl
  unfold nextDay at hn
  rw [if_neg (by omega)] at hn
  rw [daysOfMonths_same y m d]
  rw [daysOfMonths_same y m (monthDays y m)] at hn
  constructor
  · intro h
    rw [if_pos h] at hn
    rw [daysOfMonths_same y (m + 1) _]
    have hn' : dayNumber y (m + 1) 1 = dayNumber y m 1 + ((monthDays y m : Int) - 1) + 1 := hn
    omega
  · intro h
    subst h
    simp [monthDays] at hd
    omega

/-- C49: nothing added, nothing changed. -/
theorem C49_identity (dt : DateTime) (hdt : DateTimeOk dt) (date : Int × Nat × Nat)
    (hg : dt.toGregorianDate = .ok (some date)) : dt.checkedAddGregorian 0 0 0 = .ok (some dt) := by
  obtain ⟨Y, M, D⟩ := date
  obtain ⟨hv, hn, _⟩ := C45_to_gregorian _ _ _ _ hg
  have h := (C49_checked_add_gregorian dt hdt Y M D hg 0 0 0 (by decide) (by decide) (by decide) Y M hv.1
    hv.2.1 (by omega)).1 (by rw [hn, Int.add_zero]; exact ⟨hdt.1, hdt.1⟩)
  rw [h, hn, Int.add_zero]

/-- C49: 12 months are a year. -/
theorem C49_months_years (dt : DateTime) (hdt : DateTimeOk dt) (y m d k : Int)
    (hy : IsI64 y) (hm : IsI64 m) (hd : IsI64 d) (hy' : IsI64 (y + k)) (hm' : IsI64 (m - 12 * k)) :
    dt.checkedAddGregorian (y + k) (m - 12 * k) d = dt.checkedAddGregorian y m d := by
  rcases toGregorian_cases dt.days with ⟨Y, M, D, hg⟩ | hg | ⟨_, p, hg⟩
  · rw [checkedAddGregorian_eq dt hdt Y M D hg y m d hy hm hd _ rfl,
      checkedAddGregorian_eq dt hdt Y M D hg _ _ d hy' hm' hd (12 * Y + (M - 1) + 12 * y + m) (by omega)]
  · unfold DateTime.checkedAddGregorian; rw [hg]; rfl
  · unfold DateTime.checkedAddGregorian; rw [hg]; rfl

/-- 2000-01-31 plus one month is 2000-03-02, plus -11 months is 1999-03-03; plus one year and 29 days -/
example :
    ((⟨2451575, 5⟩ : DateTime).toGregorianDate).toOption = some (some (2000, 1, 31)) ∧
    ((⟨2451575, 5⟩ : DateTime).checkedAddGregorian 0 1 0).toOption = some (some ⟨2451606, 5⟩) ∧
    ((⟨2451606, 5⟩ : DateTime).toGregorianDate).toOption = some (some (2000, 3, 2)) ∧
    ((⟨2451575, 5⟩ : DateTime).checkedAddGregorian 0 (-11) 0).toOption = some (some ⟨2451241, 5⟩) ∧
    ((⟨2451241, 5⟩ : DateTime).toGregorianDate).toOption = some (some (1999, 3, 3)) ∧
    ((⟨2451575, 5⟩ : DateTime).checkedAddGregorian 9223372036854775807 0 0).toOption = some none := by
  decide +kernel

/-! ## C50 -/

theorem asHmsn_timeOf (h mi s n : Nat) (t1 : h < 24) (t2 : mi < 60) (t3 : s < 60) (t4 : n < 1000000000) :
    (((h * 3600 + mi * 60 + s) * 1000000000 + n) / 1000000000 / 3600 % 256,
      ((h * 3600 + mi * 60 + s) * 1000000000 + n) / 1000000000 % 3600 / 60 % 256,
      ((h * 3600 + mi * 60 + s) * 1000000000 + n) / 1000000000 % 3600 % 60 % 256,
      ((h * 3600 + mi * 60 + s) * 1000000000 + n) % 1000000000 % 4294967296) = (h, mi, s, n) := by
  have a0 : ∀ t, (t * 1000000000 + n) / 1000000000 = t ∧ (t * 1000000000 + n) % 1000000000 = n := by
    intro t
    rw [Nat.mul_comm]
    exact ⟨by omega, by omega⟩
  have a3 : (h * 3600 + mi * 60 + s) / 3600 = h := by omega
  have a4 : (h * 3600 + mi * 60 + s) % 3600 = mi * 60 + s := by omega
  rw [(a0 _).1, (a0 _).2, a3, a4]
  have b1 : h % 256 = h := by omega
  have b2 : (mi * 60 + s) / 60 % 256 = mi := by omega
  have b3 : (mi * 60 + s) % 60 % 256 = s := by omega
  have b4 : n % 4294967296 = n := by omega
  rw [b1, b2, b3, b4]

/-- C50: every valid date and time (with a day in the range of `to_gregorian`, see `C45_range`) is given back
by `to_gregorian_date_time`. -/
theorem C50_round_trip (y : Int) (m d h mi s n : Nat) (hd : ValidDate y m d) (ht : ValidTime h mi s n)
    (h1 : -92231826450597304 ≤ dayNumber y m d) (h2 : dayNumber y m d ≤ 92231826454039543) :
    ∃ dt, DateTime.fromGregorianDateTime y m d h mi s n = .ok dt ∧
      dt.toGregorianDateTime = .ok (some ((y, m, d), h, mi, s, n)) := by
  have hi : IsI64 (dayNumber y m d) :=
    ⟨by show -9223372036854775808 ≤ _; omega, by show _ ≤ 9223372036854775807; omega⟩
  have hyb := year_isI64 hd hi
  have hy : IsI64 y :=
    ⟨by show -9223372036854775808 ≤ _; omega, by show _ ≤ 9223372036854775807; omega⟩
  have h31 := (monthDays_le y m).2
  obtain ⟨v1, v2, v3, v4⟩ := hd
  have e := (C44_from_gregorian y m d hy v1 v2 v3 (by omega)).1 hi
  have e' := (C44_try_from_gregorian y m d hy v1 v2 v3 (by omega)).1 hi
  refine ⟨⟨dayNumber y m d, DateTime.timeOf h mi s n⟩, ?_, ?_⟩
  · rw [fromGregorianDateTime_valid y m d h mi s n ht, e]; rfl
  · unfold DateTime.toGregorianDateTime
    rw [show JulianDay.toGregorian (dayNumber y m d) = _ from
      C45_inverse y m d hy ⟨v1, v2, v3, v4⟩ _ e' h1 h2, ok_bind]
    simp only
    obtain ⟨t1, t2, t3, t4⟩ := ht
    have : (⟨dayNumber y m d, DateTime.timeOf h mi s n⟩ : DateTime).asHmsn = (h, mi, s, n) := by
      unfold DateTime.asHmsn DateTime.timeOf
      exact asHmsn_timeOf h mi s n t1 t2 t3 t4
    rw [this]
    rfl

/-- the epoch is 1970-01-01 00:00:00 -/
theorem unix_epoch_eq : DateTime.fromGregorianDateTime 1970 1 1 0 0 0 0 = .ok DateTime.UNIX_EPOCH := by
  rfl

example : ValidDate (-4712) 2 29 ∧ ValidTime 23 59 59 999999999 ∧
    (DateTime.fromGregorianDateTime (-4712) 2 29 23 59 59 999999999).toOption =
      some ⟨97, 86399999999999⟩ := by decide +kernel

/-! ## C53 -/

/-- the nanoseconds since the start of day 0 of a date and time of another crate -/
def civilInstant (c : DateTime.Civil) : Int :=
  dayNumber c.year c.month c.day * (24 * 60 * 60 * 10 ^ 9) +
    ((((c.hour * 60 + c.minute) * 60 + c.second) * 10 ^ 9 + c.nano : Nat) : Int)

/-- C53: the conversions from the date-times of the crates `time` and `chrono` never panic on a valid date and time
(the years of both crates are `i32`s), and stand for the same instant. -/
theorem C53_from_civil (c : DateTime.Civil) (hy1 : -2 ^ 31 ≤ c.year) (hy2 : c.year < 2 ^ 31)
    (hd : ValidDate c.year c.month c.day) (ht : ValidTime c.hour c.minute c.second c.nano) :
    ∃ dt, DateTime.ofTime c = .ok dt ∧ DateTime.ofChrono c = .ok dt ∧ DateTimeOk dt ∧
      instant dt = civilInstant c ∧
      dt.toGregorianDateTime =
        .ok (some ((c.year, c.month, c.day), c.hour, c.minute, c.second, c.nano)) := by
  have hr := C45_range c.year c.month c.day hd (by omega) (by omega)
  obtain ⟨dt, e1, e2⟩ := C50_round_trip c.year c.month c.day c.hour c.minute c.second c.nano hd ht hr.1 hr.2
  have hyi : IsI64 c.year :=
    ⟨by show -9223372036854775808 ≤ _; omega, by show _ ≤ 9223372036854775807; omega⟩
  refine ⟨dt, e1, ?_, fromGregorianDateTime_ok hyi e1, ?_, e2⟩
  · have h31 := (monthDays_le c.year c.month).2
    obtain ⟨v1, v2, v3, v4⟩ := hd
    obtain ⟨t1, t2, t3, t4⟩ := ht
    unfold DateTime.ofChrono tryFromUnsigned
    rw [if_pos (by omega), ok_bind, if_pos (by omega), ok_bind, if_pos (by omega), ok_bind,
      if_pos (by omega), ok_bind, if_pos (by omega), ok_bind]
    exact e1
  · rw [fromGregorianDateTime_valid _ _ _ _ _ _ _ ht] at e1
    cases hj : JulianDay.fromGregorian c.year c.month c.day with
    | error p => rw [hj] at e1; cases e1
    | ok jd =>
      rw [hj] at e1
      cases e1
      unfold instant civilInstant DateTime.timeOf dayNanos
      rw [(fromGregorian_ok hyi hj).2.2.2.2.1]
      rw [show (10 : Nat) ^ 9 = 1000000000 by decide]
      simp only
      rw [show c.hour * 3600 + c.minute * 60 + c.second = (c.hour * 60 + c.minute) * 60 + c.second by omega]

/-- C53: a leap second of `chrono` (nanoseconds from 10^9 up to 2 * 10^9) panics. -/
theorem C53_leap_second (c : DateTime.Civil) (hn : 10 ^ 9 ≤ c.nano) :
    ∃ p, DateTime.ofChrono c = .error p := by
  cases h : DateTime.ofChrono c with
  | error p => exact ⟨p, rfl⟩
  | ok dt =>
    have h2 := ofChrono_eq c h
    unfold DateTime.ofTime at h2
    rw [fromGregorianDateTime_invalid] at h2
    · cases h2
    · unfold ValidTime
      omega

example : ∃ c : DateTime.Civil, ValidDate c.year c.month c.day ∧
    ValidTime c.hour c.minute c.second c.nano ∧ (DateTime.ofChrono c).toOption = some ⟨2460004, 45296000000007⟩ :=
  ⟨⟨2023, 2, 28, 12, 34, 56, 7⟩, by decide +kernel⟩

/-- C53: the epoch is 1970-01-01 00:00:00. -/
theorem C53_epoch : instant DateTime.UNIX_EPOCH = dayNumber 1970 1 1 * dayNanos := by decide +kernel

/-- C53: the current time is the epoch plus (or minus) the distance of the system time. -/
theorem C53_now (before : Bool) (d : StdDuration) (hd : d.WF) :
    ∃ dt, DateTime.nowUtcWithSystemTime before d = .ok dt ∧ DateTimeOk dt ∧
      instant dt = instant DateTime.UNIX_EPOCH + (if before then -stdNanos d else stdNanos d) := by
  have key : ∀ x : Duration, x.WF → ∃ dt, DateTime.UNIX_EPOCH.checkedAddDuration x = .ok (some dt) ∧
      DateTimeOk dt ∧ instant dt = instant DateTime.UNIX_EPOCH + nanos x := by
    intro x hx
    rw [checkedAddDuration_eq _ x epoch_ok hx]
    have hr := nanos_representable x hx
    have hm : maxNanos = 18446744073709551615999999999 := by decide
    unfold Representable at hr
    rw [hm] at hr
    have hI : instant DateTime.UNIX_EPOCH = 210866803200000000000 := by decide
    have : IsI64 ((instant DateTime.UNIX_EPOCH + nanos x) / 86400000000000) := by
      rw [hI]
      exact ⟨by show -9223372036854775808 ≤ _; omega, by show _ ≤ 9223372036854775807; omega⟩
    have h : ofInstant (instant DateTime.UNIX_EPOCH + nanos x) = some _ := if_pos this
    rw [h]
    exact ⟨_, rfl, (ofInstant_iff _ _).1 h⟩
  unfold DateTime.nowUtcWithSystemTime
  cases before with
  | true =>
    obtain ⟨dt, e1, e2, e3⟩ := key (Duration.fromStd true d) hd
    refine ⟨dt, ?_, e2, e3⟩
    rw [if_pos rfl, e1]; rfl
  | false =>
    obtain ⟨dt, e1, e2, e3⟩ := key (Duration.ofStd d) hd
    refine ⟨dt, ?_, e2, e3⟩
    rw [if_neg (by decide), e1]; rfl

/-! ## C54 -/

/-- C54: comparing two `DateTime`s compares the instants; they are equal exactly if the instants are. -/
theorem C54_order (a b : DateTime) (ha : DateTimeOk a) (hb : DateTimeOk b) :
    a.cmp b = compare (instant a) (instant b) ∧ (a = b ↔ instant a = instant b) := by
  refine ⟨?_, fun h => by rw [h], instant_injective ha hb⟩
  obtain ⟨a1, a2⟩ := ha
  obtain ⟨b1, b2⟩ := hb
  unfold instant DateTime.cmp
  rw [dayNanos_eq] at *
  rcases Int.lt_trichotomy a.days b.days with h | h | h
  · rw [compare_lt_iff_lt.2 h, (compare_lt_iff_lt (a := a.days * 86400000000000 + a.time)).2 (by omega)]; rfl
  · rw [h, compare_eq_iff_eq.2 rfl]
    show compare a.time b.time = _
    rcases Nat.lt_trichotomy a.time b.time with h' | h' | h'
    · rw [compare_lt_iff_lt.2 h', compare_lt_iff_lt.2 (by omega)]
    · rw [compare_eq_iff_eq.2 h', compare_eq_iff_eq.2 (by omega)]
    · rw [compare_gt_iff_gt.2 h', compare_gt_iff_gt.2 (by omega)]
  · rw [compare_gt_iff_gt.2 h, (compare_gt_iff_gt (a := a.days * 86400000000000 + a.time)).2 (by omega)]; rfl

example : DateTimeOk ⟨1, 5⟩ ∧ DateTimeOk ⟨2, 3⟩ ∧ (⟨1, 5⟩ : DateTime).cmp ⟨2, 3⟩ = .lt := by decide

end Fundu.Props
