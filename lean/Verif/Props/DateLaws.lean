import Verif.Props.Laws
import Verif.Props.DateTime
import Verif.Props.Access
/-!
# Property C114: the laws of calculating with dates
-/
namespace Fundu.Props
open Fundu Fundu.Spec

theorem addDuration_some {dt x : DateTime} {d : Duration} (hdt : DateTimeOk dt) (hd : d.WF) (h : dt.checkedAddDuration d = .ok (some x)) :
    DateTimeOk x ∧ instant x = instant dt + nanos d := by
  obtain ⟨r, e, y⟩ := C47_checked_add_duration dt d hdt hd
  exact (y x).1 (Except.ok.inj (e.symm.trans h))

/-- the same instant plus the same length is the same result -/
theorem addDuration_congr {a b : DateTime} {d e : Duration} (ha : DateTimeOk a) (hb : DateTimeOk b) (hd : d.WF) (he : e.WF)
    (h : instant a + nanos d = instant b + nanos e) : a.checkedAddDuration d = b.checkedAddDuration e := by
  obtain ⟨r, e1, y1⟩ := C47_checked_add_duration a d ha hd
  obtain ⟨r', e2, y2⟩ := C47_checked_add_duration b e hb he
  rw [e1, e2]
  rcases r with _ | x
  · rcases r' with _ | x'
    · rfl
    · have := (y1 x').2 ⟨((y2 x').1 rfl).1, by rw [h]; exact ((y2 x').1 rfl).2⟩
      cases this
  · have := (y2 x).2 ⟨((y1 x).1 rfl).1, by rw [← h]; exact ((y1 x).1 rfl).2⟩
    rw [this]

theorem subDuration_some {dt x : DateTime} {d : Duration} (hdt : DateTimeOk dt) (hd : d.WF) (h : dt.checkedSubDuration d = .ok (some x)) :
    DateTimeOk x ∧ instant x = instant dt - nanos d := by
  obtain ⟨r, e, y⟩ := C47_checked_sub_duration dt d hdt hd
  exact (y x).1 (Except.ok.inj (e.symm.trans h))

theorem since_some {a b : DateTime} {d : Duration} (ha : DateTimeOk a) (hb : DateTimeOk b) (h : a.durationSince b = .ok (some d)) :
    d.WF ∧ nanos d = instant a - instant b ∧ Representable (instant a - instant b) ∧ d.isNegative = decide (instant a < instant b) := by
  by_cases hr : Representable (instant a - instant b)
  · obtain ⟨d', e, w, v, s⟩ := (C47_duration_since a b ha hb).1 hr
    have : d' = d := by
      have := Except.ok.inj (e.symm.trans h)
      injection this
    subst this
    exact ⟨w, v, hr, s⟩
  · rw [(C47_duration_since a b ha hb).2 hr] at h
    cases h

theorem since_none {a b : DateTime} (ha : DateTimeOk a) (hb : DateTimeOk b) :
    a.durationSince b = .ok none ↔ ¬ Representable (instant a - instant b) := by
  constructor
  · intro h hr
    obtain ⟨d', e, -⟩ := (C47_duration_since a b ha hb).1 hr
    rw [h] at e
    cases e
  · exact (C47_duration_since a b ha hb).2

/-- C114: adding two durations one after the other is adding their sum, and the order of the two does not matter. -/
theorem C114_durations (dt x y : DateTime) (a b c : Duration) (hdt : DateTimeOk dt) (ha : a.WF) (hb : b.WF)
    (hx : dt.checkedAddDuration a = .ok (some x)) :
    (a.checkedAdd b = .ok (some c) → x.checkedAddDuration b = dt.checkedAddDuration c) ∧
    (dt.checkedAddDuration b = .ok (some y) → x.checkedAddDuration b = y.checkedAddDuration a) := by
  obtain ⟨okx, vx⟩ := addDuration_some hdt ha hx
  constructor
  · intro hc
    obtain ⟨wc, vc, -⟩ := checkedAdd_some ha hb hc
    exact addDuration_congr okx hdt hb wc (by omega)
  · intro hy
    obtain ⟨oky, vy⟩ := addDuration_some hdt hb hy
    exact addDuration_congr okx oky hb ha (by omega)

/-- C114: what was added can be subtracted again and the other way round, with the same date and time as before; the time passed
since the old date is the duration. -/
theorem C114_inverse (dt x : DateTime) (a : Duration) (hdt : DateTimeOk dt) (ha : a.WF) :
    (dt.checkedAddDuration a = .ok (some x) → x.checkedSubDuration a = .ok (some dt) ∧
      ∃ d, x.durationSince dt = .ok (some d) ∧ d.eq a = true) ∧
    (dt.checkedSubDuration a = .ok (some x) → x.checkedAddDuration a = .ok (some dt) ∧
      ∃ d, dt.durationSince x = .ok (some d) ∧ d.eq a = true) := by
  constructor
  · intro h
    obtain ⟨ok, v⟩ := addDuration_some hdt ha h
    obtain ⟨r, e, y⟩ := C47_checked_sub_duration x a ok ha
    have hv : instant x - instant dt = nanos a := by omega
    obtain ⟨d, ed, w, vd, -⟩ := (C47_duration_since x dt ok hdt).1 (hv ▸ nanos_representable a ha)
    refine ⟨by rw [e, (y dt).2 ⟨hdt, by omega⟩], d, ed, (C01_eq_iff d a w ha).2 (by omega)⟩
  · intro h
    obtain ⟨ok, v⟩ := subDuration_some hdt ha h
    obtain ⟨r, e, y⟩ := C47_checked_add_duration x a ok ha
    have hv : instant dt - instant x = nanos a := by omega
    obtain ⟨d, ed, w, vd, -⟩ := (C47_duration_since dt x hdt ok).1 (hv ▸ nanos_representable a ha)
    refine ⟨by rw [e, (y dt).2 ⟨hdt, by omega⟩], d, ed, (C01_eq_iff d a w ha).2 (by omega)⟩

/-- C114: the time from `b` to `a` is the opposite of the time from `a` to `b`, and both can be represented or neither; the time from `c` to `a`
is the time from `c` to `b` and from `b` to `a` together; a date has no distance from itself; dates moved by the same duration have the same
distance. -/
theorem C114_since (a b c : DateTime) (ha : DateTimeOk a) (hb : DateTimeOk b) (hc : DateTimeOk c) :
    (a.durationSince b = .ok none ↔ b.durationSince a = .ok none) ∧
    (∀ d e, a.durationSince b = .ok (some d) → b.durationSince a = .ok (some e) → e.eq d.neg = true) ∧
    (∀ d e, a.durationSince b = .ok (some d) → b.durationSince c = .ok (some e) →
      (a.durationSince c = .ok none ↔ d.checkedAdd e = .ok none) ∧
      ∀ f g, a.durationSince c = .ok (some f) → d.checkedAdd e = .ok (some g) → f.eq g = true) ∧
    a.durationSince a = .ok (some Duration.ZERO) ∧
    ∀ (t : Duration) (a' b' : DateTime), t.WF → a.checkedAddDuration t = .ok (some a') → b.checkedAddDuration t = .ok (some b') →
      a'.durationSince b' = a.durationSince b := by
  refine ⟨?_, ?_, ?_, ?_, ?_⟩
  · rw [since_none ha hb, since_none hb ha]
    unfold Representable
    omega
  · intro d e hd he
    obtain ⟨wd, vd, -, -⟩ := since_some ha hb hd
    obtain ⟨we, ve, -, -⟩ := since_some hb ha he
    refine (C01_eq_iff e d.neg we (C03_neg d wd).2.2.1).2 ?_
    rw [nanos_neg]
    omega
  · intro d e hd he
    obtain ⟨wd, vd, -, -⟩ := since_some ha hb hd
    obtain ⟨we, ve, -, -⟩ := since_some hb hc he
    have hv : nanos d + nanos e = instant a - instant c := by omega
    constructor
    · rw [since_none ha hc, ← hv]
      constructor
      · exact checkedAdd_none wd we
      · intro h hr
        obtain ⟨g, eg⟩ := checkedAdd_exists wd we hr
        rw [h] at eg
        cases eg
    · intro f g hf hg
      obtain ⟨wf, vf, -, -⟩ := since_some ha hc hf
      obtain ⟨wg, vg, -⟩ := checkedAdd_some wd we hg
      exact (C01_eq_iff f g wf wg).2 (by omega)
  · obtain ⟨d, e, w, v, s⟩ := (C47_duration_since a a ha ha).1 (by unfold Representable maxNanos; omega)
    have hs : d.isNegative = false := by rw [s, decide_eq_false_iff_not]; omega
    have hv : nanos d = nanos Duration.ZERO := by
      rw [v, Int.sub_self]
      decide
    rw [e, duration_same w (by decide) hv hs]
  · intro t a' b' ht ha' hb'
    obtain ⟨oka, va⟩ := addDuration_some ha ht ha'
    obtain ⟨okb, vb⟩ := addDuration_some hb ht hb'
    have hv : instant a' - instant b' = instant a - instant b := by omega
    by_cases hr : Representable (instant a - instant b)
    · obtain ⟨d, e, w, v, s⟩ := (C47_duration_since a b ha hb).1 hr
      obtain ⟨d', e', w', v', s'⟩ := (C47_duration_since a' b' oka okb).1 (by rw [hv]; exact hr)
      have hs : d'.isNegative = d.isNegative := by
        rw [s, s', decide_eq_decide]
        omega
      rw [e, e', duration_same w' w (by omega) hs]
    · rw [(C47_duration_since a b ha hb).2 hr, (C47_duration_since a' b' oka okb).2 (by rw [hv]; exact hr)]

/-- C114: for days up to the 28th years and months can be added one after the other or together (as long as the date in between has a Gregorian
date), so that they can be subtracted again. -/
theorem C114_months (dt x : DateTime) (Y : Int) (M D : Nat) (hdt : DateTimeOk dt) (hg : dt.toGregorianDate = .ok (some (Y, M, D))) (hD : D ≤ 28)
    (y m y' m' d : Int) (hy : IsI64 y) (hm : IsI64 m) (hy' : IsI64 y') (hm' : IsI64 m') (hd : IsI64 d) (hyy : IsI64 (y + y')) (hmm : IsI64 (m + m'))
    (hx : dt.checkedAddGregorian y m 0 = .ok (some x)) (date : Int × Nat × Nat) (hgx : x.toGregorianDate = .ok (some date)) :
    x.checkedAddGregorian y' m' d = dt.checkedAddGregorian (y + y') (m + m') d := by
  have shift : ∀ (Y : Int) (M : Nat), ∀ n : Int, ∃ (Y' : Int) (M' : Nat), 1 ≤ M' ∧ M' ≤ 12 ∧ 12 * Y' + M' = (12 * Y + M) + n := by
    intro Y M n
    refine ⟨(12 * Y + M + n - 1) / 12, ((12 * Y + M + n - 1) % 12 + 1).toNat, ?_, ?_, ?_⟩ <;> omega
  have short : ∀ (Y : Int) (M : Nat), 1 ≤ M → M ≤ 12 → 28 ≤ monthDays Y M := by
    intro Y M h1 h2
    have : M = 1 ∨ M = 2 ∨ M = 3 ∨ M = 4 ∨ M = 5 ∨ M = 6 ∨ M = 7 ∨ M = 8 ∨ M = 9 ∨ M = 10 ∨ M = 11 ∨ M = 12 := by omega
    rcases this with rfl | rfl | rfl | rfl | rfl | rfl | rfl | rfl | rfl | rfl | rfl | rfl <;>
      first
        | exact (show 28 ≤ 31 by decide)
        | exact (show 28 ≤ 30 by decide)
        | (show 28 ≤ (if isLeap Y then 29 else 28); split <;> decide)
  have valid := (C45_to_gregorian dt.days Y M D hg).1
  obtain ⟨Y1, M1, g1, g2, g3⟩ := shift Y M (12 * y + m)
  have one := C49_checked_add_gregorian dt hdt Y M D hg y m 0 hy hm (by decide) Y1 M1 g1 g2 g3
  have hi : IsI64 (dayNumber Y1 M1 D) ∧ IsI64 (dayNumber Y1 M1 D + 0) := by
    by_contra hn
    rw [one.2 hn] at hx
    cases hx
  have ex : x = ⟨dayNumber Y1 M1 D, dt.time⟩ := by
    have := Except.ok.inj (hx.symm.trans (one.1 hi))
    injection this with this
    rw [this, Int.add_zero]
  have okx : DateTimeOk x := by
    rw [ex]
    exact ⟨hi.1, hdt.2⟩
  obtain ⟨Yx, Mx, Dx⟩ := date
  have hgx' : JulianDay.toGregorian x.days = .ok (some (Yx, Mx, Dx)) := hgx
  have vx := C45_to_gregorian x.days Yx Mx Dx hgx'
  have same := dayNumber_injective vx.1 (⟨g1, g2, valid.2.2.1, le_trans hD (short Y1 M1 g1 g2)⟩ : ValidDate Y1 M1 D)
    (by rw [vx.2.1, ex])
  obtain ⟨rfl, rfl, rfl⟩ := same
  obtain ⟨Y2, M2, k1, k2, k3⟩ := shift Yx Mx (12 * y' + m')
  have two := C49_checked_add_gregorian x okx Yx Mx Dx hgx y' m' d hy' hm' hd Y2 M2 k1 k2 k3
  have all := C49_checked_add_gregorian dt hdt Y M Dx hg (y + y') (m + m') d hyy hmm hd Y2 M2 k1 k2 (by omega)
  have ht : x.time = dt.time := by rw [ex]
  by_cases hj : IsI64 (dayNumber Y2 M2 Dx) ∧ IsI64 (dayNumber Y2 M2 Dx + d)
  · rw [two.1 hj, all.1 hj, ht]
  · rw [two.2 hj, all.2 hj]

/-- the hypotheses are met: from the epoch, 1.5 seconds forward, then 86400 seconds back -/
example : DateTimeOk DateTime.UNIX_EPOCH ∧
    DateTime.UNIX_EPOCH.checkedAddDuration ⟨false, ⟨1, 500000000⟩⟩ = .ok (some ⟨DateTime.UNIX_EPOCH.days, 1500000000⟩) ∧
    (⟨DateTime.UNIX_EPOCH.days, 1500000000⟩ : DateTime).durationSince DateTime.UNIX_EPOCH = .ok (some ⟨false, ⟨1, 500000000⟩⟩) ∧
    (⟨false, ⟨1, 500000000⟩⟩ : Duration).checkedAdd ⟨true, ⟨86400, 0⟩⟩ = .ok (some ⟨true, ⟨86398, 500000000⟩⟩) ∧
    DateTime.UNIX_EPOCH.checkedAddDuration ⟨true, ⟨86398, 500000000⟩⟩ = .ok (some ⟨DateTime.UNIX_EPOCH.days - 1, 1500000000⟩) ∧
    DateTime.UNIX_EPOCH.toGregorianDate = .ok (some (1970, 1, 1)) ∧
    DateTime.UNIX_EPOCH.checkedAddGregorian 0 13 0 = .ok (some ⟨DateTime.UNIX_EPOCH.days + 396, 0⟩) ∧
    (⟨DateTime.UNIX_EPOCH.days + 396, 0⟩ : DateTime).toGregorianDate = .ok (some (1971, 2, 1)) := by decide +kernel

/-- the restriction to days up to the 28th is needed: one month after the 31st of January and one month back again is the 3rd of February,
because there is no 31st of February -/
example : (⟨DateTime.UNIX_EPOCH.days + 30, 0⟩ : DateTime).toGregorianDate = .ok (some (1970, 1, 31)) ∧
    (⟨DateTime.UNIX_EPOCH.days + 30, 0⟩ : DateTime).checkedAddGregorian 0 1 0 = .ok (some ⟨DateTime.UNIX_EPOCH.days + 61, 0⟩) ∧
    (⟨DateTime.UNIX_EPOCH.days + 61, 0⟩ : DateTime).checkedAddGregorian 0 (-1) 0 = .ok (some ⟨DateTime.UNIX_EPOCH.days + 33, 0⟩) := by
  decide +kernel

end Fundu.Props
