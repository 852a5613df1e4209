import Verif.Spec.GnuDate
import Verif.Proofs.GnuLoop
import Verif.Props.DateTime
/-! # Relative dates -/
namespace Fundu.Gnu
open Fundu Fundu.Spec Fundu.Props

theorem relativeDate_unique {date : DateTime} {t : GnuTotal} {x x' : Int} (h : RelativeDate date t x)
    (h' : RelativeDate date t x') : x = x' := by
  obtain ⟨Y, M, D, Y1, M1, a1, a2, a3, a4, a5, a6⟩ := h
  obtain ⟨Z, N, E, Z1, N1, b1, b2, b3, b4, b5, b6⟩ := h'
  obtain ⟨rfl, rfl, rfl⟩ : Y = Z ∧ M = N ∧ D = E := dayNumber_injective a1 b1 (a2.trans b2.symm)
  obtain ⟨rfl, rfl⟩ : Y1 = Z1 ∧ M1 = N1 := by omega
  omega

theorem gregorian_range {jd : Int} : (∃ y m d, JulianDay.toGregorian jd = .ok (some (y, m, d))) ↔ CalendarDay jd := by
  obtain ⟨h1, h2⟩ := C46_to_gregorian jd
  unfold CalendarDay
  rcases toGregorian_cases jd with h | h | ⟨hp, h⟩
  · constructor
    · intro _
      by_contra hc
      obtain ⟨y, m, d, h⟩ := h
      by_cases hq : jd = -92233720366826639
      · obtain ⟨p, h3⟩ := h2.2 hq
        rw [h] at h3; cases h3
      · have := h1.2 ⟨by omega, hq⟩
        rw [h] at this; cases this
    · intro _; exact h
  · have := (h1.1 h).1
    constructor
    · rintro ⟨y, m, d, h3⟩; rw [h] at h3; cases h3
    · intro; omega
  · constructor
    · rintro ⟨y, m, d, h3⟩; obtain ⟨p, h⟩ := h; rw [h] at h3; cases h3
    · intro; omega

theorem relativeTo_ok {date : DateTime} {y m : Int} {d : Duration} (hdt : DateTimeOk date) (hy : IsI64 y) (hm : IsI64 m) (hd : d.WF)
    (hc : CalendarDay ((instant date + nanos d) / dayNanos)) :
    ∃ x, RelativeDate date ⟨y, m, nanos d⟩ x ∧
      (Representable x → ∃ d', RelativeTimeParser.relativeTo date y m d = .ok (some d') ∧ d'.WF ∧ nanos d' = x) ∧
      (¬ Representable x → RelativeTimeParser.relativeTo date y m d = .ok none) := by
  have hm' := nanos_representable d hd
  have hM : maxNanos = 18446744073709551615999999999 := by decide
  unfold Representable at hm'
  rw [hM] at hm'
  unfold CalendarDay at hc
  have hmid : IsI64 ((instant date + nanos d) / dayNanos) := by
    rw [isI64_iff]; omega
  obtain ⟨mid, e0⟩ : ∃ mid, ofInstant (instant date + nanos d) = some mid := by
    unfold ofInstant
    rw [if_pos (by rw [← dayNanos_eq]; exact hmid)]
    exact ⟨_, rfl⟩
  obtain ⟨hok, hinst⟩ := (ofInstant_iff _ _).1 e0
  have e1 := checkedAddDuration_eq date d hdt hd
  rw [e0] at e1
  have hdays : mid.days = (instant date + nanos d) / dayNanos ∧ (mid.time : Int) = (instant date + nanos d) % dayNanos := by
    have := hok.2
    rw [← hinst]
    unfold instant
    rw [dayNanos_eq] at *
    omega
  obtain ⟨Y, M, D, hg⟩ := gregorian_range.2 (show CalendarDay mid.days by rw [hdays.1]; exact hc)
  obtain ⟨hv, hdn, -⟩ := C45_to_gregorian _ _ _ _ hg
  have e2 := checkedAddGregorian_eq mid hok Y M D hg y m 0 hy hm (by decide) _ rfl
  simp only [Int.add_zero, and_self] at e2
  generalize hY : (12 * Y + ((M : Int) - 1) + 12 * y + m) / 12 = Y' at *
  generalize hMM : ((12 * Y + ((M : Int) - 1) + 12 * y + m) % 12).toNat + 1 = M' at *
  have hrel : RelativeDate date ⟨y, m, nanos d⟩
      (dayNumber Y' M' D * dayNanos + (instant date + nanos d) % dayNanos - instant date) :=
    ⟨Y, M, D, Y', M', hv, hdn.trans hdays.1, by omega, by omega, by simp only; omega, by simp only; omega⟩
  refine ⟨_, hrel, ?_, ?_⟩
  · intro hr
    have hi : IsI64 (dayNumber Y' M' D) := by
      unfold Representable at hr
      rw [hM] at hr
      rw [isI64_iff]
      rw [dayNanos_eq] at *
      generalize dayNumber Y' M' D = n at *
      omega
    rw [if_pos hi] at e2
    have hok2 : DateTimeOk ⟨dayNumber Y' M' D, mid.time⟩ := ⟨hi, hok.2⟩
    have hx : instant ⟨dayNumber Y' M' D, mid.time⟩ - instant date =
        dayNumber Y' M' D * dayNanos + (instant date + nanos d) % dayNanos - instant date := by
      rw [← hdays.2]; rfl
    obtain ⟨d', g1, g2, g3, -⟩ := (C47_duration_since _ _ hok2 hdt).1 (by rw [hx]; exact hr)
    refine ⟨d', ?_, g2, by rw [g3, hx]⟩
    unfold RelativeTimeParser.relativeTo
    rw [e1, ok_bind]
    simp only
    rw [e2, ok_bind]
    exact g1
  · intro hr
    unfold RelativeTimeParser.relativeTo
    rw [e1, ok_bind]
    simp only
    rw [e2]
    by_cases hi : IsI64 (dayNumber Y' M' D)
    · rw [if_pos hi, ok_bind]
      have hok2 : DateTimeOk ⟨dayNumber Y' M' D, mid.time⟩ := ⟨hi, hok.2⟩
      refine (C47_duration_since _ _ hok2 hdt).2 ?_
      have hx : instant ⟨dayNumber Y' M' D, mid.time⟩ - instant date =
          dayNumber Y' M' D * dayNanos + (instant date + nanos d) % dayNanos - instant date := by
        rw [← hdays.2]; rfl
      rw [hx]; exact hr
    · rw [if_neg hi, ok_bind]; rfl

theorem relativeTo_none {date : DateTime} {y m : Int} {d : Duration} (hdt : DateTimeOk date) (hd : d.WF)
    (hc : ¬ CalendarDay ((instant date + nanos d) / dayNanos)) :
    ((instant date + nanos d) / dayNanos ≠ -92233720366826639 → RelativeTimeParser.relativeTo date y m d = .ok none) ∧
    ((instant date + nanos d) / dayNanos = -92233720366826639 → ∃ p, RelativeTimeParser.relativeTo date y m d = .error p) := by
  have e1 := checkedAddDuration_eq date d hdt hd
  unfold RelativeTimeParser.relativeTo
  rw [e1, ok_bind]
  cases e0 : ofInstant (instant date + nanos d) with
  | none =>
    refine ⟨fun _ => rfl, fun h => ?_⟩
    unfold ofInstant at e0
    rw [← dayNanos_eq, h, if_pos (by decide)] at e0
    cases e0
  | some mid =>
    obtain ⟨hok, hinst⟩ := (ofInstant_iff _ _).1 e0
    have hdays : mid.days = (instant date + nanos d) / dayNanos := by
      have := hok.2
      rw [← hinst]
      unfold instant
      rw [dayNanos_eq] at *
      omega
    rw [← hdays] at hc ⊢
    simp only
    unfold DateTime.checkedAddGregorian
    rcases toGregorian_cases mid.days with h | h | ⟨hp, p, h⟩
    · exact absurd (gregorian_range.1 h) hc
    · rw [h]
      refine ⟨fun _ => rfl, fun hh => ?_⟩
      have := ((C46_to_gregorian mid.days).1.1 h).2
      exact absurd hh this
    · rw [h]
      exact ⟨fun hh => absurd hp hh, fun _ => ⟨p, rfl⟩⟩

end Fundu.Gnu
