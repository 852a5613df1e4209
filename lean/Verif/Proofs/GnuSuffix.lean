import Verif.Spec.Gnu
/-! # What remains of a relative time is at its end -/
namespace Fundu.Props
open Fundu Fundu.Spec

theorem gnuText_suffix {neg : Bool} {s rest : Bytes} {part : GnuPart} (h : GnuText neg s part rest) : ∃ a, s = a ++ rest := by
  have gap : ∀ {r rest : Bytes}, GnuGap r rest → ∃ a, r = a ++ rest := fun h => by
    obtain ⟨⟨sp, k⟩, -⟩ := h
    exact ⟨sp, k.1⟩
  have unit : ∀ {s len ago rest}, GnuUnitAt s len ago rest → ∃ a, s = a ++ rest := by
    rintro s len ago rest ⟨r, r', ⟨w, h1, -⟩, h2, h3⟩
    obtain ⟨g, k⟩ := gap h3
    cases h2 with
    | absent _ => exact ⟨w ++ g, by rw [h1.1, k, List.append_assoc]⟩
    | present h =>
      obtain ⟨sp, r1, k1, -, ⟨a, k2, -⟩, -⟩ := h
      exact ⟨w ++ (sp ++ (a ++ g)), by rw [h1.1, k1.1, k2, k]; simp⟩
  cases h with
  | numberUnit h1 h2 h3 =>
    obtain ⟨sp, h2⟩ := h2
    obtain ⟨a, k⟩ := unit h3
    exact ⟨_ ++ (sp ++ a), by rw [h1.1.1, h2.1, k]; simp; rfl⟩
  | number h1 h2 =>
    obtain ⟨r, ⟨sp, k⟩, -, -, rfl⟩ := h2
    exact ⟨_ ++ sp, by rw [h1.1.1, k.1, List.append_assoc]⟩
  | decimalUnit h1 h2 h3 =>
    obtain ⟨sp, h2⟩ := h2
    obtain ⟨r, k1, -, k2, -⟩ := h1
    obtain ⟨a, k⟩ := unit h3
    exact ⟨_ ++ (46 :: (_ ++ (sp ++ a))), by rw [k1.1, k2.1, h2.1, k]; simp; rfl⟩
  | decimal h1 h2 =>
    obtain ⟨r, k1, -, k2, k3, -⟩ := h1
    obtain ⟨r, ⟨sp, k⟩, -, -, rfl⟩ := h2
    exact ⟨_ ++ (46 :: (_ ++ sp)), by rw [k1.1, k2.1, k.1]; simp; rfl⟩
  | keyword h1 h2 =>
    obtain ⟨w, k1, k2⟩ := h1
    obtain ⟨g, k⟩ := gap h2
    exact ⟨w ++ g, by rw [k1.1, k, List.append_assoc]⟩
  | unit h => exact unit h
  | numeral h1 h2 h3 h4 =>
    obtain ⟨sp, h3⟩ := h3
    obtain ⟨a, k⟩ := unit h4
    exact ⟨_ ++ (sp ++ a), by rw [h1.1, h3.1, k]; simp; rfl⟩

theorem gnuSign_suffix {s r : Bytes} {neg : Bool} (h : GnuSign s neg r) : ∃ a, s = a ++ r := by
  cases h with
  | absent _ => exact ⟨[], rfl⟩
  | plus h => obtain ⟨sp, k⟩ := h; exact ⟨43 :: sp, by rw [k.1]; rfl⟩
  | minus h => obtain ⟨sp, k⟩ := h; exact ⟨45 :: sp, by rw [k.1]; rfl⟩


end Fundu.Props
