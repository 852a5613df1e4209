import Verif.Props.Examples
import Verif.Props.MoreWords
import Verif.Props.Gnu
import Verif.Proofs.GnuRegex
import Verif.Spec.GnuExample
/-! # The parser of the example gnu.rs and fundu-gnu -/
namespace Fundu.GnuExample
open Fundu Fundu.Spec Fundu.Props Fundu.Gnu

abbrev cfg : Config := Examples.Gnu.parser.config
abbrev units : TimeUnitsLike := Examples.Gnu.parser.timeUnits.like

theorem units_more : UnitsMore units TIME_UNITS := by
  refine ⟨fun id u h => ?_, fun h => absurd h (by decide), fun h => absurd h (by decide +kernel)⟩
  obtain ⟨u, m⟩ := u
  obtain ⟨r, hr, rfl, rfl, hid⟩ := C36_sound Examples.Gnu.GNU_TIME_UNITS id u m h
  have : ∀ r ∈ Examples.Gnu.GNU_TIME_UNITS, ∀ id ∈ r.identifiers, TIME_UNITS.get id = some (r.baseUnit, r.multiplier) := by
    decide +kernel
  exact this r hr id hid

theorem keywords_more : KeywordsMore exampleGnuKeywords (some TIME_KEYWORDS) := by
  rintro k ⟨⟩ id ⟨u, m⟩ h
  have e : CustomTimeUnits.withKeywords Examples.Gnu.GNU_KEYWORDS =
      CustomTimeUnits.withTimeUnits (Examples.Gnu.GNU_KEYWORDS.map TimeKeyword.toCustomTimeUnit) := by decide +kernel
  rw [e] at h
  obtain ⟨r, hr, rfl, rfl, hid⟩ := C36_sound _ id u m h
  have : ∀ r ∈ Examples.Gnu.GNU_KEYWORDS.map TimeKeyword.toCustomTimeUnit, ∀ id ∈ r.identifiers,
      TIME_KEYWORDS.get id = some (r.baseUnit, r.multiplier) := by
    decide +kernel
  exact ⟨_, rfl, this r hr id hid⟩

theorem numerals_more : NumeralsMore none (some NUMERALS) := by
  intro n h; cases h

theorem delimiter_eq : Examples.Gnu.DELIMITER = Gnu.DELIMITER := by
  have : ∀ n < 256, Examples.Gnu.DELIMITER (UInt8.ofNat n) = Gnu.DELIMITER (UInt8.ofNat n) := by decide +kernel
  funext b
  have := this b.toNat b.toNat_lt
  rwa [UInt8.ofNat_toNat] at this

theorem allows_more : AllowsMore cfg CONFIG where
  defaultUnit := rfl
  inner := delimiter_eq.symm
  outer := delimiter_eq.symm
  conjunctions := rfl
  multiple := rfl
  negative := fun _ => rfl
  ago := fun _ => rfl
  signDelimiter := by decide
  unitDelimiter := fun _ => rfl
  optional := fun _ => rfl
  exponent := fun _ => rfl
  fraction := by decide
  infinity := fun _ => rfl

theorem compatible : CompatibleMultiple cfg CONFIG where
  delimiters := fun _ h => h
  unitDelimiter := Or.inl rfl
  ago := Or.inl rfl

theorem delimiter_iff {c : Config} (h1 : c.innerDelimiter = Gnu.DELIMITER) (h2 : c.outerDelimiter = Gnu.DELIMITER) (b : UInt8) :
    IsDelimiter c b ↔ PosixSpace b := by
  unfold IsDelimiter
  rw [h1, h2, Gnu.delimiter_iff, or_self]

theorem identifier_word {id : Bytes} (h : IsIdentifier TIME_UNITS (some TIME_KEYWORDS) (some NUMERALS) id) :
    (∃ len, GnuWord gnuUnits id len) ∨ (∃ len, GnuWord gnuKeywords id len) ∨ ∃ n, GnuNumeral id n := by
  rcases h with ⟨u, h⟩ | ⟨k, u, ⟨⟩, h⟩ | ⟨n, q, ⟨⟩, h⟩
  · obtain ⟨len, -, g⟩ := (C41_units id).2 u h
    exact Or.inl ⟨len, g⟩
  · obtain ⟨len, -, g⟩ := (C41_keywords id).2 u h
    exact Or.inr (Or.inl ⟨len, g⟩)
  · exact Or.inr (Or.inr ⟨_, ((C41_numerals id q).1 h).2⟩)

/-- a property of the words of the tables which does not depend on their case -/
theorem identifier_of {P : Bytes → Prop} [DecidablePred P] (hP : ∀ a b, SameText a b → P b → P a)
    (h1 : ∀ p ∈ gnuUnits, ∀ w ∈ p.1, P w) (h2 : ∀ p ∈ gnuKeywords, ∀ w ∈ p.1, P w) (h3 : ∀ p ∈ gnuNumerals, P p.1) {id : Bytes}
    (h : IsIdentifier TIME_UNITS (some TIME_KEYWORDS) (some NUMERALS) id) : P id := by
  rcases identifier_word h with ⟨len, names, g1, name, g2, g3⟩ | ⟨len, names, g1, name, g2, g3⟩ | ⟨n, name, g1, g2⟩
  · exact hP _ _ g3 (h1 _ g1 _ g2)
  · exact hP _ _ g3 (h2 _ g1 _ g2)
  · exact hP _ _ g2 (h3 _ g1)

theorem identifier_letters {id : Bytes} (h : IsIdentifier TIME_UNITS (some TIME_KEYWORDS) (some NUMERALS) id) :
    id ≠ [] ∧ ∀ b ∈ id, Letter b := by
  rcases identifier_word h with ⟨len, g⟩ | ⟨len, g⟩ | ⟨n, g⟩
  · exact ⟨gnuWord_ne g (by decide), unit_letters g⟩
  · exact ⟨gnuWord_ne g (by decide), keyword_letters g⟩
  · exact numeral_word g

theorem orderly {c : Config} (d1 : c.innerDelimiter = Gnu.DELIMITER) (d2 : c.outerDelimiter = Gnu.DELIMITER) :
    Orderly c TIME_UNITS (some TIME_KEYWORDS) (some NUMERALS) where
  delimiters := by
    intro b hb
    rw [delimiter_iff d1 d2] at hb
    rcases hb with rfl | rfl | rfl | rfl | rfl | rfl <;> decide
  nonempty := fun id h => (identifier_letters h).1
  plain := by
    intro id h b hb
    have := (letter_not ((identifier_letters h).2 b hb)).1
    rw [delimiter_iff d1 d2]
    exact ⟨fun k => this (Or.inl k), fun k => this (Or.inr k)⟩
  point := by
    rintro id h ⟨b, l, rfl, rfl⟩
    exact (letter_not ((identifier_letters h).2 46 (by simp))).2.2.2 rfl
  inf := by
    intro id h
    rintro ⟨r, a, g1, g2⟩
    have : ¬ SameText (id.take 3) (b! "inf") := by
      refine identifier_of (P := fun w => ¬ SameText (w.take 3) (b! "inf")) ?_ (by decide) (by decide) (by decide) h
      intro a b hab hb hc
      apply hb
      unfold SameText at *
      rw [← hc, List.map_take, List.map_take, hab]
    apply this
    have hl : a.length = 3 := by
      have := congrArg List.length g2
      simpa using this
    rw [g1, List.take_append_of_le_length (by omega), List.take_of_length_le (by omega)]
    exact g2
  ago := by
    intro id h
    refine identifier_of (P := fun w => ¬ SameText w (b! "ago")) ?_ (by decide) (by decide) (by decide) h
    intro a b hab hb hc
    apply hb
    unfold SameText at *
    rw [← hc, hab]
  unitsKeywords := by
    rintro k ⟨⟩ id u h
    obtain ⟨len, -, g⟩ := (C41_units id).2 u h
    cases hk : TIME_KEYWORDS.get id with
    | none => rfl
    | some x =>
      obtain ⟨len', -, g'⟩ := (C41_keywords id).2 x hk
      exact absurd g' ((C41_unambiguous id).2.2.1 _ _ g)
  unitsNumerals := by
    rintro n ⟨⟩ id u h
    obtain ⟨len, -, names, g1, g⟩ := (C41_units id).2 u h
    cases hk : NUMERALS id with
    | none => rfl
    | some x => exact absurd ((C41_numerals id x).1 hk).2 ((C41_unambiguous id).2.2.2 len _ ⟨names, List.mem_append_left _ g1, g⟩)
  keywordsNumerals := by
    rintro k n ⟨⟩ ⟨⟩ id u h
    obtain ⟨len, -, names, g1, g⟩ := (C41_keywords id).2 u h
    cases hk : NUMERALS id with
    | none => rfl
    | some x => exact absurd ((C41_numerals id x).1 hk).2 ((C41_unambiguous id).2.2.2 len _ ⟨names, List.mem_append_right _ g1, g⟩)

theorem orderly_example : Orderly cfg TIME_UNITS (some TIME_KEYWORDS) (some NUMERALS) := orderly delimiter_eq delimiter_eq

end Fundu.GnuExample
