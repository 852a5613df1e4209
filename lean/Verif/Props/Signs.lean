import Verif.Props.Negated
import Verif.Props.OutOfRange
/-!
# C77 and C93 for several durations
-/
namespace Fundu.Props
open Fundu Fundu.Spec

section
variable (cfg : Config) (units : TimeUnitsLike) (keywords : Option TimeUnitsLike) (numerals : Option NumbersLike)

/-- C77: for parsers of several durations a minus sign in front of a text without a sign negates its first duration, and only this one: the text with
the minus sign is accepted exactly if the one without it is. (Negating all of them: C90.) -/
theorem C77_minus_multiple (s : Bytes) (hs : IsText s) (hc : CfgText cfg) (hm : cfg.allowMultiple = true) (hn : NoSign cfg s)
    (ha : cfg.allowNegative = true) (hw : SmallExponents units keywords numerals)
    (hd : (∀ b, cfg.innerDelimiter b = true → cfg.outerDelimiter b = true) ∨ (keywords = none ∧ numerals = none)) :
    (∀ x, Gives (parse cfg units keywords numerals s) x ↔ ∃ d ds, DenotesMultiple cfg units keywords numerals s (d :: ds) ∧
      x = saturatingSum (nanos d :: ds.map nanos)) ∧
    ∀ x, Gives (parse cfg units keywords numerals (b! "-" ++ s)) x ↔ ∃ d ds, DenotesMultiple cfg units keywords numerals s (d :: ds) ∧
      x = saturatingSum (-nanos d :: ds.map nanos) := by
  have plain : ∀ {items}, Durations cfg units keywords numerals s items → ∃ item l, items = (false, item) :: l ∧ SmallItem item ∧
      Durations cfg units keywords numerals (45 :: s) ((true, item) :: l) := by
    intro items h
    cases h with
    | last h1 h2 =>
      obtain ⟨g1, rfl, rfl⟩ := (noSign_absent hn).1 h1
      exact ⟨_, _, rfl, multi_small hw h2, .last ((noSign_minus hn).2 ⟨g1, rfl, rfl⟩) h2⟩
    | more h1 h2 h3 h4 =>
      obtain ⟨g1, rfl, rfl⟩ := (noSign_absent hn).1 h1
      exact ⟨_, _, rfl, multi_small hw h2, .more ((noSign_minus hn).2 ⟨g1, rfl, rfl⟩) h2 h3 h4⟩
  have minus : ∀ {items}, Durations cfg units keywords numerals (45 :: s) items → ∃ item l, items = (true, item) :: l ∧ SmallItem item ∧
      Durations cfg units keywords numerals s ((false, item) :: l) := by
    intro items h
    cases h with
    | last h1 h2 =>
      obtain ⟨g1, rfl, rfl⟩ := (noSign_minus hn).1 h1
      exact ⟨_, _, rfl, multi_small hw h2, .last ((noSign_absent hn).2 ⟨g1, rfl, rfl⟩) h2⟩
    | more h1 h2 h3 h4 =>
      obtain ⟨g1, rfl, rfl⟩ := (noSign_minus hn).1 h1
      exact ⟨_, _, rfl, multi_small hw h2, .more ((noSign_absent hn).2 ⟨g1, rfl, rfl⟩) h2 h3 h4⟩
  refine ⟨fun x => ?_, fun x => ?_⟩
  · unfold Gives
    rw [C27_multiple cfg units keywords numerals s x hs hc hm hd]
    constructor
    · rintro ⟨ds, ⟨items, h1, h2⟩, h3⟩
      obtain ⟨item, l, rfl, -, -⟩ := plain h1
      cases h2 with
      | cons g1 g2 => exact ⟨_, _, ⟨_, h1, .cons g1 g2⟩, h3⟩
    · rintro ⟨d, ds, h1, h2⟩
      exact ⟨_, h1, h2⟩
  · unfold Gives
    show (∃ d, parse cfg units keywords numerals (45 :: s) = .ok d ∧ d.WF ∧ nanos d = x) ↔ _
    rw [C27_multiple cfg units keywords numerals _ x (sign_text hs 45 (by decide)) hc hm hd]
    constructor
    · rintro ⟨ds, ⟨items, h1, h2⟩, h3⟩
      obtain ⟨item, l, rfl, h4, h5⟩ := minus h1
      cases h2 with
      | cons g1 g2 =>
        obtain ⟨d', k1, k2⟩ := denotes_other h4 g1.1
        refine ⟨d', _, ⟨_, h5, .cons ⟨k1, Or.inl ha⟩ g2⟩, ?_⟩
        rw [k2, Int.neg_neg]
        exact h3
    · rintro ⟨d, ds, ⟨items, h1, h2⟩, h3⟩
      obtain ⟨item, l, rfl, h4, h5⟩ := plain h1
      cases h2 with
      | cons g1 g2 =>
        obtain ⟨d', k1, k2⟩ := denotes_other h4 g1.1
        refine ⟨d' :: ds, ⟨_, h5, .cons ⟨k1, Or.inl ha⟩ g2⟩, ?_⟩
        rw [List.map_cons, k2]
        exact h3

/-- C93: for several durations, too, each text is a sequence of durations, has a mistake or has a multiplier which is out of range, and only one of these. -/
theorem C93_kinds_multiple (s : Bytes) (hs : IsText s) (hc : CfgText cfg) (hm : cfg.allowMultiple = true)
    (hd : (∀ b, cfg.innerDelimiter b = true → cfg.outerDelimiter b = true) ∨ (keywords = none ∧ numerals = none)) :
    ((∃ ds, DenotesMultiple cfg units keywords numerals s ds) ∧ ¬ (∃ f, FirstMistake cfg units keywords numerals s f) ∧
      ¬ FirstOutOfRange cfg units keywords numerals s) ∨
    ((¬ ∃ ds, DenotesMultiple cfg units keywords numerals s ds) ∧ (∃ f, FirstMistake cfg units keywords numerals s f) ∧
      ¬ FirstOutOfRange cfg units keywords numerals s) ∨
    ((¬ ∃ ds, DenotesMultiple cfg units keywords numerals s ds) ∧ (¬ ∃ f, FirstMistake cfg units keywords numerals s f) ∧
      FirstOutOfRange cfg units keywords numerals s) := by
  have h1 := fun x => C27_multiple cfg units keywords numerals s x hs hc hm hd
  have h2 := fun e => C71_multiple cfg units keywords numerals s e hs hc hm hd
  have h3 := C93_multiple cfg units keywords numerals s hs hc hm hd
  rw [← h3]
  cases hp : parse cfg units keywords numerals s with
  | ok d =>
    obtain ⟨ds, k, -⟩ := (h1 (nanos d)).1 ⟨d, hp, parse_wf hs hc hp, rfl⟩
    refine Or.inl ⟨⟨ds, k⟩, ?_, ?_⟩
    · rintro ⟨f, hf⟩
      have := (h2 _).2 ⟨f, hf, rfl⟩
      rw [hp] at this; cases this
    · rintro ⟨p, h⟩; cases h
  | error x =>
    have hd : ¬ ∃ ds, DenotesMultiple cfg units keywords numerals s ds := by
      rintro ⟨ds, hd⟩
      obtain ⟨d, this, -⟩ := (h1 _).2 ⟨ds, hd, rfl⟩
      rw [hp] at this; cases this
    cases x with
    | err e =>
      obtain ⟨f, hf, -⟩ := (h2 e).1 hp
      refine Or.inr (Or.inl ⟨hd, ⟨f, hf⟩, ?_⟩)
      rintro ⟨p, h⟩; cases h
    | panic p =>
      refine Or.inr (Or.inr ⟨hd, ?_, p, rfl⟩)
      rintro ⟨f, hf⟩
      have := (h2 _).2 ⟨f, hf, rfl⟩
      rw [hp] at this; cases this

end

/-- a minus sign in front of `1h 30s` gives half a minute minus an hour -/
example :
    NoSign { ((DurationParser.withTimeUnits [.hour, .second]).allowNegative true).config with allowMultiple := true } (b! "1h 30s") ∧
    parse { ((DurationParser.withTimeUnits [.hour, .second]).allowNegative true).config with allowMultiple := true }
      (DurationParser.withTimeUnits [.hour, .second]).timeUnits.like none none (b! "1h 30s") = .ok ⟨false, ⟨3630, 0⟩⟩ ∧
    parse { ((DurationParser.withTimeUnits [.hour, .second]).allowNegative true).config with allowMultiple := true }
      (DurationParser.withTimeUnits [.hour, .second]).timeUnits.like none none (b! "-1h 30s") = .ok ⟨true, ⟨3570, 0⟩⟩ := by
  refine ⟨⟨?_, by intro h; cases h⟩, by decide +kernel⟩
  rintro ⟨b, l, h, h'⟩
  cases h
  revert h'
  decide

end Fundu.Props
