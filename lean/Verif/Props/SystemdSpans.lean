import Verif.Proofs.SystemdSpans
/-!
# C92: fundu-systemd accepts exactly the documented time spans, and reports the first mistake of each other text
-/
namespace Fundu.Props
open Fundu Fundu.Spec Fundu.SystemdSpans
open Fundu.Systemd (TimeSpanParser)

/-- C92: apart from `infinity`, a text is accepted if and only if it is a sequence of time spans (`Spec/SystemdSpans`), and the result is the sum of their
nanoseconds, or `max` if the sum is greater. `len` is the length of the default unit. -/
theorem C92_value (nanos' : Bool) (u : TimeUnit) (id : Bytes) (len : Nat) (hu : (u, id, len) ∈ documentedUnits) (s m : Bytes) (hs : IsText s)
    (hm' : Trimmed s m) (hi : m ≠ b! "infinity") (max : Duration) (hw : max.WF) (hm : max.isNegative = false) (x : Int) :
    (∃ d, parseMax nanos' (TimeSpanParser.withDefaultUnit u) s max = .ok d ∧ nanos d = x) ↔
      ∃ l, TimeSpans (documentedOf nanos') len m l ∧ x = min (nanos max) l.sum := by
  have hu : DefaultLength u len := ⟨id, hu⟩
  have hmax : nanos max ≤ maxNanos := (nanos_representable max hw).2
  have ht : Gnu.Tidy m := by obtain ⟨_, _, -, -, -, -, h⟩ := hm'; exact h
  rw [C38_value nanos' u s m hs hm' hi max hw hm x]
  have key : ∀ l : List Int, (∀ x ∈ l, 0 ≤ x) → min (nanos max) ((l.map (min maxNanos)).sum) = min (nanos max) l.sum := by
    intro l hl
    rcases sum_min hl maxNanos (nanos max) hmax with h | h
    · exact h.1
    · exact absurd h (by decide)
  constructor
  · rintro ⟨ds, ⟨items, h1, h2⟩, rfl⟩
    obtain ⟨l, g1, g2⟩ := durations_spans hu h1 h2
    exact ⟨l, g1, by rw [g2]; exact key l (spans_nonneg g1)⟩
  · rintro ⟨l, h1, rfl⟩
    obtain ⟨items, ds, g1, g2, g3⟩ := spans_durations' hu ht h1
    exact ⟨ds, ⟨items, g1, g2⟩, by rw [g3]; exact (key l (spans_nonneg h1)).symm⟩

/-- C92: the errors are those of the first mistake (`Spec/SystemdSpans`), with the positions in the text without the white space around it. -/
theorem C92_error (nanos' : Bool) (u : TimeUnit) (id : Bytes) (len : Nat) (hu : (u, id, len) ∈ documentedUnits) (s m : Bytes) (hs : IsText s)
    (hm' : Trimmed s m) (max : Duration) (hm : max.isNegative = false) (e : ParseError) :
    parseMax nanos' (TimeSpanParser.withDefaultUnit u) s max = fail e ↔
      m ≠ b! "infinity" ∧ ∃ f, SpansMistake (documentedOf nanos') len m f ∧ e = f.error m := by
  have hu : DefaultLength u len := ⟨id, hu⟩
  have ht : Gnu.Tidy m := by obtain ⟨_, _, -, -, -, -, h⟩ := hm'; exact h
  obtain ⟨m', h1, h2, h3⟩ := parseMax_eq nanos' (TimeSpanParser.withDefaultUnit u) s max hm hs
  obtain rfl := trimmed_unique h1 hm'
  rw [h3]
  by_cases hi : m' = b! "infinity"
  · rw [if_pos hi]
    exact ⟨(fun h => by cases h), fun h => absurd hi h.1⟩
  rw [if_neg hi]
  have hp := C71_multiple (cfg := (TimeSpanParser.withDefaultUnit u).config) (units := tableOf nanos') (keywords := none) (numerals := none)
    m' e h2 (systemd_cfgText u) rfl (Or.inr ⟨rfl, rfl⟩)
  have hmap : (Fundu.parse (TimeSpanParser.withDefaultUnit u).config (tableOf nanos') none none m').map (Systemd.minDuration · max) = fail e ↔
      Fundu.parse (TimeSpanParser.withDefaultUnit u).config (tableOf nanos') none none m' = fail e := by
    cases Fundu.parse (TimeSpanParser.withDefaultUnit u).config (tableOf nanos') none none m' with
    | error x => exact Iff.rfl
    | ok d => exact ⟨(fun h => by cases h), (fun h => by cases h)⟩
  rw [hmap, hp]
  constructor
  · rintro ⟨f, g1, g2⟩
    exact ⟨hi, f, first_spans hu ht g1, g2⟩
  · rintro ⟨-, f, g1, g2⟩
    exact ⟨f, spans_first hu ht g1, g2⟩

/-- C92: no text is both a sequence of time spans and has a mistake, and every text which isn't `infinity` is one or the other. -/
theorem C92_complete (nanos' : Bool) (u : TimeUnit) (id : Bytes) (len : Nat) (hu : (u, id, len) ∈ documentedUnits) (m : Bytes) (hs : IsText m)
    (hm' : Trimmed m m) (hi : m ≠ b! "infinity") :
    (∃ l, TimeSpans (documentedOf nanos') len m l) ↔ ¬ ∃ f, SpansMistake (documentedOf nanos') len m f := by
  have hw : Duration.ZERO.WF := by decide
  have h1 := C92_value nanos' u id len hu m m hs hm' hi Duration.ZERO hw rfl
  have h2 := C92_error nanos' u id len hu m m hs hm' Duration.ZERO rfl
  constructor
  · rintro ⟨l, hl⟩ ⟨f, hf⟩
    obtain ⟨d, hd, -⟩ := (h1 _).2 ⟨l, hl, rfl⟩
    have := (h2 _).2 ⟨hi, f, hf, rfl⟩
    rw [hd] at this
    cases this
  · intro h
    rcases C38_bounded nanos' u m hs Duration.ZERO hw rfl with ⟨d, hp, -⟩ | ⟨e, hp⟩
    · obtain ⟨l, hl, -⟩ := (h1 _).1 ⟨d, hp, rfl⟩
      exact ⟨l, hl⟩
    · obtain ⟨-, f, hf, -⟩ := (h2 e).1 hp
      exact absurd ⟨f, hf⟩ h

/-- C92: the functions `parse` and `parse_nanos` are these parsers. -/
theorem C92_functions (u : TimeUnit) (s : Bytes) (max : Duration) :
    Systemd.parse s (some u) (some max) = parseMax false (TimeSpanParser.withDefaultUnit u) s max ∧
    Systemd.parseNanos s (some u) (some max) = parseMax true (TimeSpanParser.withDefaultUnit u) s max ∧
    Systemd.parse s none (some max) = parseMax false (TimeSpanParser.withDefaultUnit .second) s max ∧
    Systemd.parseNanos s none (some max) = parseMax true (TimeSpanParser.withDefaultUnit .second) s max := by
  obtain ⟨h1, h2, h3, h4⟩ := C40_functions s u max
  exact ⟨h2, h4, h1, h3⟩

/-! ## Cases which meet the hypotheses -/

/-- every default unit has a documented length -/
example (u : TimeUnit) : ∃ id len, (u, id, len) ∈ documentedUnits := by
  have h : ∃ p ∈ documentedUnits, p.1 = u := by cases u <;> decide
  obtain ⟨⟨v, id, len⟩, h, rfl⟩ := h
  exact ⟨id, len, h⟩

/-- the parsers accept ` 1.5h+2`, and `1.5h+2` are time spans of 5402 seconds -/
example : ∃ l, TimeSpans (documentedOf false) 1000000000 (b! "1.5h+2") l ∧ l.sum = 5402000000000 := by
  obtain ⟨l, h1, h2⟩ := (C92_value false .second (b! "s") 1000000000 (by decide) (b! " 1.5h+2") (b! "1.5h+2") (isText_ascii (by decide))
    ⟨b! " ", [], rfl, by decide, by decide, by decide, by decide⟩ (by decide) ⟨false, ⟨10000, 0⟩⟩ (by decide) rfl 5402000000000).1
    ⟨⟨false, ⟨5402, 0⟩⟩, by decide +kernel, by decide⟩
  refine ⟨l, h1, ?_⟩
  have : nanos (⟨false, ⟨10000, 0⟩⟩ : Duration) = 10000000000000 := by decide
  omega

/-- `1h foo` has a mistake in its second part: the text from there on is no time span -/
example : SpansMistake (documentedOf false) 1000000000 (b! "1h foo") (.other (.invalidInput (.text (b! "foo")))) := by
  have hn : ¬ ∃ len t, SpanUnit (documentedOf false) (b! "foo") len t := by
    rintro ⟨len, t, w, h1, ids, h2, h3⟩
    obtain ⟨rfl, rfl⟩ := split_unique h1 (split_self (by decide))
    exact absurd h3 ((by decide : ∀ p ∈ documentedOf false, b! "foo" ∉ p.1) _ h2)
  have h1 : Split IsDigit (b! "1h foo") (b! "1") (b! "h foo") := ⟨rfl, by decide, by rw [startsWith_cons]; decide⟩
  have h2 : SpanUnit (documentedOf false) (b! "h foo") 3600000000000 (b! " foo") :=
    ⟨b! "h", ⟨rfl, by decide, by rw [startsWith_cons]; decide⟩, ⟨[b! "hours", b! "hour", b! "hr", b! "h"], by decide, by decide⟩⟩
  have h3 : Spaces (b! " foo") (b! "foo") := ⟨b! " ", ⟨rfl, by decide, by rw [startsWith_cons]; decide⟩⟩
  have h4 : Spaces (b! "h foo") (b! "h foo") := ⟨[], split_nil (by rw [startsWith_cons]; decide)⟩
  refine .later (neg := false) (.absent (by rw [startsWith_cons]; unfold SignByte; decide))
    (.numberUnit (.whole h1 (by decide) (by rw [startsWith_cons]; decide)) (by rw [startsWith_cons]; unfold ExponentLetter; decide) h4 h2 h3)
    (by intro h; cases h) (by decide) ?_
  exact .span (.absent (by rw [startsWith_cons]; unfold SignByte; decide))
    (.noUnit (by decide) (by rw [startsWith_cons]; decide) (by rw [startsWith_cons]; decide) hn)

/-- the parsers reject `2min -1s` and `1 1e3`, for the reasons of `Spec/SystemdSpans` -/
example : SpansMistake (documentedOf true) 1 (b! "2min -1s") (.other .negativeNumber) ∧
    SpansMistake (documentedOf true) 1 (b! "1 1e3") (.syntax (b! "e3") .noExponentAllowed) := by
  constructor
  · obtain ⟨-, f, h1, h2⟩ := (C92_error true .nanoSecond (b! "ns") 1 (by decide) (b! "2min -1s") (b! "2min -1s") (isText_ascii (by decide))
      ⟨[], [], rfl, by decide, by decide, by decide, by decide⟩ ⟨false, ⟨10000, 0⟩⟩ rfl .negativeNumber).1 (by decide +kernel)
    cases f with
    | other e => cases h2; exact h1
    | «syntax» r e => cases h2
    | timeUnit => cases h2
  · have h1 : Split IsDigit (b! "1 1e3") (b! "1") (b! " 1e3") := ⟨rfl, by decide, by rw [startsWith_cons]; decide⟩
    have h2 : Split IsDigit (b! "1e3") (b! "1") (b! "e3") := ⟨rfl, by decide, by rw [startsWith_cons]; decide⟩
    have h3 : Spaces (b! " 1e3") (b! "1e3") := ⟨b! " ", ⟨rfl, by decide, by rw [startsWith_cons]; decide⟩⟩
    refine .later (neg := false) (.absent (by rw [startsWith_cons]; unfold SignByte; decide))
      (.number (.whole h1 (by decide) (by rw [startsWith_cons]; decide)) (by rw [startsWith_cons]; unfold ExponentLetter; decide) h3 ?_)
      (by intro h; cases h) (by decide)
      (.span (.absent (by rw [startsWith_cons]; unfold SignByte; decide))
        (.exponent (.whole h2 (by decide) (by rw [startsWith_cons]; decide)) (by rw [startsWith_cons]; unfold ExponentLetter; decide)))
    rintro ⟨l, t, w, k1, k2⟩
    obtain ⟨rfl, rfl⟩ := split_unique k1 (split_nil (by rw [startsWith_cons]; decide))
    exact unitIn_ne k2 rfl

end Fundu.Props
