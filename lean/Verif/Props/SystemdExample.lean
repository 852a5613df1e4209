import Verif.Props.Alphabet
import Verif.Props.Ends
import Verif.Props.Local
import Verif.Props.Examples
import Verif.Props.ExactResults
import Verif.Props.Concat
import Verif.Proofs.Numbered
/-! # C107: the parser of the example systemd.rs agrees with fundu-systemd -/
namespace Fundu.Props
open Fundu Spec

theorem systemdExample_units : Examples.Systemd.parser.timeUnits = CustomTimeUnits.withTimeUnits SYSTEMD_TIME_UNITS := by decide +kernel

/-- C107, the words: the example knows the documented time units of `parse_nanos`, except the microseconds written with the Greek letter
mu (U+03BC), and no others. -/
theorem C107_table (id : Bytes) :
    Examples.Systemd.parser.timeUnits.like.get id = if id = b! "\u03bcs" then none else (tableOf true).get id := by
  have known : ∀ r ∈ SYSTEMD_TIME_UNITS, ∀ id ∈ r.identifiers, id ≠ [] ∧ id ≠ b! "\u03bcs" ∧ (tableOf true).get id = some (r.baseUnit, r.multiplier) := by
    decide +kernel
  have once : ∀ r ∈ SYSTEMD_TIME_UNITS, ∀ r' ∈ SYSTEMD_TIME_UNITS, ∀ id ∈ r.identifiers, id ∈ r'.identifiers →
      r'.baseUnit = r.baseUnit ∧ r'.multiplier = r.multiplier := by decide +kernel
  have all : ∀ id ∈ idsOf (documentedOf true), id = b! "\u03bcs" ∨ ∃ r ∈ SYSTEMD_TIME_UNITS, id ∈ r.identifiers := by decide +kernel
  rw [systemdExample_units]
  by_cases h : ∃ r ∈ SYSTEMD_TIME_UNITS, id ∈ r.identifiers
  · obtain ⟨r, hr, hid⟩ := h
    obtain ⟨h1, h2, h3⟩ := known r hr id hid
    rw [if_neg h2, h3]
    exact C36_unique _ id r hr hid h1 fun r' hr' hid' => once r hr r' hr' id hid hid'
  · have e : (CustomTimeUnits.withTimeUnits SYSTEMD_TIME_UNITS).like.get id = none := by
      cases g : (CustomTimeUnits.withTimeUnits SYSTEMD_TIME_UNITS).like.get id with
      | none => rfl
      | some x =>
        obtain ⟨r, hr, -, -, hid⟩ := C36_sound _ id x.1 x.2 g
        exact absurd ⟨r, hr, hid⟩ h
    rw [e]
    by_cases hi : id = b! "\u03bcs"
    · rw [if_pos hi]
    · rw [if_neg hi]
      cases g : (tableOf true).get id with
      | none => rfl
      | some x => exact absurd ((all id (systemd_get_mem g)).resolve_left hi) h

theorem systemdExample_plain {id : Bytes} {u : TimeUnit × Multiplier} (h : Examples.Systemd.parser.timeUnits.like.get id = some u) :
    ∀ b ∈ id, ¬ PosixSpace b := by
  rw [systemdExample_units] at h
  obtain ⟨r, hr, -, -, hid⟩ := C36_sound _ id u.1 u.2 h
  exact (by decide +kernel : ∀ r ∈ SYSTEMD_TIME_UNITS, ∀ id ∈ r.identifiers, ∀ b ∈ id, ¬ PosixSpace b) r hr id hid

/-- the configuration of the example, with all of POSIX white space -/
def spacedConfig : Config :=
  { Examples.Systemd.parser.config with innerDelimiter := Systemd.DELIMITER, outerDelimiter := Systemd.DELIMITER }

/-- C107: what the example accepts is accepted by `parse_nanos` of fundu-systemd, with the same duration or the maximum. -/
theorem C107_agree (s : Bytes) (hs : IsText s) (d : Duration) (h : Examples.Systemd.parser.parse s = .ok d)
    (max : Duration) (hm : max.isNegative = false) :
    Systemd.TimeSpanParser.new.parseNanosWithMax s max = .ok (Systemd.minDuration d max) := by
  rw [exampleSystemd_parse] at h
  have hal := C105_alphabet _ _ none none s d hs exampleSystemd_text (Or.inr (Or.inl ⟨rfl, rfl⟩)) h
  have hsp : ∀ b ∈ s, PosixSpace b → Examples.Systemd.delimiter b = true := by
    intro b hb hp
    have nope : ∀ b, PosixSpace b → ¬ IsDigit b ∧ ¬ (b = 43 ∨ b = 45) ∧ b ≠ 46 := by
      rintro b (rfl | rfl | rfl | rfl | rfl | rfl) <;> decide
    cases hal b hb with
    | digit h => exact absurd h (nope b hp).1
    | sign h => exact absurd h (nope b hp).2.1
    | point _ h => exact absurd h (nope b hp).2.2
    | exponent h => cases h
    | infinity h => cases h
    | ago h => cases h
    | inner _ h => exact h
    | outer _ h => exact h
    | conjunction _ h => cases h
    | unit h hb => exact absurd hp (systemdExample_plain h b hb)
    | keyword h => cases h
    | numeral h => cases h
  have htrim : Trimmed s s := by
    have key : ∀ b, PosixSpace b → ¬ (s.head? = some b ∨ s.getLast? = some b) := by
      intro b hp he
      refine C106_delimiters _ _ none none b ?_ ?_ exampleSystemd_text (Or.inr (Or.inl ⟨rfl, rfl⟩)) s hs he d h
      · rcases hp with rfl | rfl | rfl | rfl | rfl | rfl <;> decide
      · rintro id (⟨u, hu⟩ | ⟨k, u, hk, -⟩ | ⟨n, q, hn, -⟩)
        · exact ⟨fun g => systemdExample_plain hu b (List.mem_of_head? g) hp, fun g => systemdExample_plain hu b (List.mem_of_getLast? g) hp⟩
        · cases hk
        · cases hn
    exact ⟨[], [], by simp, (fun b hb => by cases hb), (fun b hb => by cases hb), fun b hb hp => key b hp (Or.inl hb),
      fun b hb hp => key b hp (Or.inr hb)⟩
  have hdelim : ∀ b ∈ s, Systemd.DELIMITER b = Examples.Systemd.delimiter b := by
    intro b hb
    rw [Bool.eq_iff_iff, systemd_delimiter]
    exact ⟨hsp b hb, exampleSystemd_space b⟩
  have h1 : parse spacedConfig Examples.Systemd.parser.timeUnits.like none none s = .ok d := by
    rw [← h]
    exact C104_bytes (sameOptions_delimiters hdelim hdelim) (fun _ _ => rfl) rfl (fun _ _ => rfl) rfl (fun _ _ => rfl) rfl
  have ho := systemd_orderly true .second
  have ascii : AsciiDelimiter Systemd.DELIMITER := by
    intro b h
    rcases (systemd_delimiter b).1 h with rfl | rfl | rfl | rfl | rfl | rfl <;> decide
  have h2 : parse Systemd.CONFIG (tableOf true) none none s = .ok d := by
    refine C86_multiple_exact spacedConfig Systemd.CONFIG _ (tableOf true) none none none none s d hs ?_ rfl ?_ ?_ ?_ ?_ ?_ ?_ h1
    · exact ⟨ascii, ascii, fun ws h => by cases h⟩
    · exact ⟨rfl, rfl, rfl, rfl, rfl, (fun h => by cases h), (fun h => by cases h), (fun h => by cases h), id, (fun h => by cases h), id, id, id⟩
    · exact ⟨fun b h => h, Or.inl rfl, Or.inl rfl⟩
    · refine ⟨fun id u hu => ?_, (fun h => by cases h), fun h => absurd h (by decide +kernel)⟩
      rw [C107_table] at hu
      split at hu
      · cases hu
      · exact hu
    · intro k hk; cases hk
    · intro k hk; cases hk
    · exact ⟨ho.delimiters, ho.nonempty, ho.plain, ho.point, ho.inf, ho.ago, ho.unitsKeywords, ho.unitsNumerals, ho.keywordsNumerals⟩
  obtain ⟨m, g1, g2, g3⟩ := parseMax_eq true Systemd.TimeSpanParser.new s max hm hs
  obtain rfl := trimmed_unique g1 htrim
  have hi : m ≠ b! "infinity" := by
    rintro rfl
    revert h
    rw [← exampleSystemd_parse]
    have : (Examples.Systemd.parser.parse (b! "infinity")).toOption = none := by decide +kernel
    intro h
    rw [h] at this
    cases this
  rw [if_neg hi] at g3
  have g3 : Systemd.TimeSpanParser.new.parseNanosWithMax m max = _ := g3
  rw [g3, show Systemd.TimeSpanParser.new.config = Systemd.CONFIG from rfl, h2]
  rfl

/-- C107: in particular the function `parse_nanos` returns the same duration if it is not above the maximum. -/
theorem C107_same (s : Bytes) (hs : IsText s) (d : Duration) (h : Examples.Systemd.parser.parse s = .ok d)
    (hle : nanos d ≤ nanos Systemd.SYSTEMD_MAX_NANOS_DURATION) : Systemd.parseNanos s none none = .ok d := by
  show Systemd.TimeSpanParser.new.parseNanosWithMax s Systemd.SYSTEMD_MAX_NANOS_DURATION = _
  rw [C107_agree s hs d h _ rfl]
  have hw : d.WF := parse_wf hs exampleSystemd_text (by rw [exampleSystemd_parse] at h; exact h)
  unfold Systemd.minDuration
  rw [if_neg]
  rw [C01_cmp _ d (by decide) hw]
  intro h
  have := compare_lt_iff_lt.1 h
  omega

/-- the example accepts texts with several kinds of white space -/
example : Examples.Systemd.parser.parse (b! "1y 2 month\t 3.5weeks4days") = .ok ⟨false, ⟨39279600, 0⟩⟩ := by decide +kernel

/-- fundu-systemd accepts more: a time unit without a number, the Greek mu, and vertical tabs -/
theorem C107_more : (Examples.Systemd.parser.parse (b! "hour")).toOption = none ∧ (Systemd.parseNanos (b! "hour") none none).toOption ≠ none ∧
    (Examples.Systemd.parser.parse (b! "1\u03bcs")).toOption = none ∧ (Systemd.parseNanos (b! "1\u03bcs") none none).toOption ≠ none ∧
    (Examples.Systemd.parser.parse (b! "1h" ++ [11] ++ b! "2m")).toOption = none ∧
    (Systemd.parseNanos (b! "1h" ++ [11] ++ b! "2m") none none).toOption ≠ none := by decide +kernel

/-! ## The converse -/

theorem posixSpace_other {b : UInt8} (h : PosixSpace b) : ¬ IsDigit b ∧ b ≠ 43 ∧ b ≠ 45 ∧ b ≠ 46 := by
  rcases h with rfl | rfl | rfl | rfl | rfl | rfl <;> decide

theorem systemd_letters : ∀ id ∈ idsOf (documentedOf true), ∀ b ∈ id, ¬ IsDigit b ∧ b ≠ 43 ∧ b ≠ 45 ∧ b ≠ 46 ∧ ¬ PosixSpace b := by
  decide +kernel

theorem systemd_setup : Numbered.Setup Systemd.CONFIG (tableOf true) where
  same := rfl
  unitDelimiter := rfl
  signDelimiter := rfl
  ago := rfl
  infinity := rfl
  conjunctions := rfl
  empty := by decide +kernel
  delims b h := posixSpace_other ((systemd_delimiter b).1 h)
  words w u h b hb := by
    obtain ⟨h1, h2, h3, h4, h5⟩ := systemd_letters w (systemd_get_mem h) b hb
    exact ⟨h1, h2, h3, h4, fun h => h5 ((systemd_delimiter b).1 h)⟩

/-- C107, the converse: a text accepted by `parse_nanos` of fundu-systemd is accepted by the example, if it has no white space around it, each
word in it has a number in front, it is not the word infinity, and it contains neither the Greek mu nor vertical tabs and form feeds. The
duration is the same, or above the maximum. -/
theorem C107_converse (s : Bytes) (hs : IsText s) (ht : Trimmed s s) (hi : s ≠ b! "infinity") (hmu : ¬ OccursIn (b! "\u03bc") s)
    (hb : ∀ b ∈ s, b ≠ 11 ∧ b ≠ 12) (hn : NumberedWords PosixSpace s) (max d' : Duration) (hm : max.isNegative = false)
    (h : Systemd.TimeSpanParser.new.parseNanosWithMax s max = .ok d') :
    ∃ d, Examples.Systemd.parser.parse s = .ok d ∧ d' = Systemd.minDuration d max := by
  have main : ∃ d, Examples.Systemd.parser.parse s = .ok d := by
    obtain ⟨m, g1, g2, g3⟩ := parseMax_eq true Systemd.TimeSpanParser.new s max hm hs
    obtain rfl := trimmed_unique g1 ht
    rw [if_neg hi] at g3
    have g3 : Systemd.TimeSpanParser.new.parseNanosWithMax m max = _ := g3
    rw [h, show Systemd.TimeSpanParser.new.config = Systemd.CONFIG from rfl] at g3
    have h1 : ∃ d, parse Systemd.CONFIG (tableOf true) none none m = .ok d := by
      generalize parse Systemd.CONFIG (tableOf true) none none m = x at g3
      cases x with
      | ok d => exact ⟨d, rfl⟩
      | error e => cases g3
    obtain ⟨d, h1⟩ := h1
    have hd : ∀ b, Systemd.CONFIG.innerDelimiter b = true → Systemd.CONFIG.outerDelimiter b = true := fun _ h => h
    have hw : d.WF := parse_wf hs (systemd_cfgText .second) h1
    obtain ⟨ds, ⟨items, h2, h3⟩, h4⟩ := (C27_multiple Systemd.CONFIG (tableOf true) none none m (nanos d) hs (systemd_cfgText .second) rfl
      (Or.inl hd)).1 ⟨d, h1, hw, rfl⟩
    have hn' : NumberedWords (Systemd.CONFIG.innerDelimiter · = true) m := by
      rwa [show (fun b => Systemd.CONFIG.innerDelimiter b = true) = PosixSpace from funext fun b => propext (systemd_delimiter b)]
    have h5 := Numbered.durations systemd_setup hn' h2 [] rfl (Or.inl rfl)
    have h3' : List.Forall₂ (fun i d => Accepted (Numbered.strict Systemd.CONFIG) i.1 i.2 d) items ds := by
      refine h3.imp fun i d => ?_
      rintro ⟨h, g⟩
      refine ⟨?_, g⟩
      generalize i.2 = item at h ⊢
      cases h with
      | number h => exact .number h
      | numberUnit h g => exact .numberUnit h g
      | infinity h g => exact .infinity h g
      | word h g => exact .word h g
      | numeral h g k => exact .numeral h g k
    obtain ⟨d2, h6, -⟩ := (C27_multiple (Numbered.strict Systemd.CONFIG) (tableOf true) none none m (nanos d) hs
      ⟨(systemd_cfgText .second).inner, (systemd_cfgText .second).outer, (systemd_cfgText .second).conjunctions⟩ rfl (Or.inl hd)).2
      ⟨ds, ⟨items, h5, h3'⟩, h4⟩
    have hdelim : ∀ b ∈ m, Systemd.DELIMITER b = Examples.Systemd.delimiter b := by
      intro b hb'
      rw [Bool.eq_iff_iff, systemd_delimiter]
      refine ⟨?_, exampleSystemd_space b⟩
      obtain ⟨h1, h2⟩ := hb b hb'
      rintro (rfl | rfl | rfl | rfl | rfl | rfl) <;> first | rfl | contradiction
    refine ⟨d2, ?_⟩
    rw [exampleSystemd_parse, ← h6]
    refine C104_bytes (cfg := Numbered.strict Systemd.CONFIG) ?_ ?_ (by decide +kernel) (fun _ _ => rfl) rfl (fun _ _ => rfl) rfl
    · exact sameOptions_delimiters (cfg := Numbered.strict Systemd.CONFIG) (fun b hb => (hdelim b hb).symm) (fun b hb => (hdelim b hb).symm)
    · rintro w ⟨x, y, rfl⟩
      rw [C107_table, if_neg]
      rintro rfl
      exact hmu ⟨x, b! "s" ++ y, by simp⟩
  obtain ⟨d, hd⟩ := main
  refine ⟨d, hd, ?_⟩
  rw [C107_agree s hs d hd max hm] at h
  exact (Except.ok.inj h).symm

instance (b : UInt8) : Decidable (LetterByte PosixSpace b) := by unfold LetterByte; infer_instance

/-- a check of a text -/
theorem numbered_of {s : Bytes} (h : ∀ n < s.length, LetterByte PosixSpace (s.getD n 0) → (n = 0 ∨ ¬ LetterByte PosixSpace (s.getD (n - 1) 0)) →
    ((s.take n).reverse.dropWhile (fun b => decide (PosixSpace b))).head?.any (fun c => decide (IsDigit c ∨ c = 46)) = true) :
    NumberedWords PosixSpace s := by
  rintro pre b post rfl hb hp
  have h1 := h pre.length (by simp) (by simpa using hb) (by
    rcases List.eq_nil_or_concat pre with rfl | ⟨p, c, rfl⟩
    · exact Or.inl rfl
    · right
      have := hp p c (by simp)
      simpa using this)
  rw [List.take_left] at h1
  have h2 : pre.reverse.takeWhile (fun b => decide (PosixSpace b)) ++ pre.reverse.dropWhile (fun b => decide (PosixSpace b)) = pre.reverse :=
    List.takeWhile_append_dropWhile
  have h3 : ∀ x ∈ pre.reverse.takeWhile (fun b => decide (PosixSpace b)), PosixSpace x := fun x hx => by
    simpa using takeWhile_mem hx
  generalize pre.reverse.takeWhile (fun b => decide (PosixSpace b)) = sp at h2 h3
  generalize pre.reverse.dropWhile (fun b => decide (PosixSpace b)) = l at h1 h2
  cases l with
  | nil => cases h1
  | cons c l =>
    refine ⟨l.reverse, c, sp.reverse, ?_, by simpa using h1, by simpa using h3⟩
    rw [← List.reverse_reverse pre, ← h2]; simp

/-- a text with all four kinds of white space of the example -/
example : ∃ d, Examples.Systemd.parser.parse (b! "1 y 2.month	3
 weeks4") = .ok d ∧
    ⟨false, ⟨38631604, 0⟩⟩ = Systemd.minDuration d Systemd.SYSTEMD_MAX_NANOS_DURATION := by
  refine C107_converse _ (isText_ascii (by decide)) ⟨[], [], rfl, by decide, by decide, by decide, by decide⟩ (by decide) ?_ (by decide) ?_ _ _ rfl
    (by decide +kernel)
  · rintro ⟨x, y, h⟩
    have : (206 : UInt8) ∈ b! "1 y 2.month	3
 weeks4" := by rw [h]; simp
    exact absurd this (by decide)
  · exact numbered_of (by decide +kernel)

end Fundu.Props
