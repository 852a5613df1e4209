import Verif.Proofs.Bare
import Verif.Props.SumSign
import Verif.Props.OutOfRange
import Verif.Props.Gate
import Verif.Props.SystemdExample
import Verif.Proofs.LaterMistakes
/-!
# Property C117: `number_is_optional` matters only for time units without a number

For a text without a time unit where a number has to be a parser gives the same result with and without
`number_is_optional`: the same duration, the same error.
-/
namespace Fundu.Props
open Fundu Fundu.Spec

variable (cfg : Config) (v : Bool) (units : TimeUnitsLike) (keywords : Option TimeUnitsLike) (numerals : Option NumbersLike)

/-- C117: a single duration which is not a time unit without a number -/
theorem C117_single (s : Bytes) (hs : IsText s) (hc : CfgText cfg) (hm : cfg.allowMultiple = false) (hb : ¬ BareSingle cfg units s) :
    parse { cfg with numberIsOptional := v } units keywords numerals s = parse cfg units keywords numerals s := by
  have hc' : CfgText { cfg with numberIsOptional := v } := ⟨hc.inner, hc.outer, hc.conjunctions⟩
  have here : ∀ {neg r}, SignPart cfg s neg r → WordStart cfg r → NoUnitSingle cfg units r := fun h hw =>
    Classical.byContradiction fun hn => hb ⟨_, _, h, hw, hn⟩
  cases h : parse cfg units keywords numerals s with
  | ok d =>
    obtain ⟨neg, r, item, h1, h2, h3⟩ := (C27_single cfg units keywords numerals s d hs hc hm).1 h
    exact (C27_single _ units keywords numerals s d hs hc' hm).2 ⟨neg, r, item, Bare.sign h1, Bare.single (here h1) h2, Bare.accepted h3⟩
  | error e =>
    cases e with
    | err e =>
      obtain ⟨f, hf, rfl⟩ := (C71_single cfg units keywords numerals s e hs hc hm).1 h
      refine (C71_single _ units keywords numerals s _ hs hc' hm).2 ⟨f, ?_, rfl⟩
      cases hf with
      | empty => exact .empty
      | sign h => exact .sign (Bare.signMistake h)
      | text h1 h => exact .text (Bare.sign h1) (Bare.singleMistake (here h1) h)
      | negative h1 h2 h3 h4 h5 => exact .negative (Bare.sign h1) (Bare.single (here h1) h2) (Bare.denotes h3) h4 h5
    | panic p =>
      obtain rfl := C93_unwrap cfg units keywords numerals s hs hc p h
      obtain ⟨neg, r, item, h1, h2, h3⟩ := (C93_single cfg units keywords numerals s hs hc hm).1 ⟨_, h⟩
      obtain ⟨p, g⟩ := (C93_single { cfg with numberIsOptional := v } units keywords numerals s hs hc' hm).2
        ⟨neg, r, item, Bare.sign h1, Bare.single (here h1) h2, h3⟩
      obtain rfl := C93_unwrap _ units keywords numerals s hs hc' p g
      exact g

/-- C117: several durations, none of which is a time unit without a number -/
theorem C117_multiple (s : Bytes) (hs : IsText s) (hc : CfgText cfg) (hm : cfg.allowMultiple = true)
    (hd : (∀ b, cfg.innerDelimiter b = true → cfg.outerDelimiter b = true) ∨ (keywords = none ∧ numerals = none))
    (hb : ¬ BareMultiple { cfg with numberIsOptional := v } units keywords numerals s) :
    parse { cfg with numberIsOptional := v } units keywords numerals s = parse cfg units keywords numerals s := by
  have hc' : CfgText { cfg with numberIsOptional := v } := ⟨hc.inner, hc.outer, hc.conjunctions⟩
  cases h : parse cfg units keywords numerals s with
  | ok d =>
    obtain ⟨ds, ⟨items, h1, h2⟩, h3⟩ := (C99_exact cfg units keywords numerals s d hs hc hm hd).1 h
    exact (C99_exact _ units keywords numerals s d hs hc' hm hd).2
      ⟨ds, ⟨items, Bare.durations h1 hb, h2.imp fun _ _ h => Bare.accepted h⟩, h3⟩
  | error e =>
    cases e with
    | err e =>
      obtain ⟨f, hf, rfl⟩ := (C71_multiple cfg units keywords numerals s e hs hc hm hd).1 h
      exact (C71_multiple _ units keywords numerals s _ hs hc' hm hd).2 ⟨f, Bare.first hf hb, rfl⟩
    | panic p =>
      obtain rfl := C93_unwrap cfg units keywords numerals s hs hc p h
      obtain ⟨p, g⟩ := (C93_multiple { cfg with numberIsOptional := v } units keywords numerals s hs hc' hm hd).2
        (Bare.outOfRange ((C93_multiple cfg units keywords numerals s hs hc hm hd).1 ⟨_, h⟩) hb)
      obtain rfl := C93_unwrap _ units keywords numerals s hs hc' p g
      exact g

/-- C117: a single duration which starts with a digit or a point, possibly after a sign -/
theorem C117_number (s sg l : Bytes) (b : UInt8) (hs : IsText s) (hc : CfgText cfg) (hm : cfg.allowMultiple = false)
    (hd : ∀ b, cfg.innerDelimiter b = true → ¬ (IsDigit b ∨ b = 46))
    (he : s = sg ++ b :: l) (hsg : sg = [] ∨ sg = [43] ∨ sg = [45]) (hb : IsDigit b ∨ b = 46) :
    parse { cfg with numberIsOptional := v } units keywords numerals s = parse cfg units keywords numerals s := by
  refine C117_single cfg v units keywords numerals s hs hc hm ?_
  rintro ⟨neg, r, h1, ⟨-, h2, h3, -⟩, -⟩
  have key : r = b :: l := by
    have skip : ∀ r, AfterDelims cfg.allowSignDelimiter cfg.innerDelimiter (b :: l) r → r = b :: l := by
      intro r h
      unfold AfterDelims at h
      split at h
      · obtain ⟨ds, g1, g2, -⟩ := h
        cases ds with
        | nil => exact g1.symm
        | cons x ds =>
          obtain ⟨rfl, -⟩ := List.cons.inj g1
          exact absurd hb (hd b (g2 b (by simp)))
      · exact h
    have hb' : ¬ (b = 43 ∨ b = 45) := by
      rintro (rfl | rfl) <;> exact absurd hb (by decide)
    rcases hsg with rfl | rfl | rfl
    · subst he
      cases h1 with
      | absent => rfl
      | plus => exact absurd (Or.inl rfl) hb'
      | minus => exact absurd (Or.inr rfl) hb'
    · subst he
      cases h1 with
      | absent _ h => exact absurd ⟨43, b :: l, rfl, Or.inl rfl⟩ h
      | plus h => exact skip r h
    · subst he
      cases h1 with
      | absent _ h => exact absurd ⟨45, b :: l, rfl, Or.inr rfl⟩ h
      | minus h => exact skip r h
  subst key
  rcases hb with hb | hb
  · exact h2 ⟨b, l, rfl, hb⟩
  · exact h3 ⟨b, l, rfl, hb⟩

theorem numbered_remains {cfg : Config} {units : TimeUnitsLike} (H : Numbered.Setup cfg units) {s r : Bytes}
    (hn : NumberedWords (cfg.innerDelimiter · = true) s) (h : Remains cfg units none none s r) :
    ∃ pre, s = pre ++ r ∧ Numbered.Good cfg units pre r := by
  induction h with
  | all => exact ⟨[], rfl, Or.inl rfl⟩
  | after _ h1 h2 h3 ih =>
    obtain ⟨pre, he, hg⟩ := ih
    obtain ⟨x, hx⟩ := Later.sign_part_suffix h1
    obtain ⟨-, pre', g1, g2⟩ := Numbered.multi H (pre := pre ++ x) (Numbered.not_bare H hn he hg h1) h2
    exact ⟨pre', by rw [he, ← hx, ← g1]; simp, g2 h3⟩

/-- C117: several durations in a text in which each word has a number in front, for parsers without keywords, numerals,
conjunctions, `ago` and infinity -/
theorem C117_numbered (s : Bytes) (hs : IsText s) (hc : CfgText cfg) (hm : cfg.allowMultiple = true)
    (hsame : cfg.outerDelimiter = cfg.innerDelimiter) (hud : cfg.allowTimeUnitDelimiter = true) (hsd : cfg.allowSignDelimiter = false)
    (hago : cfg.allowAgo = false) (hinf : cfg.disableInfinity = true) (hconj : cfg.conjunctions.getD [] = [])
    (hempty : units.isEmpty = false) (hdelims : ∀ b, cfg.innerDelimiter b = true → ¬ IsDigit b ∧ b ≠ 43 ∧ b ≠ 45 ∧ b ≠ 46)
    (hwords : ∀ w u, units.get w = some u → ∀ b ∈ w, LetterByte (cfg.innerDelimiter · = true) b)
    (hn : NumberedWords (cfg.innerDelimiter · = true) s) :
    parse { cfg with numberIsOptional := v } units none none s = parse cfg units none none s := by
  refine C117_multiple cfg v units none none s hs hc hm (Or.inr ⟨rfl, rfl⟩) ?_
  rintro ⟨r, neg, r', h1, h2, -, h3⟩
  have H : Numbered.Setup { cfg with numberIsOptional := v } units := ⟨hsame, hud, hsd, hago, hinf, hconj, hempty, hdelims, hwords⟩
  obtain ⟨pre, he, hg⟩ := numbered_remains H hn h1
  exact h3 (Numbered.not_bare H hn he hg h2)

/-- C117 for `DurationParser`: with single durations `number_is_optional` has no influence on texts which start with a digit or
a point, possibly after a sign. -/
theorem C117_standard (p : DurationParser) (s sg l : Bytes) (b : UInt8) (hs : IsText s) (hc : CfgText p.config)
    (hm : p.config.allowMultiple = false) (hd : ∀ b, p.config.innerDelimiter b = true → ¬ (IsDigit b ∨ b = 46))
    (he : s = sg ++ b :: l) (hsg : sg = [] ∨ sg = [43] ∨ sg = [45]) (hb : IsDigit b ∨ b = 46) :
    (p.numberIsOptional v).parse s = p.parse s :=
  C117_number p.config v _ none none s sg l b hs hc hm hd he hsg hb

/-! ## Examples -/

example : (DurationParser.withAllTimeUnits.numberIsOptional true).parse (b! "-.5x") = fail (.timeUnit 3 (.invalidTimeUnit (b! "x"))) :=
  (C117_standard true DurationParser.withAllTimeUnits _ [45] (b! "5x") 46 (isText_ascii (by decide)) defaultConfig_text rfl
    (by intro b h hb; revert h; rcases hb with hb | rfl
        · intro h
          have : isAsciiWhitespace b = true := h
          unfold isAsciiWhitespace at this
          simp only [Bool.or_eq_true, decide_eq_true_eq] at this
          rcases this with (((rfl | rfl) | rfl) | rfl) | rfl <;> exact absurd hb (by decide)
        · decide) rfl (Or.inr (Or.inr rfl)) (Or.inr rfl)).trans (by decide +kernel)

/-- the parser of fundu-systemd without `number_is_optional` -/
example : parse { Systemd.CONFIG with numberIsOptional := false } (tableOf true) none none (b! "1 y 2.month\t3\n weeks\r4") =
    .ok ⟨false, ⟨38631604, 0⟩⟩ := by
  refine (C117_numbered Systemd.CONFIG false (tableOf true) _ (isText_ascii (by decide)) (systemd_cfgText .second) rfl rfl rfl rfl rfl rfl rfl
    (by decide +kernel) systemd_setup.delims systemd_setup.words ?_).trans (by decide +kernel)
  rw [show (fun b => Systemd.CONFIG.innerDelimiter b = true) = PosixSpace from funext fun b => propext (systemd_delimiter b)]
  exact numbered_of (by decide +kernel)

/-- the condition is needed -/
theorem C117_condition_needed : (parse { Systemd.CONFIG with numberIsOptional := false } (tableOf true) none none (b! "1h minute")).toOption = none ∧
    parse Systemd.CONFIG (tableOf true) none none (b! "1h minute") = .ok ⟨false, ⟨3660, 0⟩⟩ ∧
    (DurationParser.withAllTimeUnits.parse (b! "s")).toOption = none ∧
    (DurationParser.withAllTimeUnits.numberIsOptional true).parse (b! "s") = .ok ⟨false, ⟨1, 0⟩⟩ := by decide +kernel

end Fundu.Props
