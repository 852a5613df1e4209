import Verif.Proofs.Pieces
import Verif.Props.SumSign
import Verif.Props.Respaced
import Verif.Props.Ends
import Verif.Props.GnuConcat
import Verif.Props.GnuExample
import Verif.Proofs.GnuPieces
/-! # C109: several durations are single durations, one after the other

The specification is `Verif/Spec/Pieces.lean`. -/
namespace Fundu.Props
open Fundu Fundu.Spec

theorem pieces_mono {cfg : Config} {P Q : Bytes → Duration → Prop} (h : ∀ p d, P p d → Q p d) {s : Bytes} {l : List Duration}
    (hp : Spec.Pieces cfg P s l) : Spec.Pieces cfg Q s l := by
  induction hp with
  | last h1 => exact .last (h _ _ h1)
  | more h1 h2 _ ih => exact .more (h _ _ h1) h2 ih

/-- C109: If a parser of several durations accepts a text, the text is made of texts with separators between them, each of which is accepted by
the parser with the same settings for single durations, and the result is the saturating sum of the results of this parser. -/
theorem C109_pieces (cfg : Config) (units : TimeUnitsLike) (keywords : Option TimeUnitsLike) (numerals : Option NumbersLike)
    (s : Bytes) (hs : IsText s) (hc : CfgText cfg) (hm : cfg.allowMultiple = true)
    (hd : (∀ b, cfg.innerDelimiter b = true → cfg.outerDelimiter b = true) ∨ (keywords = none ∧ numerals = none))
    (ho : Orderly cfg units keywords numerals) (d : Duration) (h : parse cfg units keywords numerals s = .ok d) :
    ∃ l, Spec.Pieces cfg (fun p e => parse { cfg with allowMultiple := false } units keywords numerals p = .ok e) s l ∧
      nanos d = saturatingSum (l.map nanos) ∧ (d.isNegative = true ↔ nanos d < 0) := by
  obtain ⟨l, ⟨items, h1, h2⟩, -, h3, h4⟩ := (C99_exact cfg units keywords numerals s d hs hc hm hd).1 h
  refine ⟨l, pieces_mono ?_ (Pieces.durations hc ho h1 hs h2), h3, h4⟩
  rintro p e ⟨g1, g2⟩
  exact (C27_single (Pieces.asSingle cfg) units keywords numerals p e g1 ⟨hc.inner, hc.outer, hc.conjunctions⟩ rfl).2 g2

/-- C109: If negative durations are not allowed, the result is the sum of the results of the parser of single durations, at most the
maximum. -/
theorem C109_nonnegative (cfg : Config) (units : TimeUnitsLike) (keywords : Option TimeUnitsLike) (numerals : Option NumbersLike)
    (s : Bytes) (hs : IsText s) (hc : CfgText cfg) (hm : cfg.allowMultiple = true) (hn : cfg.allowNegative = false)
    (hd : (∀ b, cfg.innerDelimiter b = true → cfg.outerDelimiter b = true) ∨ (keywords = none ∧ numerals = none))
    (ho : Orderly cfg units keywords numerals) (d : Duration) (h : parse cfg units keywords numerals s = .ok d) :
    ∃ l, Spec.Pieces cfg (fun p e => parse { cfg with allowMultiple := false } units keywords numerals p = .ok e) s l ∧
      nanos d = min maxNanos (l.map nanos).sum := by
  obtain ⟨l, ⟨items, h1, h2⟩, -, h3, h4⟩ := (C99_exact cfg units keywords numerals s d hs hc hm hd).1 h
  refine ⟨l, pieces_mono ?_ (Pieces.durations hc ho h1 hs h2), ?_⟩
  · rintro p e ⟨g1, g2⟩
    exact (C27_single (Pieces.asSingle cfg) units keywords numerals p e g1 ⟨hc.inner, hc.outer, hc.conjunctions⟩ rfl).2 g2
  · obtain ⟨d', k1, -, k2⟩ := C29_nonnegative cfg units keywords numerals s hs hc hm hd l ⟨items, h1, h2⟩ hn
    rw [h] at k1
    cases k1
    exact k2

/-- C109 for `DurationParser` with any time units and all settings except the delimiters, which are white space -/
theorem C109_standard (us : List TimeUnit) (cfg : Config) (hc : CfgText cfg) (hi : cfg.innerDelimiter = isAsciiWhitespace)
    (ho : cfg.outerDelimiter = isAsciiWhitespace) (hm : cfg.allowMultiple = true) (s : Bytes) (hs : IsText s) (d : Duration)
    (h : ({ DurationParser.withTimeUnits us with config := cfg } : DurationParser).parse s = .ok d) :
    ∃ l, Spec.Pieces cfg
        (fun p e => ({ DurationParser.withTimeUnits us with config := { cfg with allowMultiple := false } } : DurationParser).parse p = .ok e) s l ∧
      nanos d = saturatingSum (l.map nanos) ∧ (d.isNegative = true ↔ nanos d < 0) :=
  C109_pieces cfg _ none none s hs hc hm (Or.inr ⟨rfl, rfl⟩) (standard_orderly cfg us (whitespace_delimiters cfg hi ho)) d h

theorem orderly_single {cfg : Config} {units : TimeUnitsLike} {keywords : Option TimeUnitsLike} {numerals : Option NumbersLike}
    (ho : Orderly cfg units keywords numerals) : Orderly (Pieces.asSingle cfg) units keywords numerals :=
  ⟨ho.delimiters, ho.nonempty, ho.plain, ho.point, ho.inf, ho.ago, ho.unitsKeywords, ho.unitsNumerals, ho.keywordsNumerals⟩

theorem cfgText_single {cfg : Config} (hc : CfgText cfg) : CfgText (Pieces.asSingle cfg) := ⟨hc.inner, hc.outer, hc.conjunctions⟩

/-! ## fundu-systemd -/

theorem pieces_map {cfg : Config} {P Q : Bytes → Duration → Prop} (h : ∀ p d, P p d → ∃ e, Q p e ∧ nanos e = nanos d) {s : Bytes}
    {l : List Duration} (hp : Spec.Pieces cfg P s l) : ∃ l', Spec.Pieces cfg Q s l' ∧ l'.map nanos = l.map nanos := by
  induction hp with
  | last h1 =>
    obtain ⟨e, g1, g2⟩ := h _ _ h1
    exact ⟨[e], .last g1, by rw [List.map_singleton, List.map_singleton, g2]⟩
  | more h1 h2 _ ih =>
    obtain ⟨e, g1, g2⟩ := h _ _ h1
    obtain ⟨l', g3, g4⟩ := ih
    exact ⟨e :: l', .more g1 h2 g3, by rw [List.map_cons, List.map_cons, g2, g4]⟩

/-- C109 for fundu-systemd, with and without nano seconds, for every default unit: every accepted text (except `infinity`) is made of time spans with
one number or unit each, white space between them or none, which are accepted on their own, and the result is the sum of their results, but at most the
maximum. -/
theorem C109_systemd (nanos' : Bool) (u : TimeUnit) (s m : Bytes) (hs : IsText s) (hm' : Trimmed s m) (hi : m ≠ b! "infinity")
    (max : Duration) (hw : max.WF) (hm : max.isNegative = false) (d : Duration)
    (h : parseMax nanos' (Systemd.TimeSpanParser.withDefaultUnit u) s max = .ok d) :
    ∃ l, Spec.Pieces (Systemd.TimeSpanParser.withDefaultUnit u).config
        (fun p e => parseMax nanos' (Systemd.TimeSpanParser.withDefaultUnit u) p Duration.MAX = .ok e ∧
          ∃ e', parse { (Systemd.TimeSpanParser.withDefaultUnit u).config with allowMultiple := false } (tableOf nanos') none none p = .ok e') m l ∧
      nanos d = min (nanos max) (l.map nanos).sum := by
  obtain ⟨ds, ⟨items, h1, h2⟩, h3⟩ := (C38_value nanos' u s m hs hm' hi max hw hm (nanos d)).1 ⟨d, h, rfl⟩
  obtain ⟨m1, q1, q2, -⟩ := parseMax_eq nanos' (Systemd.TimeSpanParser.withDefaultUnit u) s max hm hs
  obtain rfl := trimmed_unique q1 hm'
  have hp := Pieces.durations (systemd_cfgText u) (systemd_orderly nanos' u) h1 q2 h2
  have key : ∀ p e, IsText p ∧ DenotesSingle (Pieces.asSingle (Systemd.TimeSpanParser.withDefaultUnit u).config) (tableOf nanos') none none p e →
      ∃ e1, (parseMax nanos' (Systemd.TimeSpanParser.withDefaultUnit u) p Duration.MAX = .ok e1 ∧
        ∃ e', parse { (Systemd.TimeSpanParser.withDefaultUnit u).config with allowMultiple := false } (tableOf nanos') none none p = .ok e') ∧
        nanos e1 = nanos e := by
    rintro p e ⟨g1, g2⟩
    have hsingle := (C27_single (Pieces.asSingle (Systemd.TimeSpanParser.withDefaultUnit u).config) (tableOf nanos') none none p e g1
      (cfgText_single (systemd_cfgText u)) rfl).2 g2
    have hmult : DenotesMultiple (Systemd.TimeSpanParser.withDefaultUnit u).config (tableOf nanos') none none p [e] :=
      denotesMultiple_of_single (cfg := Pieces.asSingle (Systemd.TimeSpanParser.withDefaultUnit u).config) (fun b hb => hb)
        (orderly_single (systemd_orderly nanos' u)) none g2
    have hwf : e.WF := parse_wf g1 (cfgText_single (systemd_cfgText u)) hsingle
    obtain ⟨e2, x1, x2, x3⟩ := (C27_multiple (Systemd.TimeSpanParser.withDefaultUnit u).config (tableOf nanos') none none p _ g1 (systemd_cfgText u) rfl
      (Or.inr ⟨rfl, rfl⟩)).2 ⟨[e], hmult, rfl⟩
    have hends : ∀ b, PosixSpace b → ¬ (p.head? = some b ∨ p.getLast? = some b) := by
      intro b hb he
      refine C106_delimiters (Systemd.TimeSpanParser.withDefaultUnit u).config (tableOf nanos') none none b ?_ ?_ (systemd_cfgText u)
        (Or.inr (Or.inl ⟨rfl, rfl⟩)) p g1 he e2 x1
      · have key : ∀ n < 256, PosixSpace (UInt8.ofNat n) → ¬ IsDigit (UInt8.ofNat n) ∧ ¬ IsLetter (UInt8.ofNat n) ∧ UInt8.ofNat n ≠ 43 ∧
            UInt8.ofNat n ≠ 45 ∧ UInt8.ofNat n ≠ 46 := by unfold PosixSpace IsLetter IsDigit; decide +kernel
        have := key b.toNat b.toNat_lt
        rw [UInt8.ofNat_toNat] at this
        exact this hb
      · intro id hid
        have hpl := (systemd_orderly nanos' u).plain id hid
        have hbd : IsDelimiter (Systemd.TimeSpanParser.withDefaultUnit u).config b := Or.inl ((systemd_delimiter b).2 hb)
        exact ⟨fun g => (hpl b (List.mem_of_head? g)).1 hbd, fun g => (hpl b (List.mem_of_getLast? g)).1 hbd⟩
    have hinf : p ≠ b! "infinity" := by
      rintro rfl
      have : ∀ e, parse (Systemd.TimeSpanParser.withDefaultUnit u).config (tableOf nanos') none none (b! "infinity") ≠ .ok e := by
        have : (parse (Systemd.TimeSpanParser.withDefaultUnit u).config (tableOf nanos') none none (b! "infinity")).toBool = false := by
          cases u <;> cases nanos' <;> decide +kernel
        intro e he
        rw [he] at this
        cases this
      exact this _ x1
    obtain ⟨e3, y1, y2⟩ := (C38_value nanos' u p p g1 ⟨[], [], by simp, by simp, by simp, fun b hb hs => hends b hs (Or.inl hb),
      fun b hb hs => hends b hs (Or.inr hb)⟩ hinf Duration.MAX (by decide) rfl _).2 ⟨[e], hmult, rfl⟩
    refine ⟨e3, ⟨y1, e, hsingle⟩, ?_⟩
    rw [y2]
    have hr := (nanos_representable e hwf).2
    have hmx : nanos Duration.MAX = maxNanos := by decide
    simp only [List.map_cons, List.map_nil, List.sum_cons, List.sum_nil, Int.add_zero]
    omega
  obtain ⟨l, k1, k2⟩ := pieces_map key hp
  exact ⟨l, k1, by rw [k2, h3]⟩

/-! ## fundu-gnu -/

theorem gnuPieces_mono {P Q : Bytes → GnuPart → Prop} (h : ∀ p d, P p d → Q p d) {s : Bytes} {l : List GnuPart}
    (hp : Spec.GnuPieces P s l) : Spec.GnuPieces Q s l := by
  induction hp with
  | last h1 => exact .last (h _ _ h1)
  | more h1 h2 _ ih => exact .more (h _ _ h1) h2 ih

/-- C109 for fundu-gnu: every relative time is made of relative times of one part each, which are accepted on their own, and the result is the
saturating sum of their results from left to right. -/
theorem C109_gnu (s : Bytes) (hs : IsText s) (y mo : Int) (d : Duration) (h : Gnu.parseFuzzy s = .ok (y, mo, d)) :
    ∃ m l, Trimmed s m ∧ gnuTotal l = ⟨y, mo, nanos d⟩ ∧
      Spec.GnuPieces (fun p part => RelativeTime p [part] ∧
        ∃ e, Gnu.parseFuzzy p = .ok (part.total.years, part.total.months, e) ∧ nanos e = part.total.nanoseconds) m l := by
  have hw : d.WF := by
    rcases parseFuzzy_result s hs with ⟨t, l, d', g1, g2, g3, g4, g5⟩ | ⟨g1, e, g2, -⟩
    · rw [g5] at h; cases h; exact g3
    · rw [g2] at h; cases h
  obtain ⟨m, l, h1, h2, h3⟩ := (C60_parse_fuzzy s hs y mo (nanos d)).1 ⟨d, h, hw, rfl⟩
  obtain ⟨m1, q1, q2, q3⟩ := C39_trim s hs
  obtain rfl := trimmed_unique ((q3 m1).2 rfl) h1
  refine ⟨m1, l, h1, h3, gnuPieces_mono ?_ (GnuPieces.relative h2 q2)⟩
  rintro p part ⟨g1, g2⟩
  refine ⟨g2, ?_⟩
  obtain ⟨e, k1, -, k2⟩ := (C60_parse_fuzzy p g1 (gnuTotal [part]).years (gnuTotal [part]).months (gnuTotal [part]).nanoseconds).2 ⟨p, [part], relative_trimmed g2, g2, rfl⟩
  have : gnuTotal [part] = part.total := by
    cases g2 with
    | last _ g => exact GnuPieces.total_part g
    | more _ _ g => exact absurd g (by intro g; cases g)
  rw [this] at k1 k2
  exact ⟨e, k1, k2⟩

/-! ## Concrete cases -/

instance (cfg : Config) (b : UInt8) : Decidable (IsDelimiter cfg b) := by unfold IsDelimiter; infer_instance

def piecesParser (multiple : Bool) : DurationParser :=
  { DurationParser.new with config := { allowMultiple := multiple, conjunctions := some [b! "and"], allowNegative := true } }

/-- `1h 2m and -3s+4` is made of `1h`, `2m`, `-3s` and `+4`. -/
example : (piecesParser true).parse (b! "1h 2m AND -3s+4") = .ok ⟨false, ⟨3721, 0⟩⟩ ∧
    Spec.Pieces (piecesParser true).config (fun p e => (piecesParser false).parse p = .ok e) (b! "1h 2m AND -3s+4")
      [⟨false, ⟨3600, 0⟩⟩, ⟨false, ⟨120, 0⟩⟩, ⟨true, ⟨3, 0⟩⟩, ⟨false, ⟨4, 0⟩⟩] := by
  refine ⟨by decide +kernel, ?_⟩
  refine .more (p := b! "1h") (sep := b! " ") (by decide +kernel) (.delims (by decide)) ?_
  refine .more (p := b! "2m") (sep := b! " AND ") (s := b! "-3s+4") (by decide +kernel)
    (.conjunction (ds := b! " ") (x := b! "AND") (ds' := b! " ") (w := b! "and") (by decide) (by decide) (by decide) (by decide) (by decide)) ?_
  refine .more (p := b! "-3s") (sep := []) (by decide +kernel) (.delims (by decide)) ?_
  exact .last (by decide +kernel)

example : ∃ l, Spec.Pieces (piecesParser true).config (fun p e => (piecesParser false).parse p = .ok e) (b! "1h 2m AND -3s+4") l ∧
    nanos ⟨false, ⟨3721, 0⟩⟩ = saturatingSum (l.map nanos) ∧ ((false : Bool) = true ↔ nanos ⟨false, ⟨3721, 0⟩⟩ < 0) :=
  C109_standard [.nanoSecond, .microSecond, .milliSecond, .second, .minute, .hour, .day, .week] (piecesParser true).config
    ⟨defaultConfig_text.inner, defaultConfig_text.outer, by rintro ws h w hw; cases h; cases List.mem_singleton.1 hw; exact isText_ascii (by decide)⟩
    rfl rfl rfl _ (isText_ascii (by decide)) ⟨false, ⟨3721, 0⟩⟩ (by decide +kernel)

def unitsParser (multiple : Bool) : DurationParser :=
  { DurationParser.new with config := { allowMultiple := multiple, allowTimeUnitDelimiter := true, numberIsOptional := true } }

/-- the theorem for fundu-systemd applied to a text of three time spans -/
example : ∃ l, Spec.Pieces (Systemd.TimeSpanParser.withDefaultUnit .second).config
    (fun p e => parseMax false (Systemd.TimeSpanParser.withDefaultUnit .second) p Duration.MAX = .ok e ∧
      ∃ e', parse { (Systemd.TimeSpanParser.withDefaultUnit .second).config with allowMultiple := false } (tableOf false) none none p = .ok e')
      (b! "2h 3min4") l ∧ nanos ⟨false, ⟨7384, 0⟩⟩ = min (nanos Duration.MAX) (l.map nanos).sum :=
  C109_systemd false .second (b! " 2h 3min4") (b! "2h 3min4") (isText_ascii (by decide))
    ⟨b! " ", [], rfl, by decide, by decide, by decide, by decide⟩ (by decide) Duration.MAX (by decide) rfl ⟨false, ⟨7384, 0⟩⟩ (by decide +kernel)

/-- the theorem for fundu-gnu applied to a text of three relative times -/
example : ∃ m l, Trimmed (b! "1 week ago+2months tomorrow") m ∧ gnuTotal l = ⟨0, 2, nanos ⟨true, ⟨518400, 0⟩⟩⟩ ∧
    Spec.GnuPieces (fun p part => RelativeTime p [part] ∧
      ∃ e, Gnu.parseFuzzy p = .ok (part.total.years, part.total.months, e) ∧ nanos e = part.total.nanoseconds) m l :=
  C109_gnu (b! "1 week ago+2months tomorrow") (isText_ascii (by decide)) 0 2 ⟨true, ⟨518400, 0⟩⟩ (by decide +kernel)

/-- The parts of a text are not just any texts: with optional numbers `1` and `m` are texts of their own, but `1 m` is one minute. -/
example : (unitsParser false).parse (b! "1") = .ok ⟨false, ⟨1, 0⟩⟩ ∧ (unitsParser false).parse (b! "m") = .ok ⟨false, ⟨60, 0⟩⟩ ∧
    (unitsParser true).parse (b! "1 m") = .ok ⟨false, ⟨60, 0⟩⟩ := by decide +kernel

end Fundu.Props
