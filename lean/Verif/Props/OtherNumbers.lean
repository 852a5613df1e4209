import Verif.Props.Renumbered
import Verif.Proofs.OtherNumbers
/-! # C111: other numbers

The specification is `Verif/Spec/Renumbered.lean`. -/
namespace Fundu.Props
open Fundu Fundu.Spec

section
variable (cfg : Config) (units : TimeUnitsLike) (keywords : Option TimeUnitsLike) (numerals : Option NumbersLike)

theorem other_multi (hd : (∀ b, cfg.innerDelimiter b = true → cfg.outerDelimiter b = true) ∨ (keywords = none ∧ numerals = none) ∨
    cfg.allowMultiple = false) (hm : cfg.allowMultiple = true) :
    (∀ b, cfg.innerDelimiter b = true → cfg.outerDelimiter b = true) ∨ (keywords = none ∧ numerals = none) := by
  rcases hd with h | h | h
  · exact Or.inl h
  · exact Or.inr h
  · rw [hm] at h; cases h

/-- C111: a text in which some numbers of an accepted text are replaced by smaller ones is accepted too. If negative durations are not
allowed, then the duration is not longer. For a single duration, the magnitude is not greater, in any case. -/
theorem C111_smaller (s t : Bytes) (hs : IsText s) (ht : IsText t) (hc : CfgText cfg)
    (hd : (∀ b, cfg.innerDelimiter b = true → cfg.outerDelimiter b = true) ∨ (keywords = none ∧ numerals = none) ∨ cfg.allowMultiple = false)
    (ho : Orderly cfg units keywords numerals) (hn : NoPoints cfg units keywords numerals)
    (h : Renumbered (fun a b => b ≤ a) cfg true s t) (d : Duration) (hp : parse cfg units keywords numerals s = .ok d) :
    ∃ d', parse cfg units keywords numerals t = .ok d' ∧ (cfg.allowNegative = false → nanos d' ≤ nanos d) ∧
      (cfg.allowMultiple = false → |nanos d'| ≤ |nanos d|) := by
  cases hm : cfg.allowMultiple with
  | false =>
    rw [C27_single cfg units keywords numerals s d hs hc hm] at hp
    obtain ⟨d', h1, h2, h3⟩ := Renumbered.denotesSingle_rel ho hn (fun h ha => Renumbered.accepted_smaller h ha) hp h
    exact ⟨d', (C27_single cfg units keywords numerals t d' ht hc hm).2 h1, h3, fun _ => h2⟩
  | true =>
    have hd' := other_multi cfg keywords numerals hd hm
    obtain ⟨l, h1, -, h2, -⟩ := (C99_exact cfg units keywords numerals s d hs hc hm hd').1 hp
    obtain ⟨l', k1, k2⟩ := Renumbered.denotesMultiple_rel ho hn (fun h ha => Renumbered.accepted_smaller h ha) h1 h
    obtain ⟨d', q1, -, q2⟩ := (C27_multiple cfg units keywords numerals t _ ht hc hm hd').2 ⟨l', k1, rfl⟩
    refine ⟨d', q1, fun g => ?_, fun g => by cases g⟩
    rw [h2, q2]
    refine Renumbered.saturatingSum_mono ?_
    clear h1 h2 k1 q2 q1
    induction k2 with
    | nil => exact .nil
    | cons a _ ih => exact .cons (a.2 g) ih

/-- C111: if negative durations are allowed then the values of the numbers have no influence on whether a text is accepted. -/
theorem C111_accepted (s t : Bytes) (hs : IsText s) (ht : IsText t) (hc : CfgText cfg)
    (hd : (∀ b, cfg.innerDelimiter b = true → cfg.outerDelimiter b = true) ∨ (keywords = none ∧ numerals = none) ∨ cfg.allowMultiple = false)
    (ho : Orderly cfg units keywords numerals) (hn : NoPoints cfg units keywords numerals) (hneg : cfg.allowNegative = true)
    (h : Renumbered (fun _ _ => True) cfg true s t) :
    (∃ d, parse cfg units keywords numerals s = .ok d) ↔ ∃ d, parse cfg units keywords numerals t = .ok d := by
  have one : ∀ {s t : Bytes}, IsText s → IsText t → Renumbered (fun _ _ => True) cfg true s t →
      (∃ d, parse cfg units keywords numerals s = .ok d) → ∃ d, parse cfg units keywords numerals t = .ok d := by
    rintro s t hs ht h ⟨d, hp⟩
    cases hm : cfg.allowMultiple with
    | false =>
      rw [C27_single cfg units keywords numerals s d hs hc hm] at hp
      obtain ⟨d', h1, -⟩ := Renumbered.denotesSingle_rel ho hn (fun h ha => Renumbered.accepted_any hneg h ha) hp h
      exact ⟨d', (C27_single cfg units keywords numerals t d' ht hc hm).2 h1⟩
    | true =>
      have hd' := other_multi cfg keywords numerals hd hm
      obtain ⟨l, h1, -, h2, -⟩ := (C99_exact cfg units keywords numerals s d hs hc hm hd').1 hp
      obtain ⟨l', k1, k2⟩ := Renumbered.denotesMultiple_rel ho hn (fun h ha => Renumbered.accepted_any hneg h ha) h1 h
      obtain ⟨d', q1, -⟩ := (C27_multiple cfg units keywords numerals t _ ht hc hm hd').2 ⟨l', k1, rfl⟩
      exact ⟨d', q1⟩
  exact ⟨one hs ht h, one ht hs (Renumbered.symm h)⟩

end

/-! ## DurationParser -/

/-- C111 for `DurationParser` with any time units and all settings except the delimiters, which are white space -/
theorem C111_standard (us : List TimeUnit) (cfg : Config) (hc : CfgText cfg) (hi : cfg.innerDelimiter = isAsciiWhitespace)
    (ho : cfg.outerDelimiter = isAsciiWhitespace)
    (hj : ∀ w ∈ cfg.conjunctions.getD [], w ≠ [] ∧ ∀ b ∈ w, ¬ IsDelimiter cfg b ∧ ¬ NextDuration b ∧ b ≠ 46)
    (s t : Bytes) (hs : IsText s) (ht : IsText t) (h : Renumbered (fun a b => b ≤ a) cfg true s t) (d : Duration)
    (hp : ({ DurationParser.withTimeUnits us with config := cfg } : DurationParser).parse s = .ok d) :
    ∃ d', ({ DurationParser.withTimeUnits us with config := cfg } : DurationParser).parse t = .ok d' ∧
      (cfg.allowNegative = false → nanos d' ≤ nanos d) ∧ (cfg.allowMultiple = false → |nanos d'| ≤ |nanos d|) :=
  C111_smaller cfg _ none none s t hs ht hc (Or.inr (Or.inl ⟨rfl, rfl⟩)) (standard_orderly cfg us (whitespace_delimiters cfg hi ho))
    (standard_noPoints cfg us hj) h d hp

/-! ## fundu-systemd -/

theorem renumbered_infinity {R : ℚ → ℚ → Prop} {cfg : Config} {a b : Bytes} (h : Renumbered R cfg true a b) (e : a = b! "infinity") :
    b = b! "infinity" := by
  subst e
  have e : Renumbered R cfg true (b! "infinity" ++ []) b := by rw [List.append_nil]; exact h
  have hall : ∀ b ∈ b! "infinity", ¬ IsDigit b ∧ b ≠ 46 := by decide
  obtain ⟨r, f, e1, e2, -⟩ := Renumbered.append e hall
  rw [e1, Renumbered.nil e2, List.append_nil]

/-- C111 for fundu-systemd: smaller numbers are accepted too, and the time span is not longer. -/
theorem C111_systemd (nanos' : Bool) (u : TimeUnit) (s t m m' : Bytes) (hs : IsText s) (ht : IsText t) (max : Duration) (hw : max.WF)
    (hms : Trimmed s m) (hmt : Trimmed t m')
    (h : Renumbered (fun a b => b ≤ a) (Systemd.TimeSpanParser.withDefaultUnit u).config true m m') (d : Duration)
    (hp : parseMax nanos' (Systemd.TimeSpanParser.withDefaultUnit u) s max = .ok d) :
    ∃ d', parseMax nanos' (Systemd.TimeSpanParser.withDefaultUnit u) t max = .ok d' ∧ nanos d' ≤ nanos d := by
  cases hm : max.isNegative with
  | true =>
    rw [C38_negative_max nanos' _ s max hm] at hp
    cases hp
  | false =>
    obtain ⟨m1, h1, h2, h3⟩ := parseMax_eq nanos' (Systemd.TimeSpanParser.withDefaultUnit u) s max hm hs
    obtain ⟨m2, h1', h2', h3'⟩ := parseMax_eq nanos' (Systemd.TimeSpanParser.withDefaultUnit u) t max hm ht
    obtain rfl := trimmed_unique h1 hms
    obtain rfl := trimmed_unique h1' hmt
    rw [h3] at hp
    rw [h3']
    by_cases hi : m1 = b! "infinity"
    · rw [if_pos hi] at hp
      rw [if_pos (renumbered_infinity h hi)]
      exact ⟨d, hp, le_refl _⟩
    · rw [if_neg hi] at hp
      rw [if_neg fun g => hi (renumbered_infinity (Renumbered.symm h) g)]
      cases hx : parse (Systemd.TimeSpanParser.withDefaultUnit u).config (tableOf nanos') none none m1 with
      | error e => rw [hx] at hp; cases hp
      | ok a =>
        rw [hx] at hp
        obtain ⟨a', k1, k2, -⟩ := C111_smaller (Systemd.TimeSpanParser.withDefaultUnit u).config (tableOf nanos') none none m1 m2 h2 h2'
          (systemd_cfgText u) (Or.inr (Or.inl ⟨rfl, rfl⟩)) (systemd_orderly nanos' u) (systemd_noPoints nanos' u) h a hx
        have w : a.WF := parse_wf h2 (systemd_cfgText u) hx
        have w' : a'.WF := parse_wf h2' (systemd_cfgText u) k1
        rw [k1]
        refine ⟨_, rfl, ?_⟩
        cases hp
        show nanos (Systemd.minDuration a' max) ≤ nanos (Systemd.minDuration a max)
        rw [(minDuration_nanos w hw).1, (minDuration_nanos w' hw).1]
        have := k2 rfl
        omega

/-! ## fundu-gnu -/

/-- C111 for fundu-gnu: which digits the numbers of a relative time consist of has no influence on whether it is accepted. -/
theorem C111_gnu_accepted (s t m m' : Bytes) (hs : IsText s) (ht : IsText t) (hms : Trimmed s m) (hmt : Trimmed t m')
    (h : GnuRenumbered (fun _ _ => True) m m') : (∃ x, Gnu.parseFuzzy s = .ok x) ↔ ∃ x, Gnu.parseFuzzy t = .ok x := by
  have one : ∀ {s t m m' : Bytes}, IsText s → IsText t → Trimmed s m → Trimmed t m' → GnuRenumbered (fun _ _ => True) m m' →
      (∃ x, Gnu.parseFuzzy s = .ok x) → ∃ x, Gnu.parseFuzzy t = .ok x := by
    rintro s t m m' hs ht hms hmt h ⟨⟨y, mo, d⟩, hp⟩
    rcases parseFuzzy_result s hs with ⟨m1, l, d', h1, h2, -⟩ | ⟨-, e, h2, -⟩
    · obtain rfl := trimmed_unique h1 hms
      obtain ⟨l', k1, -⟩ := GnuRenumbered.gnu_relative h2 h
      obtain ⟨d, q, -⟩ := (C60_parse_fuzzy t ht _ _ _).2 ⟨m', l', hmt, k1, rfl⟩
      exact ⟨_, q⟩
    · rw [h2] at hp
      cases hp
  exact ⟨one hs ht hms hmt h, one ht hs hmt hms (GnuRenumbered.symm h)⟩

/-- no more of years, months and nanoseconds -/
theorem gnuTotal_mono {l l' : List GnuPart} (h : List.Forall₂ (fun p q => ∀ t t' : GnuTotal, t'.years ≤ t.years → t'.months ≤ t.months →
      t'.nanoseconds ≤ t.nanoseconds → (t'.add q).years ≤ (t.add p).years ∧ (t'.add q).months ≤ (t.add p).months ∧
      (t'.add q).nanoseconds ≤ (t.add p).nanoseconds) l l') :
    (gnuTotal l').years ≤ (gnuTotal l).years ∧ (gnuTotal l').months ≤ (gnuTotal l).months ∧
      (gnuTotal l').nanoseconds ≤ (gnuTotal l).nanoseconds := by
  have key : ∀ t t' : GnuTotal, t'.years ≤ t.years → t'.months ≤ t.months → t'.nanoseconds ≤ t.nanoseconds →
      (l'.foldl GnuTotal.add t').years ≤ (l.foldl GnuTotal.add t).years ∧ (l'.foldl GnuTotal.add t').months ≤ (l.foldl GnuTotal.add t).months ∧
        (l'.foldl GnuTotal.add t').nanoseconds ≤ (l.foldl GnuTotal.add t).nanoseconds := by
    induction h with
    | nil => exact fun t t' h1 h2 h3 => ⟨h1, h2, h3⟩
    | cons h _ ih =>
      intro t t' h1 h2 h3
      obtain ⟨g1, g2, g3⟩ := h t t' h1 h2 h3
      exact ih _ _ g1 g2 g3
  exact key _ _ (le_refl _) (le_refl _) (le_refl _)

theorem samePart_mono {s : Bytes} (ha : ¬ GnuRenumbered.AgoIn s) {p q : GnuPart} (h : GnuRenumbered.SamePart (fun a b => b ≤ a) false s p q)
    (t t' : GnuTotal) (h1 : t'.years ≤ t.years) (h2 : t'.months ≤ t.months) (h3 : t'.nanoseconds ≤ t.nanoseconds) :
    (t'.add q).years ≤ (t.add p).years ∧ (t'.add q).months ≤ (t.add p).months ∧ (t'.add q).nanoseconds ≤ (t.add p).nanoseconds := by
  have c64 : ∀ {a b : Int}, a ≤ b → clampI64 a ≤ clampI64 b := by
    intro a b h
    unfold clampI64
    omega
  cases h with
  | refl =>
    cases p with
    | exact x => exact ⟨h1, h2, Renumbered.clamp_mono (by omega)⟩
    | months x => exact ⟨h1, c64 (by omega), h3⟩
    | years x => exact ⟨c64 (by omega), h2, h3⟩
  | @whole W W' ago len hv hago hlen =>
    have : ago = false := Bool.eq_false_iff.2 fun g => ha (hago g)
    subst this
    have hle : (decimal W' : Int) ≤ decimal W := by exact_mod_cast hv
    have plain : ∀ n : Int, signedBy false false n = n := fun n => rfl
    rw [plain, plain]
    cases len with
    | seconds n =>
      refine ⟨h1, h2, Renumbered.clamp_mono ?_⟩
      have : clamp ((decimal W' : Int) * n * 10 ^ 9) ≤ clamp ((decimal W : Int) * n * 10 ^ 9) :=
        Renumbered.clamp_mono (mul_le_mul_of_nonneg_right (mul_le_mul_of_nonneg_right hle (hlen n rfl)) (by norm_num))
      show t'.nanoseconds + clamp ((decimal W' : Int) * n * 10 ^ 9) ≤ t.nanoseconds + clamp ((decimal W : Int) * n * 10 ^ 9)
      omega
    | months =>
      have := c64 hle
      exact ⟨h1, c64 (by omega), h3⟩
    | years =>
      have := c64 hle
      exact ⟨c64 (by omega), h2, h3⟩
  | @decimal W F W' F' ago hv hago =>
    have : ago = false := Bool.eq_false_iff.2 fun g => ha (hago g)
    subst this
    have hle : decimalNanos W' F' ≤ decimalNanos W F := by
      rw [GnuRenumbered.decimalNanos_literal, GnuRenumbered.decimalNanos_literal]
      exact Int.floor_le_floor (mul_le_mul_of_nonneg_right hv (by norm_num))
    have := Renumbered.clamp_mono hle
    exact ⟨h1, h2, Renumbered.clamp_mono (by
      show t'.nanoseconds + clamp (decimalNanos W' F') ≤ t.nanoseconds + clamp (decimalNanos W F)
      omega)⟩

/-- C111 for fundu-gnu: in a relative time with neither minus signs nor `ago`, smaller numbers yield no more years, months and nanoseconds. -/
theorem C111_gnu_smaller (s t m m' : Bytes) (hs : IsText s) (ht : IsText t) (hms : Trimmed s m) (hmt : Trimmed t m')
    (h : GnuRenumbered (fun a b => b ≤ a) m m') (hminus : (45 : UInt8) ∉ m) (hago : ∀ w, SameText w (b! "ago") → ¬ OccursIn w m)
    (y mo : Int) (d : Duration) (hp : Gnu.parseFuzzy s = .ok (y, mo, d)) :
    ∃ y' mo' d', Gnu.parseFuzzy t = .ok (y', mo', d') ∧ y' ≤ y ∧ mo' ≤ mo ∧ nanos d' ≤ nanos d := by
  rcases parseFuzzy_result s hs with ⟨m1, l, d1, h1, h2, h3, h4, h5⟩ | ⟨-, e, h2, -⟩
  · obtain rfl := trimmed_unique h1 hms
    rw [h5] at hp
    cases hp
    obtain ⟨l', k1, k2⟩ := GnuRenumbered.gnu_relative h2 h
    obtain ⟨d', q, q1, q2⟩ := (C60_parse_fuzzy t ht _ _ _).2 ⟨m', l', hmt, k1, rfl⟩
    have key := gnuTotal_mono (l := l) (l' := l') (k2.imp (by
      rintro p q ⟨neg, g1, g2⟩
      have : neg = false := Bool.eq_false_iff.2 fun g => hminus (g1 g)
      subst this
      exact samePart_mono (fun ⟨w, e1, e2⟩ => hago w e1 e2) g2))
    refine ⟨_, _, d', q, key.1, key.2.1, ?_⟩
    rw [q2, h4]
    exact key.2.2
  · rw [h2] at hp
    cases hp

/-! ## Concrete cases -/

/-- `3h 7m` and `15e-1h .5m`: smaller numbers -/
theorem otherNumbers_example : Renumbered (fun a b => b ≤ a) joinParser.config true (b! "3h 7m") (b! "15e-1h .5m") := by
  have whole : ∀ {W : Bytes}, (∀ b ∈ W, IsDigit b) → W ≠ [] → NumberText joinParser.config W W [] 0 [] := fun {W} h h0 =>
    ⟨[], [], ⟨(List.append_nil W).symm, h, not_startsWith_nil⟩, .absent h0 not_startsWith_nil, .absent not_startsWith_nil⟩
  refine .number (n := b! "3") (n' := b! "15" ++ 101 :: 45 :: b! "1") (s := b! "h 7m") (t := b! "h .5m")
    (whole (by decide) (by decide)) (renumbered_exponent rfl (by decide) (by decide) (by decide) (by decide) (by decide)) ?_
    (fun h => by cases h) ?_ ?_ ?_
  · rw [show (decimal (b! "1") : Int) = 1 from rfl]
    unfold literalValue
    rw [show decimal (b! "3") = 3 from rfl, show decimal (b! "15") = 15 from rfl, show decimal [] = 0 from rfl]
    norm_num
  · unfold NumberEnd; rw [startsWith_cons]; decide
  · unfold NumberEnd; rw [startsWith_cons]; decide
  refine .same (by decide) (fun h => by cases h) (.same (by decide) (fun h => by cases h) ?_)
  refine .number (n := b! "7") (n' := [] ++ 46 :: b! "5") (s := b! "m") (t := b! "m")
    (whole (by decide) (by decide)) (renumbered_point rfl (by decide) (by decide) (by decide)) ?_
    (fun h => by cases h) ?_ ?_ (.same (by decide) (fun h => by cases h) .done)
  · unfold literalValue
    rw [show decimal (b! "7") = 7 from rfl, show decimal (b! "5") = 5 from rfl, show decimal [] = 0 from rfl]
    norm_num
  · unfold NumberEnd; rw [startsWith_cons]; decide
  · unfold NumberEnd; rw [startsWith_cons]; decide

example : joinParser.parse (b! "3h 7m") = .ok ⟨false, ⟨11220, 0⟩⟩ ∧
    ∃ d, joinParser.parse (b! "15e-1h .5m") = .ok d ∧ nanos d ≤ 11220 * 10 ^ 9 := by
  have h : joinParser.parse (b! "3h 7m") = .ok ⟨false, ⟨11220, 0⟩⟩ := by decide +kernel
  refine ⟨h, ?_⟩
  obtain ⟨d, h1, h2, -⟩ := C111_standard [.nanoSecond, .microSecond, .milliSecond, .second, .minute, .hour, .day, .week] joinParser.config
    ⟨defaultConfig_text.inner, defaultConfig_text.outer, by intro ws h; cases h⟩ rfl rfl (by intro w hw; cases hw)
    _ _ (isText_ascii (by decide)) (isText_ascii (by decide)) otherNumbers_example _ h
  refine ⟨d, h1, (h2 rfl).trans ?_⟩
  decide

/-- `3 years 70 seconds` and `1 years 007 seconds` -/
theorem gnuOther_example : GnuRenumbered (fun a b => b ≤ a) (b! "3 years 70 seconds") (b! "1 years 007 seconds") := by
  have hall : ∀ x : Bytes, (∀ b ∈ x, ¬ IsDigit b) → ∀ {s t : Bytes}, GnuRenumbered (fun a b => b ≤ a) s t →
      GnuRenumbered (fun a b => b ≤ a) (x ++ s) (x ++ t) := by
    intro x hx s t h
    induction x with
    | nil => exact h
    | cons b x ih => exact .same (hx b (by simp)) (ih fun c hc => hx c (by simp [hc]))
  refine .whole (W := b! "3") (W' := b! "1") (s := b! " years 70 seconds") (t := b! " years 007 seconds") ⟨by decide, by decide⟩
    ⟨by decide, by decide⟩ ?_ (by unfold NumberEnd; rw [startsWith_cons]; decide) (by unfold NumberEnd; rw [startsWith_cons]; decide) ?_
  · rw [show decimal (b! "3") = 3 from rfl, show decimal (b! "1") = 1 from rfl]; norm_num
  refine hall (b! " years ") (by decide) ?_
  refine .whole (W := b! "70") (W' := b! "007") (s := b! " seconds") (t := b! " seconds") ⟨by decide, by decide⟩ ⟨by decide, by decide⟩ ?_
    (by unfold NumberEnd; rw [startsWith_cons]; decide) (by unfold NumberEnd; rw [startsWith_cons]; decide) ?_
  · rw [show decimal (b! "70") = 70 from rfl, show decimal (b! "007") = 7 from rfl]; norm_num
  have := hall (b! " seconds") (by decide) .done
  rwa [List.append_nil] at this

example : Gnu.parseFuzzy (b! "3 years 70 seconds") = .ok (3, 0, ⟨false, ⟨70, 0⟩⟩) ∧
    Gnu.parseFuzzy (b! "1 years 007 seconds") = .ok (1, 0, ⟨false, ⟨7, 0⟩⟩) := by decide +kernel

/-- The conditions are needed: with a minus sign a smaller number is a greater duration, and if negative durations are not allowed, then
`-0` is accepted but not `-1`. -/
theorem C111_condition_needed :
    Gnu.parseFuzzy (b! "-2 seconds") = .ok (0, 0, ⟨true, ⟨2, 0⟩⟩) ∧ Gnu.parseFuzzy (b! "-1 seconds") = .ok (0, 0, ⟨true, ⟨1, 0⟩⟩) ∧
    (DurationParser.new.parse (b! "-0")).toOption = some ⟨false, ⟨0, 0⟩⟩ ∧ (DurationParser.new.parse (b! "-1")).toOption = none := by
  decide +kernel

end Fundu.Props
