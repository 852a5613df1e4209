import Verif.Proofs.GnuRenumbered
import Verif.Props.GnuTexts
import Verif.Props.SumSign
import Verif.Props.Concat
/-! # C108: how numbers are written does not matter

The specification is `Verif/Spec/Renumbered.lean`. -/
namespace Fundu.Props
open Fundu Fundu.Spec

section
variable (cfg : Config) (units : TimeUnitsLike) (keywords : Option TimeUnitsLike) (numerals : Option NumbersLike)

/-- C108, a single duration or several: texts which differ only in how their numbers are written have the same result, or both are
rejected. -/
theorem C108_texts (s t : Bytes) (hs : IsText s) (ht : IsText t) (hc : CfgText cfg)
    (hd : (∀ b, cfg.innerDelimiter b = true → cfg.outerDelimiter b = true) ∨ (keywords = none ∧ numerals = none) ∨ cfg.allowMultiple = false)
    (ho : Orderly cfg units keywords numerals) (hn : NoPoints cfg units keywords numerals)
    (h : Renumbered Eq cfg true s t) (d : Duration) :
    parse cfg units keywords numerals s = .ok d ↔ parse cfg units keywords numerals t = .ok d := by
  cases hm : cfg.allowMultiple with
  | false =>
    rw [C27_single cfg units keywords numerals s d hs hc hm, C27_single cfg units keywords numerals t d ht hc hm]
    exact ⟨fun g => Renumbered.denotesSingle ho hn g h, fun g => Renumbered.denotesSingle ho hn g (Renumbered.eq_symm h)⟩
  | true =>
    have hd' : (∀ b, cfg.innerDelimiter b = true → cfg.outerDelimiter b = true) ∨ (keywords = none ∧ numerals = none) := by
      rcases hd with h | h | h
      · exact Or.inl h
      · exact Or.inr h
      · rw [hm] at h; cases h
    rw [C99_exact cfg units keywords numerals s d hs hc hm hd', C99_exact cfg units keywords numerals t d ht hc hm hd']
    exact ⟨fun ⟨l, g1, g2⟩ => ⟨l, Renumbered.denotesMultiple ho hn g1 h, g2⟩,
      fun ⟨l, g1, g2⟩ => ⟨l, Renumbered.denotesMultiple ho hn g1 (Renumbered.eq_symm h), g2⟩⟩

end

/-! ## DurationParser -/

theorem standard_noPoints (cfg : Config) (us : List TimeUnit)
    (hj : ∀ w ∈ cfg.conjunctions.getD [], w ≠ [] ∧ ∀ b ∈ w, ¬ IsDelimiter cfg b ∧ ¬ NextDuration b ∧ b ≠ 46) :
    NoPoints cfg (DurationParser.withTimeUnits us).timeUnits.like none none := by
  refine ⟨?_, hj⟩
  rintro id (⟨x, h⟩ | ⟨k, u, h, -⟩ | ⟨n, q, h, -⟩)
  · obtain ⟨u, -, rfl, -⟩ := (C34_get us _ _).1 h
    cases u <;> decide
  · cases h
  · cases h

/-- C108 for `DurationParser` with any time units and all settings except the delimiters, which are white space -/
theorem C108_standard (us : List TimeUnit) (cfg : Config) (hc : CfgText cfg) (hi : cfg.innerDelimiter = isAsciiWhitespace)
    (ho : cfg.outerDelimiter = isAsciiWhitespace)
    (hj : ∀ w ∈ cfg.conjunctions.getD [], w ≠ [] ∧ ∀ b ∈ w, ¬ IsDelimiter cfg b ∧ ¬ NextDuration b ∧ b ≠ 46)
    (s t : Bytes) (hs : IsText s) (ht : IsText t) (h : Renumbered Eq cfg true s t) (d : Duration) :
    ({ DurationParser.withTimeUnits us with config := cfg } : DurationParser).parse s = .ok d ↔
      ({ DurationParser.withTimeUnits us with config := cfg } : DurationParser).parse t = .ok d :=
  C108_texts cfg _ none none s t hs ht hc (Or.inr (Or.inl ⟨rfl, rfl⟩)) (standard_orderly cfg us (whitespace_delimiters cfg hi ho))
    (standard_noPoints cfg us hj) h d

/-! ## fundu-systemd -/

theorem systemd_noPoints (nanos' : Bool) (u : TimeUnit) :
    NoPoints (Systemd.TimeSpanParser.withDefaultUnit u).config (tableOf nanos') none none := by
  refine ⟨?_, by intro w hw; cases hw⟩
  rintro id (⟨x, h⟩ | ⟨k, u, h, -⟩ | ⟨n, q, h, -⟩)
  · have key : ∀ id ∈ idsOf (documentedOf nanos'), (46 : UInt8) ∉ id := by cases nanos' <;> decide +kernel
    exact key id (systemd_get_mem h)
  · cases h
  · cases h

/-- C108 for fundu-systemd, with and without nano seconds, for every default unit and maximum -/
theorem C108_systemd (nanos' : Bool) (u : TimeUnit) (s t m m' : Bytes) (hs : IsText s) (ht : IsText t) (max : Duration)
    (hms : Trimmed s m) (hmt : Trimmed t m')
    (h : Renumbered Eq (Systemd.TimeSpanParser.withDefaultUnit u).config true m m') (d : Duration) :
    parseMax nanos' (Systemd.TimeSpanParser.withDefaultUnit u) s max = .ok d ↔
      parseMax nanos' (Systemd.TimeSpanParser.withDefaultUnit u) t max = .ok d := by
  cases hm : max.isNegative with
  | true => rw [C38_negative_max nanos' _ s max hm, C38_negative_max nanos' _ t max hm]
  | false =>
    obtain ⟨m1, h1, h2, h3⟩ := parseMax_eq nanos' (Systemd.TimeSpanParser.withDefaultUnit u) s max hm hs
    obtain ⟨m2, h1', h2', h3'⟩ := parseMax_eq nanos' (Systemd.TimeSpanParser.withDefaultUnit u) t max hm ht
    obtain rfl := trimmed_unique h1 hms
    obtain rfl := trimmed_unique h1' hmt
    rw [h3, h3']
    have inf : ∀ {a b : Bytes}, Renumbered Eq (Systemd.TimeSpanParser.withDefaultUnit u).config true a b → a = b! "infinity" → b = b! "infinity" := by
      rintro a b h rfl
      have e : Renumbered Eq (Systemd.TimeSpanParser.withDefaultUnit u).config true (b! "infinity" ++ []) b := by rw [List.append_nil]; exact h
      have hall : ∀ b ∈ b! "infinity", ¬ IsDigit b ∧ b ≠ 46 := by decide
      obtain ⟨r, f, e1, e2, -⟩ := Renumbered.append e hall
      rw [e1, Renumbered.nil e2, List.append_nil]
    by_cases hi : m1 = b! "infinity"
    · rw [if_pos hi, if_pos (inf h hi)]
    · rw [if_neg hi, if_neg fun g => hi (inf (Renumbered.eq_symm h) g)]
      have key := C108_texts (Systemd.TimeSpanParser.withDefaultUnit u).config (tableOf nanos') none none m1 m2 h2 h2' (systemd_cfgText u)
        (Or.inr (Or.inl ⟨rfl, rfl⟩)) (systemd_orderly nanos' u) (systemd_noPoints nanos' u) h
      have one : ∀ {x y : R Duration} {g : Duration → Duration}, (∀ d, x = .ok d → y = .ok d) → x.map g = .ok d → y.map g = .ok d := by
        intro x y g h hx
        cases x with
        | error e => cases hx
        | ok a => rw [h a rfl]; exact hx
      exact ⟨one fun d => (key d).1, one fun d => (key d).2⟩

/-! ## fundu-gnu -/

/-- C108 for fundu-gnu: relative times which differ only in how their numbers are written have the same result, or both are rejected. -/
theorem C108_gnu (s t m m' : Bytes) (hs : IsText s) (ht : IsText t) (hms : Trimmed s m) (hmt : Trimmed t m') (h : GnuRenumbered Eq m m')
    (y mo x : Int) :
    (∃ d, Gnu.parseFuzzy s = .ok (y, mo, d) ∧ d.WF ∧ nanos d = x) ↔
      ∃ d, Gnu.parseFuzzy t = .ok (y, mo, d) ∧ d.WF ∧ nanos d = x := by
  rw [C60_parse_fuzzy s hs, C60_parse_fuzzy t ht]
  constructor
  · rintro ⟨m1, l, h1, h2, h3⟩
    obtain rfl := trimmed_unique h1 hms
    exact ⟨m', l, hmt, GnuRenumbered.gnu_relative_eq h2 h, h3⟩
  · rintro ⟨m1, l, h1, h2, h3⟩
    obtain rfl := trimmed_unique h1 hmt
    exact ⟨m, l, hms, GnuRenumbered.gnu_relative_eq h2 (GnuRenumbered.eq_symm h), h3⟩

/-! ## Which numbers have the same value -/

/-- C108: zeros in front of a number, zeros at the end of its fraction, and the point moved by one digit if the exponent makes up for it -/
theorem C108_same_value (W F : Bytes) (e : Int) (b : UInt8) :
    literalValue (48 :: W) F e = literalValue W F e ∧ literalValue W (F ++ [48]) e = literalValue W F e ∧
      literalValue (W ++ [b]) F (e - 1) = literalValue W (b :: F) e := by
  refine ⟨?_, ?_, ?_⟩
  · unfold literalValue
    have : decimal (48 :: W) = decimal W := by
      show ((48 : UInt8).toNat - 48) * 10 ^ W.length + decimal W = _
      rw [show (48 : UInt8).toNat - 48 = 0 from rfl, Nat.zero_mul, Nat.zero_add]
    rw [this]
  · unfold literalValue
    rw [decimal_append, List.length_append]
    have : decimal [48] = 0 := rfl
    rw [this]
    rw [List.length_singleton, pow_one, Nat.add_zero, pow_succ]
    push_cast
    rw [mul_div_mul_right _ _ (by norm_num : (10 : ℚ) ≠ 0)]
  · unfold literalValue
    have h1 : decimal [b] = b.toNat - 48 := by
      show (b.toNat - 48) * 10 ^ 0 + 0 = _
      rw [pow_zero, Nat.mul_one, Nat.add_zero]
    have h2 : decimal (b :: F) = (b.toNat - 48) * 10 ^ F.length + decimal F := rfl
    rw [decimal_append, h1, h2, List.length_singleton, List.length_cons, zpow_sub_one₀ (by norm_num : (10 : ℚ) ≠ 0), pow_succ]
    push_cast
    have : (10 : ℚ) ^ F.length ≠ 0 := pow_ne_zero _ (by norm_num)
    field_simp
    ring

/-! ## Concrete cases -/

theorem renumbered_point {cfg : Config} {W F : Bytes} (hf : cfg.disableFraction = false) (hW : ∀ b ∈ W, IsDigit b) (hF : ∀ b ∈ F, IsDigit b)
    (hne : W ≠ [] ∨ F ≠ []) : NumberText cfg (W ++ 46 :: F) W F 0 [] :=
  ⟨46 :: F, [], ⟨rfl, hW, by rw [startsWith_cons]; decide⟩, .present hf ⟨by rw [List.append_nil], hF, not_startsWith_nil⟩ hne,
    .absent not_startsWith_nil⟩

theorem renumbered_exponent {cfg : Config} {W E : Bytes} (he : cfg.disableExponent = false) (hW : ∀ b ∈ W, IsDigit b) (hW0 : W ≠ [])
    (hE : ∀ b ∈ E, IsDigit b) (hE0 : E ≠ []) (hr : decimal E ≤ 32768) : NumberText cfg (W ++ 101 :: 45 :: E) W [] (-(decimal E : Int)) [] :=
  ⟨101 :: 45 :: E, 101 :: 45 :: E, ⟨rfl, hW, by rw [startsWith_cons]; decide⟩, .absent hW0 (by rw [startsWith_cons]; decide),
    .present (neg := true) (Or.inl rfl) he .minus ⟨by rw [List.append_nil], hE, not_startsWith_nil⟩ hE0 (by
      rw [if_pos rfl]
      unfold IsI16 I16_MIN I16_MAX
      omega)⟩

/-- `1.50h .5m` and `15e-1h 0.5m` -/
theorem renumbered_example : Renumbered Eq joinParser.config true (b! "1.50h .5m") (b! "15e-1h 0.5m") := by
  refine .number (n := b! "1" ++ 46 :: b! "50") (n' := b! "15" ++ 101 :: 45 :: b! "1") (s := b! "h .5m") (t := b! "h 0.5m")
    (renumbered_point rfl (by decide) (by decide) (by decide)) (renumbered_exponent rfl (by decide) (by decide) (by decide) (by decide) (by decide)) ?_
    (fun h => by cases h) ?_ ?_ ?_
  · rw [show (decimal (b! "1") : Int) = 1 from rfl]
    unfold literalValue
    rw [show decimal (b! "1") = 1 from rfl, show decimal (b! "50") = 50 from rfl, show decimal (b! "15") = 15 from rfl, show decimal [] = 0 from rfl]
    norm_num
  · unfold NumberEnd; rw [startsWith_cons]; decide
  · unfold NumberEnd; rw [startsWith_cons]; decide
  refine .same (by decide) (fun h => by cases h) (.same (by decide) (fun h => by cases h) ?_)
  refine .number (n := [] ++ 46 :: b! "5") (n' := b! "0" ++ 46 :: b! "5") (s := b! "m") (t := b! "m")
    (renumbered_point rfl (by decide) (by decide) (by decide)) (renumbered_point rfl (by decide) (by decide) (by decide)) ?_
    (fun h => by cases h) ?_ ?_ (.same (by decide) (fun h => by cases h) .done)
  · exact ((C108_same_value [] (b! "5") 0 48).1).symm
  · unfold NumberEnd; rw [startsWith_cons]; decide
  · unfold NumberEnd; rw [startsWith_cons]; decide

example : joinParser.parse (b! "1.50h .5m") = .ok ⟨false, ⟨5430, 0⟩⟩ ∧ joinParser.parse (b! "15e-1h 0.5m") = .ok ⟨false, ⟨5430, 0⟩⟩ := by
  have h : joinParser.parse (b! "1.50h .5m") = .ok ⟨false, ⟨5430, 0⟩⟩ := by decide +kernel
  refine ⟨h, ?_⟩
  have := C108_standard [.nanoSecond, .microSecond, .milliSecond, .second, .minute, .hour, .day, .week] joinParser.config
    ⟨defaultConfig_text.inner, defaultConfig_text.outer, by intro ws h; cases h⟩ rfl rfl (by intro w hw; cases hw)
    _ _ (isText_ascii (by decide)) (isText_ascii (by decide)) renumbered_example ⟨false, ⟨5430, 0⟩⟩
  exact this.1 h

example : GnuRenumbered Eq (b! "2 weeks -1.5") (b! "002 weeks -01.50") := by
  refine .whole (W := b! "2") (W' := b! "002") (s := b! " weeks -1.5") (t := b! " weeks -01.50") ⟨by decide, by decide⟩ ⟨by decide, by decide⟩
    rfl (by unfold NumberEnd; rw [startsWith_cons]; decide) (by unfold NumberEnd; rw [startsWith_cons]; decide) ?_
  have hall : ∀ x : Bytes, (∀ b ∈ x, ¬ IsDigit b) → ∀ {s t : Bytes}, GnuRenumbered Eq s t → GnuRenumbered Eq (x ++ s) (x ++ t) := by
    intro x hx s t h
    induction x with
    | nil => exact h
    | cons b x ih => exact .same (hx b (by simp)) (ih fun c hc => hx c (by simp [hc]))
  refine hall (b! " weeks -") (by decide) ?_
  refine .decimal (W := b! "1") (F := b! "5") (W' := b! "01") (F' := b! "50") (s := []) (t := []) ⟨by decide, by decide⟩ ⟨by decide, by decide⟩
    ⟨by decide, by decide⟩ ⟨by decide, by decide⟩ ?_ not_startsWith_nil not_startsWith_nil .done
  exact ((C108_same_value (b! "1") (b! "50") 0 48).1.trans (C108_same_value (b! "1") (b! "5") 0 48).2.1).symm

example : Gnu.parseFuzzy (b! "2 weeks -1.5") = .ok (0, 0, ⟨false, ⟨1209598, 500000000⟩⟩) ∧
    Gnu.parseFuzzy (b! "002 weeks -01.50") = .ok (0, 0, ⟨false, ⟨1209598, 500000000⟩⟩) := by decide +kernel

/-- The conditions are needed: immediately behind a time unit a number can not start with a point. -/
theorem C108_condition_needed : joinParser.parse (b! "1h0.5m") = .ok ⟨false, ⟨3630, 0⟩⟩ ∧ (joinParser.parse (b! "1h.5m")).toOption = none := by
  decide +kernel

end Fundu.Props
