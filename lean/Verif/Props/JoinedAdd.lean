import Verif.Props.ExactResults
import Verif.Props.Concat
import Verif.Props.SystemdDisplay
import Verif.Props.Operators
import Verif.Props.Pieces
/-!
# Properties C68 and C98 once more: the returned durations themselves

What a parser of several durations returns for two texts joined by delimiters is the `saturating_add` of what it returns for the
two texts: not only the same length but the same `Duration`. If negative durations are allowed this is true whenever the second
text is one duration, so a text can be read one duration at a time.
-/
namespace Fundu.Props
open Fundu Fundu.Spec

/-- a duration which is marked as negative only if it is less than zero -/
private theorem saturatingAdd_proper {a b e : Duration} (ha : a.WF) (hb : b.WF) (sa : a.isNegative = true ↔ nanos a < 0)
    (he : e.WF) (se : e.isNegative = true ↔ nanos e < 0)
    (hn : nanos e = clamp (nanos a + nanos b)) : a.saturatingAdd b = .ok e := by
  obtain ⟨d, h1, h2, h3⟩ := C02_saturating_add a b ha hb
  rw [h1, duration_ext he h2 (h3.trans hn.symm) se]
  constructor
  · intro hd
    by_cases h0 : nanos a = 0
    · have hna : a.isNegative = false := by
        cases h : a.isNegative with
        | false => rfl
        | true => have := sa.1 h; omega
      obtain ⟨r, g1, g2, -⟩ := C02_checked_add a b ha hb
      have hr := nanos_representable b hb
      obtain ⟨x, rfl, -, -⟩ := g2 (by rw [h0, Int.zero_add]; exact hr)
      have hx : a.saturatingAdd b = .ok x := by
        unfold Duration.saturatingAdd
        rw [g1]; rfl
      rw [h1] at hx
      cases hx
      rcases (C02_sign a b d ha hb g1).1 hd with h | ⟨h, -⟩
      · exact h
      · rw [hna] at h; cases h
    · exact saturatingAdd_sign ha hb h0 h1 hd
  · intro hd
    unfold nanos at hd
    cases h : d.isNegative with
    | true => rfl
    | false => rw [h] at hd; simp only [Bool.false_eq_true, if_false] at hd; omega

section
variable (cfg : Config) (units : TimeUnitsLike) (keywords : Option TimeUnitsLike) (numerals : Option NumbersLike)

/-- C68: the joined text means the `saturating_add` of the results of its two parts. -/
theorem C68_saturating_add (s ds t : Bytes) (d d' : Duration) (hs : IsText s) (ht : IsText t) (hc : CfgText cfg)
    (hm : cfg.allowMultiple = true)
    (hd : (∀ b, cfg.innerDelimiter b = true → cfg.outerDelimiter b = true) ∨ (keywords = none ∧ numerals = none))
    (ho : Orderly cfg units keywords numerals) (hp : PlainConjunctions cfg) (hn : cfg.allowNegative = false)
    (hds : ∀ b ∈ ds, cfg.outerDelimiter b = true) (hne : ds ≠ []) (hf : CanFollow cfg units t)
    (h : parse cfg units keywords numerals s = .ok d) (h' : parse cfg units keywords numerals t = .ok d') :
    ∃ e, parse cfg units keywords numerals (s ++ (ds ++ t)) = .ok e ∧ d.saturatingAdd d' = .ok e := by
  obtain ⟨e, g1, g2, g3⟩ := C68_sum cfg units keywords numerals s ds t d d' hs ht hc hm hd ho hp hn hds hne hf h h'
  have htext : IsText (s ++ (ds ++ t)) := by
    have hds' : IsText ds := isText_ascii fun b hb => hc.outer b (hds b hb)
    rw [isText_iff] at *
    exact utf8Valid_append hs (utf8Valid_append hds' ht)
  refine ⟨e, g1, saturatingAdd_proper (parse_wf hs hc h) (parse_wf ht hc h')
    (C99_sign cfg units keywords numerals s d hs hc hm hd h) g2
    (C99_sign cfg units keywords numerals _ e htext hc hm hd g1) ?_⟩
  have k1 := (C22_nonnegative cfg units keywords numerals s d hn h).2
  have k2 := (C22_nonnegative cfg units keywords numerals t d' hn h').2
  rw [g3]
  unfold clamp
  have : (0 : Int) < maxNanos := by decide
  omega

/-- C68, also with negative durations: one more duration at the end of a text is added with `saturating_add`. The last duration is
what the parser returns for it with and without `parse_multiple`. -/
theorem C68_append (s ds t : Bytes) (d p : Duration) (hs : IsText s) (ht : IsText t) (hc : CfgText cfg)
    (hm : cfg.allowMultiple = true) (hd : ∀ b, cfg.innerDelimiter b = true → cfg.outerDelimiter b = true)
    (ho : Orderly cfg units keywords numerals) (hp : PlainConjunctions cfg)
    (hds : ∀ b ∈ ds, cfg.outerDelimiter b = true) (hne : ds ≠ []) (hf : CanFollow cfg units t)
    (h : parse cfg units keywords numerals s = .ok d)
    (h' : parse { cfg with allowMultiple := false } units keywords numerals t = .ok p) :
    ∃ e, parse cfg units keywords numerals (s ++ (ds ++ t)) = .ok e ∧ d.saturatingAdd p = .ok e := by
  have htext : IsText (s ++ (ds ++ t)) := by
    have hds' : IsText ds := isText_ascii fun b hb => hc.outer b (hds b hb)
    rw [isText_iff] at *
    exact utf8Valid_append hs (utf8Valid_append hds' ht)
  obtain ⟨l, a1, a2, a3, a4⟩ := (C99_exact cfg units keywords numerals s d hs hc hm (Or.inl hd)).1 h
  have hone := denotesMultiple_of_single (cfg := { cfg with allowMultiple := false }) hd (orderly_single ho) cfg.conjunctions
    ((C27_single { cfg with allowMultiple := false } units keywords numerals t p ht (cfgText_single hc) rfl).1 h')
  have hcfg : asMultiple { cfg with allowMultiple := false } cfg.conjunctions = cfg := by
    obtain ⟨_⟩ := cfg
    dsimp only at hm
    subst hm
    rfl
  rw [hcfg] at hone
  have hj := C68_durations cfg units keywords numerals s ds t l [p] ho hp hds hne hf a1 hone
  obtain ⟨e, g1, g2, g3⟩ := (C27_multiple cfg units keywords numerals _ _ htext hc hm (Or.inl hd)).2 ⟨_, hj, rfl⟩
  refine ⟨e, g1, saturatingAdd_proper a2 (parse_wf ht (cfgText_single hc) h') a4 g2
    (C99_sign cfg units keywords numerals _ e htext hc hm (Or.inl hd) g1) ?_⟩
  rw [g3, a3, List.map_append, saturatingSum, List.foldl_append]
  rfl

end

/-- C68 for fundu-systemd: the `saturating_add` of the results, or the maximum if that is less. -/
theorem C68_systemd_exact (nanos' : Bool) (u : TimeUnit) (s ds t m m' : Bytes) (max d d' : Duration) (hs : IsText s) (ht : IsText t)
    (hds : ∀ b ∈ ds, PosixSpace b) (hne : ds ≠ []) (hw : max.WF) (hm : max.isNegative = false)
    (hts : Trimmed s m) (hi : m ≠ b! "infinity") (htt : Trimmed t m') (hi' : m' ≠ b! "infinity")
    (hf : StartsWith (fun b => NextDuration b ∨ b = 46) m')
    (h : parseMax nanos' (Systemd.TimeSpanParser.withDefaultUnit u) s max = .ok d)
    (h' : parseMax nanos' (Systemd.TimeSpanParser.withDefaultUnit u) t max = .ok d') :
    ∃ e, d.saturatingAdd d' = .ok e ∧
      parseMax nanos' (Systemd.TimeSpanParser.withDefaultUnit u) (s ++ (ds ++ t)) max = .ok (if nanos e ≤ nanos max then e else max) := by
  obtain ⟨f, g1, g2⟩ := C68_systemd nanos' u s ds t m m' max d d' hs ht hds hne hw hm hts hi htt hi' hf h h'
  have hget : ∀ {s : Bytes} {x : Duration}, IsText s → parseMax nanos' (Systemd.TimeSpanParser.withDefaultUnit u) s max = .ok x →
      x.WF ∧ x.isNegative = false ∧ 0 ≤ nanos x ∧ nanos x ≤ nanos max := by
    intro s x hs hx
    rcases C38_bounded nanos' u s hs max hw hm with ⟨y, k1, k2⟩ | ⟨y, k1⟩
    · rw [hx] at k1; cases k1; exact k2
    · rw [hx] at k1; cases k1
  have hsign : ∀ {x : Duration}, x.isNegative = false → 0 ≤ nanos x → (x.isNegative = true ↔ nanos x < 0) := by
    intro x h1 h2
    rw [h1]
    exact ⟨(fun h => by cases h), (fun h => by omega)⟩
  have htext : IsText (s ++ (ds ++ t)) := by
    have hds' : IsText ds := isText_ascii fun b hb => posixSpace_ascii (hds b hb)
    rw [isText_iff] at *
    exact utf8Valid_append hs (utf8Valid_append hds' ht)
  obtain ⟨a1, a2, a3, a4⟩ := hget hs h
  obtain ⟨b1, b2, b3, b4⟩ := hget ht h'
  obtain ⟨f1, f2, f3, f4⟩ := hget htext g1
  obtain ⟨e, e1, e2, e3⟩ := C02_saturating_add d d' a1 b1
  have hmx : nanos max ≤ maxNanos := (nanos_representable max hw).2
  have e4 : 0 ≤ nanos e := by
    rw [e3]; unfold clamp
    have : (0 : Int) < maxNanos := by decide
    omega
  have e5 : e.isNegative = false := by
    cases hz : e.isNegative with
    | false => rfl
    | true =>
      exfalso
      unfold Duration.saturatingAdd Duration.checkedAdd at e1
      rw [a2, b2] at e1
      cases hx : d.inner.checkedAdd d'.inner with
      | none => rw [hx] at e1; cases e1; cases hz
      | some y => rw [hx] at e1; cases e1; cases hz
  refine ⟨e, e1, ?_⟩
  rw [g1]
  congr 1
  have hmn : 0 ≤ nanos max := by omega
  by_cases hle : nanos e ≤ nanos max
  · rw [if_pos hle]
    refine duration_ext e2 f1 ?_ (hsign e5 e4) (hsign f2 f3)
    rw [g2, e3]
    rw [e3] at hle
    unfold clamp at *
    omega
  · rw [if_neg hle]
    refine duration_ext hw f1 ?_ (hsign hm hmn) (hsign f2 f3)
    rw [g2]
    rw [e3] at hle
    unfold clamp at *
    omega

/-- C98: the `Display` of a duration is read back as the duration itself, or as the maximum if that is less. -/
theorem C98_display_exact (nanos' : Bool) (u : TimeUnit) (max : Duration) (hw : max.WF) (hm : max.isNegative = false) (d : Duration)
    (hd : d.WF) (hneg : d.isNegative = false) (hz : d.isZero = false) (h1 : d.inner.nanos / 1000 % 1000 = 0)
    (h2 : nanos' = true ∨ d.inner.nanos % 1000 = 0) :
    parseMax nanos' (Systemd.TimeSpanParser.withDefaultUnit u) d.display max = .ok (if nanos d ≤ nanos max then d else max) := by
  obtain ⟨e, g1, g2⟩ := C98_display nanos' u max hw hm d hneg hz h1 h2
  obtain ⟨t1, t2, -⟩ := display_trimmed d
  have hpos : ∀ x : Duration, x.isNegative = false → 0 ≤ nanos x ∧ (x.isNegative = true ↔ nanos x < 0) := by
    intro x hx
    have : 0 ≤ nanos x := by unfold nanos; rw [hx]; simp only [Bool.false_eq_true, if_false]; omega
    rw [hx]
    exact ⟨this, (fun h => by cases h), (fun h => by omega)⟩
  rcases C38_bounded nanos' u d.display t1 max hw hm with ⟨y, k1, k2, k3, -, -⟩ | ⟨y, k1⟩
  · rw [g1] at k1
    cases k1
    rw [g1]
    congr 1
    by_cases hle : nanos d ≤ nanos max
    · rw [if_pos hle]
      exact duration_ext hd k2 (by rw [g2]; omega) (hpos d hneg).2 (hpos e k3).2
    · rw [if_neg hle]
      exact duration_ext hw k2 (by rw [g2]; omega) (hpos max hm).2 (hpos e k3).2
  · rw [g1] at k1; cases k1

/-! ## Examples -/

/-- five seconds ago after `1h -2h`; the parser allows negative durations -/
example : ∃ e, (joinParser.allowNegative true).parse (b! "1h -2h" ++ (b! " " ++ b! "-5s")) = .ok e ∧
    Duration.saturatingAdd ⟨true, ⟨3600, 0⟩⟩ ⟨true, ⟨5, 0⟩⟩ = .ok e := by
  have ho : Orderly (joinParser.allowNegative true).config (joinParser.allowNegative true).timeUnits.like none none :=
    standard_orderly _ [.nanoSecond, .microSecond, .milliSecond, .second, .minute, .hour, .day, .week] (whitespace_delimiters _ rfl rfl)
  exact C68_append (joinParser.allowNegative true).config (joinParser.allowNegative true).timeUnits.like none none (b! "1h -2h") (b! " ")
    (b! "-5s") ⟨true, ⟨3600, 0⟩⟩ ⟨true, ⟨5, 0⟩⟩ (isText_ascii (by decide)) (isText_ascii (by decide))
    ⟨defaultConfig_text.inner, defaultConfig_text.outer, by intro ws h; cases h⟩ rfl (fun _ h => h) ho
    (by intro w h; cases h) (by decide) (by decide)
    (C68_numbers_follow _ _ _ _ _ ho ⟨45, b! "5s", rfl, by left; decide⟩
      (by rw [show b! "-5s" = 45 :: b! "5s" from rfl, startsWith_cons]; rintro (h | h) <;> exact absurd h (by decide))
      (by intro w h; cases h))
    (by decide +kernel) (by decide +kernel)

/-- the sum which would leave the range sticks to its end, as with `saturating_add` -/
example : ∃ e, joinParser.parse (b! "18446744073709551615s" ++ (b! "  " ++ b! "0.5s 1h")) = .ok e ∧
    Duration.saturatingAdd ⟨false, ⟨18446744073709551615, 0⟩⟩ ⟨false, ⟨3600, 500000000⟩⟩ = .ok e :=
  C68_saturating_add joinParser.config joinParser.timeUnits.like none none (b! "18446744073709551615s") (b! "  ") (b! "0.5s 1h")
    ⟨false, ⟨18446744073709551615, 0⟩⟩ ⟨false, ⟨3600, 500000000⟩⟩ (isText_ascii (by decide)) (isText_ascii (by decide))
    ⟨defaultConfig_text.inner, defaultConfig_text.outer, by intro ws h; cases h⟩ rfl (Or.inl fun _ h => h) joinParser_orderly
    (by intro w h; cases h) rfl (by decide) (by decide)
    (C68_numbers_follow _ _ _ _ _ joinParser_orderly ⟨48, b! ".5s 1h", rfl, by left; left; decide⟩
      (by rw [show b! "0.5s 1h" = 48 :: b! ".5s 1h" from rfl, startsWith_cons]; rintro (h | h) <;> exact absurd h (by decide))
      (by intro w h; cases h))
    (by decide +kernel) (by decide +kernel)

example : parseMax true (Systemd.TimeSpanParser.withDefaultUnit .second) (⟨false, ⟨3661, 5000007⟩⟩ : Duration).display
    Systemd.SYSTEMD_MAX_NANOS_DURATION = .ok ⟨false, ⟨3661, 5000007⟩⟩ :=
  C98_display_exact true .second Systemd.SYSTEMD_MAX_NANOS_DURATION (by decide) rfl ⟨false, ⟨3661, 5000007⟩⟩ (by decide) rfl rfl (by decide)
    (Or.inl rfl)

end Fundu.Props
