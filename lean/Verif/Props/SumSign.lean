import Verif.Props.Concat
import Verif.Props.Gate
/-!
# Property C99: the sign of the result of a parser of several durations
-/
namespace Fundu.Props
open Fundu Fundu.Spec

theorem not_isZero_nanos {d : Duration} (h : ¬ d.isZero = true) : nanos d ≠ 0 := by
  intro hn
  apply h
  unfold nanos at hn
  unfold Duration.isZero StdDuration.isZero
  have : d.inner.secs = 0 ∧ d.inner.nanos = 0 := by
    split at hn <;> omega
  simp [this.1, this.2]

theorem clamp_zero {x : Int} (h : clamp x = 0) : x = 0 := by
  unfold clamp at h
  have : (0 : Int) < maxNanos := by decide
  omega

theorem saturatingAdd_sign {a b s : Duration} (ha : a.WF) (hb : b.WF) (h1 : nanos a ≠ 0) (h : a.saturatingAdd b = .ok s)
    (hs : s.isNegative = true) : nanos s < 0 := by
  obtain ⟨s', g1, -, g2⟩ := C02_saturating_add a b ha hb
  rw [h] at g1
  cases g1
  have hle : nanos s ≤ 0 := by
    unfold nanos; rw [hs]; simp only [if_true]; omega
  refine lt_of_le_of_ne hle fun h0 => ?_
  have hsum := clamp_zero (g2.symm.trans h0)
  obtain ⟨na, ⟨sa, ka⟩⟩ := a
  obtain ⟨nb, ⟨sb, kb⟩⟩ := b
  have wa : ka < 1000000000 := ha.2
  have wb : kb < 1000000000 := hb.2
  unfold nanos at hsum h1
  dsimp only at hsum h1
  have hin : na ≠ nb ∧ sa = sb ∧ ka = kb := by
    cases na <;> cases nb <;> simp only [Bool.false_eq_true, if_true, if_false] at hsum h1
    · omega
    · refine ⟨by decide, by omega, by omega⟩
    · refine ⟨by decide, by omega, by omega⟩
    · omega
  obtain ⟨hne, rfl, rfl⟩ := hin
  have hc : StdDuration.cmp ⟨sa, ka⟩ ⟨sa, ka⟩ = .eq := by
    unfold StdDuration.cmp
    simp
  have : Duration.saturatingAdd ⟨na, ⟨sa, ka⟩⟩ ⟨nb, ⟨sa, ka⟩⟩ = .ok Duration.ZERO := by
    unfold Duration.saturatingAdd Duration.checkedAdd
    cases na <;> cases nb <;> first | exact absurd rfl hne | (dsimp only; rw [hc]; rfl)
  rw [this] at h
  cases h
  cases hs

theorem accumulate_sign {d p s : Duration} (hd : d.WF) (hp : p.WF) (hi : d.isNegative = true → nanos d < 0)
    (h : accumulate d p = .ok s) (hs : s.isNegative = true) : nanos s < 0 := by
  unfold accumulate at h
  by_cases h1 : p.isZero = true
  · rw [if_pos h1] at h
    cases h
    exact hi hs
  · rw [if_neg h1] at h
    by_cases h2 : d.isZero = true
    · rw [if_pos h2] at h
      cases h
      refine lt_of_le_of_ne ?_ (not_isZero_nanos h1)
      unfold nanos; rw [hs]; simp only [if_true]; omega
    · rw [if_neg h2] at h
      obtain ⟨s', k, -⟩ := C02_saturating_add d p hd hp
      rw [k, liftP_ok] at h
      cases h
      exact saturatingAdd_sign hd hp (not_isZero_nanos h2) k hs

theorem loop_sign {env : Env} {I s : Bytes} {c : Cursor} (he : EnvOk env) (hsc : env.scan = fun d c => c.advanceTo d) (fuel : Nat)
    (d : Duration) (hd : d.WF) (hi : d.isNegative = true → nanos d < 0)
    (h : At I 0 c s) (hs : s ≠ []) (hf : I.length < c.pos + fuel) (d' : Duration) (h1 : parseMultipleLoop env fuel d c = .ok d')
    (hn : d'.isNegative = true) : nanos d' < 0 := by
  induction fuel generalizing d c s with
  | zero => have := h.inv.pos; omega
  | succ fuel ih =>
    have hcur : c.cur.isSome = true := by
      cases s with
      | nil => exact absurd rfl hs
      | cons a l => rw [h.cons]; rfl
    have ha := template_at he.cfg hsc .multiple h
    have hsafe := templateParse_safe he .multiple h.inv hcur
    unfold parseMultipleLoop at h1
    obtain ⟨⟨r, next⟩, g1, g2⟩ := bind_eq_ok.1 h1
    obtain ⟨p, g3, g4⟩ := bind_eq_ok.1 g2
    obtain ⟨d1, g5, g6⟩ := bind_eq_ok.1 g4
    obtain ⟨⟨⟨neg, item⟩, rest⟩, k1, k2⟩ := ha.of_ok g1
    have hacc := (parseRepr_iff _ _ _ _ k2.1.parse p).1 g3
    have hwp := Denotes.wf hacc.1
    have hs1 := accumulate_sign hd hwp hi g5
    obtain ⟨d2, n1, n2, n3⟩ := accumulate_nanos hd hwp
    rw [n1] at g5
    cases g5
    rw [g1] at hsafe
    cases next with
    | none => cases g6; exact hs1 hn
    | some c' =>
      obtain ⟨hr, hat⟩ : rest ≠ [] ∧ At I 1 c' rest := k2.2.2
      have hm := hsafe.2 c' rfl
      exact ih d1 n2 hs1 (hat.le (Nat.zero_le _)) hr (by have := hm.2.1; omega) g6

theorem durations_unique {cfg : Config} {units : TimeUnitsLike} {keywords : Option TimeUnitsLike} {numerals : Option NumbersLike} {s : Bytes}
    {ds ds' : List Duration} (h : DenotesMultiple cfg units keywords numerals s ds)
    (h' : DenotesMultiple cfg units keywords numerals s ds') : ds = ds' := by
  obtain ⟨items, h1, h2⟩ := h
  obtain ⟨items', h1', h2'⟩ := h'
  cases C27_unambiguous_multiple cfg units keywords numerals s items items' h1 h1'
  clear h1 h1'
  induction h2 generalizing ds' with
  | nil => cases h2'; rfl
  | cons k _ ih =>
    cases h2' with
    | cons k' g => rw [denotes_unique k.1 k'.1, ih g]

section
variable (cfg : Config) (units : TimeUnitsLike) (keywords : Option TimeUnitsLike) (numerals : Option NumbersLike)

/-- C99: The result of a parser of several durations is marked as negative exactly if it is less than zero. -/
theorem C99_sign (s : Bytes) (d : Duration) (hs : IsText s) (hc : CfgText cfg) (hm : cfg.allowMultiple = true)
    (hd : (∀ b, cfg.innerDelimiter b = true → cfg.outerDelimiter b = true) ∨ (keywords = none ∧ numerals = none))
    (h : parse cfg units keywords numerals s = .ok d) : d.isNegative = true ↔ nanos d < 0 := by
  constructor
  · intro hn
    rw [C33_buffer_transparent cfg units keywords numerals s (hd.imp_right Or.inl)] at h
    unfold parseUnbuffered parseWith parseMultiple at h
    simp only [hm, if_true] at h
    have hI := (isText_iff s).mp hs
    by_cases hne : s = []
    · subst hne; cases h
    · exact loop_sign (env := ⟨cfg, units, keywords, numerals, fun d c => c.advanceTo d⟩)
        (envOk_plain hc units keywords numerals) rfl _ Duration.ZERO (by decide) (fun h => by cases h)
        ⟨Inv.new hI, Cursor.rest_new s, Nat.zero_le _⟩ hne (by show _ < 0 + _; omega) d h hn
  · intro hn
    unfold nanos at hn
    by_contra h'
    rw [if_neg h'] at hn
    omega

/-- C99: Hence the result is a single duration which can be computed from the durations in the text: the saturating sum from left to
right, marked as negative exactly if it is less than zero. -/
theorem C99_exact (s : Bytes) (d : Duration) (hs : IsText s) (hc : CfgText cfg) (hm : cfg.allowMultiple = true)
    (hd : (∀ b, cfg.innerDelimiter b = true → cfg.outerDelimiter b = true) ∨ (keywords = none ∧ numerals = none)) :
    parse cfg units keywords numerals s = .ok d ↔
      ∃ ds, DenotesMultiple cfg units keywords numerals s ds ∧ d.WF ∧ nanos d = saturatingSum (ds.map nanos) ∧
        (d.isNegative = true ↔ nanos d < 0) := by
  constructor
  · intro h
    obtain ⟨hw, ds, h1, h2⟩ := C29_saturating_sum cfg units keywords numerals s hs hc hm hd d h
    exact ⟨ds, h1, hw, h2, C99_sign cfg units keywords numerals s d hs hc hm hd h⟩
  · rintro ⟨ds, h1, h2, h3, h4⟩
    obtain ⟨d', k1, k2, k3⟩ := (C27_multiple cfg units keywords numerals s _ hs hc hm hd).2 ⟨ds, h1, rfl⟩
    have k4 := C99_sign cfg units keywords numerals s d' hs hc hm hd k1
    rw [k1]
    have hn : nanos d' = nanos d := k3.trans h3.symm
    have hb : d'.isNegative = d.isNegative := by rw [Bool.eq_iff_iff, k4, h4, hn]
    obtain ⟨n, ⟨s', k⟩⟩ := d
    obtain ⟨n', ⟨s'', k'⟩⟩ := d'
    dsimp only at hb
    subst hb
    have g1 : k < 1000000000 := h2.2
    have g2 : k' < 1000000000 := k2.2
    unfold nanos at hn
    dsimp only at hn
    have : s'' = s' ∧ k' = k := by cases n' <;> simp only [Bool.false_eq_true, if_true, if_false] at hn <;> omega
    rw [this.1, this.2]

/-- C99: Texts with the same durations have the same result. -/
theorem C99_same (s s' : Bytes) (ds : List Duration) (hs : IsText s) (hs' : IsText s') (hc : CfgText cfg) (hm : cfg.allowMultiple = true)
    (hd : (∀ b, cfg.innerDelimiter b = true → cfg.outerDelimiter b = true) ∨ (keywords = none ∧ numerals = none))
    (h : DenotesMultiple cfg units keywords numerals s ds) (h' : DenotesMultiple cfg units keywords numerals s' ds) :
    ∃ d, parse cfg units keywords numerals s = .ok d ∧ parse cfg units keywords numerals s' = .ok d := by
  obtain ⟨d, k1, k2, k3⟩ := (C27_multiple cfg units keywords numerals s _ hs hc hm hd).2 ⟨ds, h, rfl⟩
  exact ⟨d, k1, (C99_exact cfg units keywords numerals s' d hs' hc hm hd).2
    ⟨ds, h', k2, k3, C99_sign cfg units keywords numerals s d hs hc hm hd k1⟩⟩

end

example : ∃ d, (joinParser.allowNegative true).parse (b! "3h -4h -1e-20s") = .ok d ∧ d.isNegative = true ∧ nanos d = -3600000000000 :=
  ⟨⟨true, ⟨3600, 0⟩⟩, by decide +kernel, (C99_sign (joinParser.allowNegative true).config joinParser.timeUnits.like none none _ _
    (isText_ascii (by decide)) ⟨defaultConfig_text.inner, defaultConfig_text.outer, by intro ws h; cases h⟩ rfl (Or.inl fun _ h => h)
    (by decide +kernel : (joinParser.allowNegative true).parse (b! "3h -4h -1e-20s") = .ok ⟨true, ⟨3600, 0⟩⟩)).2 (by decide), by decide⟩

/-- C99, it is different for single durations and for relative times: there a zero can be marked as negative (finding F3). -/
theorem C99_negative_zero :
    (joinParser.allowNegative true).parse (b! "-1e-10s") = .ok ⟨false, ⟨0, 0⟩⟩ ∧
    (DurationParser.new.allowNegative true).parse (b! "-1e-10s") = .ok ⟨true, ⟨0, 0⟩⟩ ∧
    Gnu.parseFuzzy (b! "1sec -1sec") = .ok (0, 0, ⟨false, ⟨0, 0⟩⟩) ∧
    Gnu.parseFuzzy (b! "1sec -1sec -0.0000000001") = .ok (0, 0, ⟨true, ⟨0, 0⟩⟩) := by decide +kernel

end Fundu.Props
