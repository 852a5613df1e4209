import Verif.Proofs.Usable
import Verif.Props.Literal
import Verif.Props.Phrases
/-!
# C89: which words can be used

The identifiers of custom time units, keywords and numerals are arbitrary texts. `Verif.Spec.Usable` says which of them can be read by
a parser with a given configuration. The others are ignored (`C89_unused_*`), and those which can be used mean what they are registered
for (`C89_used_*`).
-/
namespace Fundu.Props
open Fundu Fundu.Spec

section
variable (cfg : Config) (units units' : TimeUnitsLike) (keywords keywords' : Option TimeUnitsLike) (numerals numerals' : Option NumbersLike)

/-- C89: two parsers of a single duration, which differ only in words which cannot be used, accept the same texts with the same
results. -/
theorem C89_unused_single (s : Bytes) (d : Duration) (hs : IsText s) (hc : CfgText cfg) (hm : cfg.allowMultiple = false)
    (h : SameUsable cfg units units' keywords keywords' numerals numerals') :
    parse cfg units keywords numerals s = .ok d ↔ parse cfg units' keywords' numerals' s = .ok d := by
  rw [C27_single cfg units keywords numerals s d hs hc hm, C27_single cfg units' keywords' numerals' s d hs hc hm]
  constructor
  · rintro ⟨neg, r, item, h1, h2, h3⟩; exact ⟨neg, r, item, h1, same_single h hm h2, h3⟩
  · rintro ⟨neg, r, item, h1, h2, h3⟩; exact ⟨neg, r, item, h1, same_single h.symm hm h2, h3⟩

/-- C89: so do two parsers of several durations. -/
theorem C89_unused_multiple (s : Bytes) (x : Int) (hs : IsText s) (hc : CfgText cfg) (hm : cfg.allowMultiple = true)
    (hd : DelimitersOk cfg keywords numerals) (hd' : DelimitersOk cfg keywords' numerals')
    (h : SameUsable cfg units units' keywords keywords' numerals numerals') :
    Gives (parse cfg units keywords numerals s) x ↔ Gives (parse cfg units' keywords' numerals' s) x := by
  unfold Gives
  rw [C27_multiple cfg units keywords numerals s x hs hc hm (hd.resolve_left (by rw [hm]; decide)),
    C27_multiple cfg units' keywords' numerals' s x hs hc hm (hd'.resolve_left (by rw [hm]; decide))]
  constructor
  · rintro ⟨ds, ⟨items, h1, h2⟩, h3⟩; exact ⟨ds, ⟨items, same_durations h hm h1, h2⟩, h3⟩
  · rintro ⟨ds, ⟨items, h1, h2⟩, h3⟩; exact ⟨ds, ⟨items, same_durations h.symm hm h1, h2⟩, h3⟩

end

section
variable {cfg : Config} {units : TimeUnitsLike} {keywords : Option TimeUnitsLike} {numerals : Option NumbersLike}

/-- in front of a text which can follow a number there is a number of the value 1 -/
theorem number_in_front {r : Bytes} (h : BehindNumber cfg r) :
    ∃ N ∈ [b! "1", b! "1.", b! "1e0"], NumberText cfg (N ++ r) (b! "1") [] 0 r := by
  obtain ⟨h1, h2, h3⟩ := h
  have one : ∀ {t : Bytes}, ¬ StartsWith IsDigit t → Split IsDigit (b! "1" ++ t) (b! "1") t := fun ht => split_of (by decide) ht
  by_cases he : StartsWith (fun b => b = 101 ∨ b = 69) r ∨ (StartsWith (· = 46) r ∧ cfg.disableFraction = true)
  · have hx : cfg.disableExponent = false := by
      rcases he with he | ⟨he, hf⟩
      · exact h3 he
      · exact (h2 he).resolve_left (by rw [hf]; decide)
    refine ⟨b! "1e0", by simp, 101 :: (b! "0" ++ r), 101 :: (b! "0" ++ r), one ?_, .absent (by decide) ?_, ?_⟩
    · rw [startsWith_cons]; decide
    · rw [startsWith_cons]; decide
    · refine ExponentPart.present (neg := false) (E := b! "0") (Or.inl rfl) hx (.absent ?_) (split_of (by decide) h1) (by decide) (by decide)
      change ¬ StartsWith _ (48 :: r)
      rw [startsWith_cons]; decide
  · rw [not_or] at he
    by_cases hp : StartsWith (· = 46) r
    · have hf : cfg.disableFraction = false := by
        cases hf : cfg.disableFraction with
        | false => rfl
        | true => exact absurd ⟨hp, hf⟩ he.2
      refine ⟨b! "1.", by simp, 46 :: r, r, one ?_, .present hf (split_of (w := []) (by simp) h1) (Or.inl (by decide)), .absent he.1⟩
      rw [startsWith_cons]; decide
    · exact ⟨b! "1", by simp, r, r, one h1, .absent (by decide) hp, .absent he.1⟩

theorem unit_multi {id : Bytes} {u : TimeUnit} {m : Multiplier} (hm : cfg.allowMultiple = true) (h0 : id ≠ [])
    (hstop : ∀ b ∈ id, ¬ UnitStop cfg b) (hid : units.get id = some (u, m)) : UnitMulti cfg units id (u, m) [] := by
  refine .mk ⟨id, split_self (fun b hb => ?_), h0, hid⟩ (.absent fun _ => not_startsWith_nil) (.absent not_startsWith_nil)
  have := hstop b hb
  unfold UnitStop at this
  rwa [if_pos hm] at this

theorem unit_single {id : Bytes} {u : TimeUnit} {m : Multiplier} (hm : cfg.allowMultiple = false) (h0 : id ≠ [])
    (hstop : ∀ b ∈ id, ¬ UnitStop cfg b) (hid : units.get id = some (u, m)) : UnitSingle cfg units id (u, m) [] := by
  have key : ∀ b ∈ id, ¬ (cfg.allowAgo = true ∧ cfg.innerDelimiter b = true) := by
    intro b hb
    have := hstop b hb
    unfold UnitStop at this
    rwa [if_neg (by rw [hm]; decide)] at this
  cases ha : cfg.allowAgo with
  | false => exact .whole ha hid
  | true => exact .plain ha (split_self (fun b hb hx => key b hb ⟨ha, hx⟩)) h0 hid

/-- a number, delimiters and a time unit -/
theorem used_number {N r id : Bytes} {u : TimeUnit} {m : Multiplier} (hs : IsText (N ++ r)) (hc : CfgText cfg)
    (hd : DelimitersOk cfg keywords numerals) (hneg : cfg.allowNegative = true) (hN : NumberText cfg (N ++ r) (b! "1") [] 0 r)
    (hsign : ¬ StartsWith (fun b => b = 43 ∨ b = 45) (N ++ r))
    (hr : AfterDelims cfg.allowTimeUnitDelimiter cfg.innerDelimiter r id) (h0 : id ≠ []) (hstop : ∀ b ∈ id, ¬ UnitStop cfg b)
    (he : units.isEmpty = false) (hid : units.get id = some (u, m)) (hf : Fits u.multiplier m)
    (hx : -18 ≤ u.multiplier.exponent + m.exponent) :
    ∃ d, MultiplierValue false (product u.multiplier m) d ∧ Gives (parse cfg units keywords numerals (N ++ r)) (nanos d) := by
  have hne : N ++ r ≠ [] := by
    rintro e
    rw [e] at hN
    obtain ⟨r1, r2, h1, -⟩ := hN
    have := h1.1
    cases this
  have hsg : SignPart cfg (N ++ r) false (N ++ r) := .absent hne hsign
  have hnum : IsNumber cfg units keywords numerals (N ++ r) false (b! "1") [] 0 (product u.multiplier m) := by
    refine ⟨some (u, m), ⟨hf, rfl⟩, ?_⟩
    cases hm : cfg.allowMultiple with
    | false => exact ⟨_, hsg, .number hN (.present hr h0 he (unit_single hm h0 hstop hid))⟩
    | true => exact .last hsg (.numberUnit hN hr he (unit_multi hm h0 hstop hid))
  obtain ⟨d, h1, h2, -⟩ := number_result hs hc hd hnum
  exact ⟨d, value_one h1 hx, h2 (Or.inl hneg)⟩

theorem one_sign {N r : Bytes} (h : N ∈ [b! "1", b! "1.", b! "1e0"]) : ¬ StartsWith (fun b => b = 43 ∨ b = 45) (N ++ r) ∧ IsText N := by
  simp only [List.mem_cons, List.not_mem_nil, or_false] at h
  rcases h with rfl | rfl | rfl
  · exact ⟨by rw [show b! "1" ++ r = 49 :: r from rfl, startsWith_cons]; decide, isText_ascii (by decide)⟩
  · exact ⟨by rw [show b! "1." ++ r = 49 :: 46 :: r from rfl, startsWith_cons]; decide, isText_ascii (by decide)⟩
  · exact ⟨by rw [show b! "1e0" ++ r = 49 :: 101 :: 48 :: r from rfl, startsWith_cons]; decide, isText_ascii (by decide)⟩

/-- C89: a time unit which can follow a number immediately, and which contains no byte at which the names of time units end, does so:
one of `1`, `1.` and `1e0` in front of it is the duration of the unit. -/
theorem C89_used_behind_number (id : Bytes) {u : TimeUnit} {m : Multiplier} (hs : IsText id) (hc : CfgText cfg)
    (hd : DelimitersOk cfg keywords numerals) (hneg : cfg.allowNegative = true)
    (he : units.isEmpty = false) (hid : units.get id = some (u, m)) (hf : Fits u.multiplier m)
    (hx : -18 ≤ u.multiplier.exponent + m.exponent)
    (h0 : id ≠ []) (hstop : ∀ b ∈ id, ¬ UnitStop cfg b) (hb : BehindNumber cfg id)
    (hi : cfg.allowTimeUnitDelimiter = true → ¬ StartsWith (cfg.innerDelimiter · = true) id) :
    ∃ N ∈ [b! "1", b! "1.", b! "1e0"], ∃ d, MultiplierValue false (product u.multiplier m) d ∧
      Gives (parse cfg units keywords numerals (N ++ id)) (nanos d) := by
  obtain ⟨N, hN, hT⟩ := number_in_front hb
  refine ⟨N, hN, used_number (text_joined (one_sign (r := []) hN).2 hs) hc hd hneg hT (one_sign hN).1 ?_ h0 hstop he hid hf hx⟩
  unfold AfterDelims
  split
  · exact ⟨[], split_of (w := []) (by simp) (hi ‹_›)⟩
  · rfl

/-- C89: a time unit behind a number and a delimiter. The name may start with a digit, a point or an `e`. -/
theorem C89_used_behind_delimiter (id : Bytes) (b : UInt8) {u : TimeUnit} {m : Multiplier} (hs : IsText id) (hc : CfgText cfg)
    (hd : DelimitersOk cfg keywords numerals) (hneg : cfg.allowNegative = true)
    (he : units.isEmpty = false) (hid : units.get id = some (u, m)) (hf : Fits u.multiplier m)
    (hx : -18 ≤ u.multiplier.exponent + m.exponent)
    (h0 : id ≠ []) (hstop : ∀ b ∈ id, ¬ UnitStop cfg b) (ha : cfg.allowTimeUnitDelimiter = true)
    (hb : cfg.innerDelimiter b = true) (hb' : BehindNumber cfg [b]) (hi : ¬ StartsWith (cfg.innerDelimiter · = true) id) :
    ∃ N ∈ [b! "1", b! "1.", b! "1e0"], ∃ d, MultiplierValue false (product u.multiplier m) d ∧
      Gives (parse cfg units keywords numerals (N ++ [b] ++ id)) (nanos d) := by
  have hbi : BehindNumber cfg ([b] ++ id) := by
    obtain ⟨h1, h2, h3⟩ := hb'
    exact ⟨fun h => h1 ((startsWith_append (by simp)).1 h), fun h => h2 ((startsWith_append (by simp)).1 h),
      fun h => h3 ((startsWith_append (by simp)).1 h)⟩
  obtain ⟨N, hN, hT⟩ := number_in_front hbi
  have ht : IsText [b] := isText_ascii (by simpa using hc.inner b hb)
  simp only [List.append_assoc]
  refine ⟨N, hN, used_number (text_joined (one_sign (r := []) hN).2 (text_joined ht hs)) hc hd hneg hT (one_sign hN).1 ?_ h0 hstop he hid
    hf hx⟩
  unfold AfterDelims
  rw [if_pos ha]
  exact ⟨[b], split_of (by simpa using hb) hi⟩

/-- a word alone -/
theorem used_word {id : Bytes} {u : TimeUnit} {m : Multiplier} (hs : IsText id) (hc : CfgText cfg)
    (hd : DelimitersOk cfg keywords numerals) (hneg : cfg.allowNegative = true) (hsign : ¬ StartsWith (fun b => b = 43 ∨ b = 45) id)
    (hf : Fits u.multiplier m) (hx : -18 ≤ u.multiplier.exponent + m.exponent) (h0 : id ≠ [])
    (hS : cfg.allowMultiple = false → SingleText cfg units keywords numerals id (.word (u, m)))
    (hM : cfg.allowMultiple = true → MultiText cfg units keywords numerals id (.word (u, m)) []) :
    ∃ d, MultiplierValue false (product u.multiplier m) d ∧ Gives (parse cfg units keywords numerals id) (nanos d) := by
  obtain ⟨d, hv⟩ := value_exists false (b! "1") [] 0 (product u.multiplier m)
  refine ⟨d, value_one hv hx, ?_⟩
  have hsg : SignPart cfg id false id := .absent h0 hsign
  have hacc : Accepted cfg false (.word (u, m)) d := ⟨.word hf hv, Or.inl hneg⟩
  cases hm : cfg.allowMultiple with
  | false => exact ⟨d, (C27_single cfg units keywords numerals id d hs hc hm).2 ⟨false, _, _, hsg, hS hm, hacc⟩, hv.1, rfl⟩
  | true =>
    exact (C27_multiple cfg units keywords numerals id (nanos d) hs hc hm (hd.resolve_left (by rw [hm]; decide))).2
      ⟨[d], ⟨_, .last hsg (hM hm), .cons hacc .nil⟩, (saturatingSum_one d hv.1).symm⟩

/-- C89: a time unit alone, if it is not a keyword. -/
theorem C89_used_alone (id : Bytes) {u : TimeUnit} {m : Multiplier} (hs : IsText id) (hc : CfgText cfg)
    (hd : DelimitersOk cfg keywords numerals) (hneg : cfg.allowNegative = true)
    (hid : units.get id = some (u, m)) (hf : Fits u.multiplier m) (hx : -18 ≤ u.multiplier.exponent + m.exponent)
    (hsign : ¬ StartsWith (fun b => b = 43 ∨ b = 45) id) (hstop : ∀ b ∈ id, ¬ UnitStop cfg b)
    (ho : cfg.numberIsOptional = true) (hw : WordStart cfg id) (hk : ∀ k, keywords = some k → k.get id = none) :
    ∃ d, MultiplierValue false (product u.multiplier m) d ∧ Gives (parse cfg units keywords numerals id) (nanos d) := by
  refine used_word hs hc hd hneg hsign hf hx hw.1 (fun hm => .unit hw hk ho (unit_single hm hw.1 hstop hid))
    (fun hm => .unit hw ?_ ho (unit_multi hm hw.1 hstop hid))
  rintro k hk' ⟨u', r, w, h1, h2, h3⟩
  have hs : Split (¬ KeywordEnd cfg ·) id id [] := by
    refine split_self (fun b hb hx => hstop b hb ?_)
    unfold UnitStop
    rw [if_pos hm]
    exact Or.inr hx
  obtain ⟨rfl, -⟩ := split_unique h1 hs
  rw [hk k hk'] at h3
  cases h3

/-- C89: a keyword which can be used is the duration of its multiplier. -/
theorem C89_used_keyword (id : Bytes) {k : TimeUnitsLike} {u : TimeUnit} {m : Multiplier} (hs : IsText id) (hc : CfgText cfg)
    (hd : DelimitersOk cfg keywords numerals) (hneg : cfg.allowNegative = true)
    (hk : keywords = some k) (hid : k.get id = some (u, m)) (hf : Fits u.multiplier m) (hx : -18 ≤ u.multiplier.exponent + m.exponent)
    (hsign : ¬ StartsWith (fun b => b = 43 ∨ b = 45) id) (hu : UsableKeyword cfg id) :
    ∃ d, MultiplierValue false (product u.multiplier m) d ∧ Gives (parse cfg units keywords numerals id) (nanos d) :=
  used_word hs hc hd hneg hsign hf hx hu.1.1 (fun _ => .keyword hu.1 hk hid)
    (fun hm => .keyword hu.1 hk ⟨id, split_self (fun b hb hx => hu.2 b hb ⟨hm, hx⟩), hu.1.1, hid⟩ (.absent not_startsWith_nil))

/-- C89: a time unit whose name starts with a digit cannot be used if there are neither delimiters in front of time units nor numerals. -/
theorem C89_digit_unused (id : Bytes) (hd : StartsWith IsDigit id) (ha : cfg.allowTimeUnitDelimiter = false) :
    ¬ UsableUnit cfg none id := by
  rintro ⟨-, -, ⟨h, -⟩ | ⟨h, -⟩ | ⟨-, h⟩ | ⟨⟨n, w, q, h, -⟩, -⟩⟩
  · exact h.1 hd
  · rw [ha] at h; cases h
  · exact h.2.1 hd
  · cases h

/-- C89: a time unit whose name starts with `e` cannot be used immediately behind a number if exponents are disabled, although the `e`
cannot belong to an exponent. -/
theorem C89_exponent_unused (id : Bytes) (he : StartsWith (fun b => b = 101 ∨ b = 69) id) (ha : cfg.allowTimeUnitDelimiter = false)
    (hx : cfg.disableExponent = true) (ho : cfg.numberIsOptional = false) : ¬ UsableUnit cfg none id := by
  rintro ⟨-, -, ⟨h, -⟩ | ⟨h, -⟩ | ⟨h, -⟩ | ⟨⟨n, w, q, h, -⟩, -⟩⟩
  · have := h.2.2 he; rw [hx] at this; cases this
  · rw [ha] at h; cases h
  · rw [ho] at h; cases h
  · cases h

end

/-! ## Examples -/

/-- time units with strange names -/
def strangeUnits (extra : Bool) : TimeUnitsLike :=
  ⟨false, fun id => if id = b! "era" then some (.year, ⟨1000, 0⟩) else if id = b! ".d" then some (.day, ⟨1, 0⟩)
    else if extra && id == b! "2x" then some (.second, ⟨2, 0⟩) else none⟩

/-- the unit `2x` can be removed -/
example (s : Bytes) (d : Duration) (hs : IsText s) :
    parse {} (strangeUnits true) none none s = .ok d ↔ parse {} (strangeUnits false) none none s = .ok d := by
  refine C89_unused_single {} _ _ none none none none s d hs defaultConfig_text rfl ⟨rfl, fun id hu => ?_, fun _ _ => rfl, fun _ _ => rfl⟩
  have : id ≠ b! "2x" := by
    rintro rfl
    exact C89_digit_unused (b! "2x") ⟨50, _, rfl, by decide⟩ rfl hu
  simp [strangeUnits, this]

/-- the others can be used, behind the right numbers -/
example : parse {} (strangeUnits true) none none (b! "1e0era") = .ok ⟨false, ⟨31557600000, 0⟩⟩ ∧
    parse {} (strangeUnits true) none none (b! "1..d") = .ok ⟨false, ⟨86400, 0⟩⟩ ∧
    parse {} (strangeUnits true) none none (b! "1era") = fail (.syntax 2 .exponentWithoutDigit) ∧
    parse {} (strangeUnits true) none none (b! "1.2x") = fail (.timeUnit 3 (.invalidTimeUnit (b! "x"))) := by decide +kernel

example : BehindNumber {} (b! "era") ∧ BehindNumber {} (b! ".d") ∧ ¬ BehindNumber {} (b! "2x") ∧
    (strangeUnits true).get (b! "era") = some (.year, ⟨1000, 0⟩) ∧ Fits TimeUnit.year.multiplier ⟨1000, 0⟩ := by
  refine ⟨⟨?_, ?_, ?_⟩, ⟨?_, ?_, ?_⟩, fun h => h.1 ⟨50, _, rfl, by decide⟩, by decide, by decide⟩
  · rw [show b! "era" = 101 :: b! "ra" from rfl, startsWith_cons]; decide
  · exact fun _ => Or.inl rfl
  · exact fun _ => rfl
  · rw [show b! ".d" = 46 :: b! "d" from rfl, startsWith_cons]; decide
  · exact fun _ => Or.inl rfl
  · exact fun _ => rfl

/-- with delimiters in front of time units even `2x` can be used -/
example : parse { allowTimeUnitDelimiter := true } (strangeUnits true) none none (b! "1 2x") = .ok ⟨false, ⟨2, 0⟩⟩ ∧
    BehindNumber { allowTimeUnitDelimiter := true } [32] := by
  refine ⟨by decide +kernel, ?_, fun _ => Or.inl rfl, fun _ => rfl⟩
  rw [startsWith_cons]; decide

end Fundu.Props
