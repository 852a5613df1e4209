import Verif.Proofs.Case
import Verif.Props.Exact
import Verif.Props.Options
import Verif.Props.Builder
import Verif.Props.Order
import Verif.Props.Phrases
/-!
# Property C88: the case of letters matters in identifiers only

The specification is `Verif/Spec/Case.lean`.
-/
namespace Fundu.Props
open Fundu Fundu.Spec Fundu.Gnu

section
variable (cfg : Config) (units : TimeUnitsLike) (keywords : Option TimeUnitsLike) (numerals : Option NumbersLike)

/-- C88, one duration: if the words of the parser are known in upper and lower case, then texts which differ in the case of their
letters have the same result, or both are rejected. -/
theorem C88_single (hi : IgnoresCase cfg units keywords numerals) (hc : CfgText cfg) (hm : cfg.allowMultiple = false) (s s' : Bytes)
    (hs : IsText s) (hs' : IsText s') (h : SameText s s') (d : Duration) :
    parse cfg units keywords numerals s = .ok d ↔ parse cfg units keywords numerals s' = .ok d := by
  rw [C27_single cfg units keywords numerals s d hs hc hm, C27_single cfg units keywords numerals s' d hs' hc hm]
  exact ⟨fun g => Case.same_denotesSingle hi g h, fun g => Case.same_denotesSingle hi g (same_symm h)⟩

/-- C88, several durations. -/
theorem C88_multiple (hi : IgnoresCase cfg units keywords numerals) (hc : CfgText cfg) (hm : cfg.allowMultiple = true) (s s' : Bytes)
    (hd : (∀ b, cfg.innerDelimiter b = true → cfg.outerDelimiter b = true) ∨ (keywords = none ∧ numerals = none))
    (hs : IsText s) (hs' : IsText s') (h : SameText s s') (x : Int) :
    (∃ d, parse cfg units keywords numerals s = .ok d ∧ d.WF ∧ nanos d = x) ↔
      ∃ d, parse cfg units keywords numerals s' = .ok d ∧ d.WF ∧ nanos d = x := by
  rw [C27_multiple cfg units keywords numerals s x hs hc hm hd, C27_multiple cfg units keywords numerals s' x hs' hc hm hd]
  exact ⟨fun ⟨ds, g, e⟩ => ⟨ds, Case.same_denotesMultiple hi g h, e⟩,
    fun ⟨ds, g, e⟩ => ⟨ds, Case.same_denotesMultiple hi g (same_symm h), e⟩⟩

end

theorem whitespace_case (b c : UInt8) (h : lower b = lower c) : isAsciiWhitespace b = isAsciiWhitespace c := by
  have := caseFree_of (p := fun b => isAsciiWhitespace b = true) (by decide +kernel) b c h
  exact Bool.eq_iff_iff.2 this

/-- C88: without time units and with the default delimiters (whatever the other options are) case does not matter: numbers with `e` or
`E`, `inf` and `infinity`, and conjunctions. -/
theorem C88_without_time_units (calls : List SetterCall) (p : DurationParser) (hp : p = calls.foldl callStandardParser DurationParser.withoutTimeUnits)
    (hc : CfgText p.config) (hi : p.config.innerDelimiter = isAsciiWhitespace) (ho : p.config.outerDelimiter = isAsciiWhitespace)
    (s s' : Bytes) (hs : IsText s) (hs' : IsText s') (h : SameText s s') (x : Int) :
    (∃ d, p.parse s = .ok d ∧ d.WF ∧ nanos d = x) ↔ ∃ d, p.parse s' = .ok d ∧ d.WF ∧ nanos d = x := by
  have hu : p.timeUnits = DurationParser.withoutTimeUnits.timeUnits := by rw [hp]; exact (C35_standard_setters _ _).2
  have hcase : IgnoresCase p.config p.timeUnits.like none none := by
    refine ⟨fun b c => by rw [hi]; exact whitespace_case b c, fun b c => by rw [ho]; exact whitespace_case b c, ?_,
      (fun k hk => by cases hk), (fun k hk => by cases hk)⟩
    intro w w' _
    have key : ∀ w, p.timeUnits.like.get w = none := by
      intro w
      rw [hu]
      cases g : DurationParser.withoutTimeUnits.timeUnits.like.get w with
      | none => rfl
      | some x =>
        obtain ⟨u, hu, -⟩ := (C34_get [] w x).1 g
        cases hu
    rw [key, key]
  unfold DurationParser.parse
  cases hm : p.config.allowMultiple with
  | false =>
    have := fun d => C88_single p.config p.timeUnits.like none none hcase hc hm s s' hs hs' h d
    simp only [this]
  | true => exact C88_multiple p.config p.timeUnits.like none none hcase hc hm s s' (Or.inr ⟨rfl, rfl⟩) hs hs' h x

/-! ## CustomDurationParser -/

theorem anyCase_get {units : List CustomTimeUnit} (h : InAnyCase units) (h1 : OneMeaning units) (w w' : Bytes) (hw : SameText w w') :
    (CustomTimeUnits.withTimeUnits units).like.get w = (CustomTimeUnits.withTimeUnits units).like.get w' := by
  have key : ∀ {w w' : Bytes}, SameText w w' → ∀ x, (CustomTimeUnits.withTimeUnits units).like.get w = some x →
      (CustomTimeUnits.withTimeUnits units).like.get w' = some x := by
    intro w w' hw x hx
    obtain ⟨u, m⟩ := x
    obtain ⟨r, hr, rfl, rfl, hid⟩ := C36_sound units w u m hx
    obtain ⟨r', hr', hid', e1, e2⟩ := h w w' _ _ hw ⟨r, hr, hid, rfl, rfl⟩
    rw [← e1, ← e2]
    refine C36_unique units w' r' hr' hid' (same_ne hw ((C36_resolves units w).1 ⟨_, hx⟩).1) fun r2 hr2 hid2 => ?_
    exact h1 w' _ _ _ _ ⟨r2, hr2, hid2, rfl, rfl⟩ ⟨r', hr', hid', rfl, rfl⟩
  cases g : (CustomTimeUnits.withTimeUnits units).like.get w with
  | some x => exact (key hw x g).symm
  | none =>
    cases g' : (CustomTimeUnits.withTimeUnits units).like.get w' with
    | none => rfl
    | some x => rw [key (same_symm hw) x g'] at g; cases g

theorem anyCase_numeral {ns : List Numeral} (h : NumeralsInAnyCase ns) (h1 : OneNumber ns) (w w' : Bytes) (hw : SameText w w') :
    numeralsGet ns w = numeralsGet ns w' := by
  have key : ∀ {w w' : Bytes}, SameText w w' → ∀ x, numeralsGet ns w = some x → numeralsGet ns w' = some x := by
    intro w w' hw x hx
    obtain ⟨before, n, after, e, k1, k2, -⟩ := (C37_get ns w x).1 hx
    obtain ⟨n', hn', hid', e1⟩ := h w w' hw n (by rw [e]; simp) k1
    cases g' : numeralsGet ns w' with
    | none => exact absurd hid' ((C37_none ns w').1 g' n' hn')
    | some y =>
      obtain ⟨before', n2, after', e', q1, q2, -⟩ := (C37_get ns w' y).1 g'
      rw [← q2, ← k2, ← e1, h1 n2 (by rw [e']; simp) n' hn' w' q1 hid']
  cases g : numeralsGet ns w with
  | some x => exact (key hw x g).symm
  | none =>
    cases g' : numeralsGet ns w' with
    | none => rfl
    | some x => rw [key (same_symm hw) x g'] at g; cases g

/-- C88, CustomDurationParser: if all words are given in upper and lower case (and no word has two meanings), case does not matter
anywhere in the text. -/
theorem C88_custom (calls : List CustomCall) (p : CustomDurationParser) (hp : p = calls.foldl callCustomSetter CustomDurationParser.new)
    (hc : CfgText p.config) (hi : ∀ b c, lower b = lower c → p.config.innerDelimiter b = p.config.innerDelimiter c)
    (ho : ∀ b c, lower b = lower c → p.config.outerDelimiter b = p.config.outerDelimiter c)
    (hd : p.config.allowMultiple = true → ∀ b, p.config.innerDelimiter b = true → p.config.outerDelimiter b = true)
    (hu : InAnyCase (calls.flatMap CustomCall.units)) (hk : InAnyCase ((calls.flatMap CustomCall.keywordUnits).map (·.timeUnit)))
    (hn : NumeralsInAnyCase (calls.flatMap CustomCall.numeralList)) (ou : OneMeaning (calls.flatMap CustomCall.units))
    (ok : OneMeaning ((calls.flatMap CustomCall.keywordUnits).map (·.timeUnit))) (on : OneNumber (calls.flatMap CustomCall.numeralList))
    (s s' : Bytes) (hs : IsText s) (hs' : IsText s') (h : SameText s s') (x : Int) :
    (∃ d, p.parse s = .ok d ∧ d.WF ∧ nanos d = x) ↔ ∃ d, p.parse s' = .ok d ∧ d.WF ∧ nanos d = x := by
  obtain ⟨a1, a2, a3⟩ := C35_custom_tables calls
  rw [← hp] at a1 a2 a3
  have hcase : IgnoresCase p.config p.timeUnits.like (if !p.keywords.isEmpty then some p.keywords.like else none)
      (if !p.numerals.isEmpty then some (numeralsGet p.numerals) else none) := by
    refine ⟨hi, ho, ?_, ?_, ?_⟩
    · rw [a1]; exact anyCase_get hu ou
    · rw [a2, C36_keywords]
      intro k h
      split at h
      · cases h; exact anyCase_get hk ok
      · cases h
    · rw [a3]
      intro n h
      split at h
      · cases h; exact anyCase_numeral hn on
      · cases h
  unfold CustomDurationParser.parse
  cases hm : p.config.allowMultiple with
  | false =>
    have := fun d => C88_single p.config p.timeUnits.like _ _ hcase hc hm s s' hs hs' h d
    simp only [this]
  | true => exact C88_multiple p.config p.timeUnits.like _ _ hcase hc hm s s' (Or.inl (hd hm)) hs hs' h x

/-! ## Examples -/

/-- all ways to write a word in upper and lower case -/
def caseVariants : Bytes → List Bytes
  | [] => [[]]
  | b :: l => (caseVariants l).flatMap fun t =>
    if 97 ≤ (lower b).toNat ∧ (lower b).toNat ≤ 122 then [lower b :: t, (lower b - 32) :: t] else [b :: t]

theorem caseVariants_mem {w w' : Bytes} (h : SameText w w') : w' ∈ caseVariants w := by
  have key : ∀ n < 256, ∀ m < 256, lower (UInt8.ofNat n) = lower (UInt8.ofNat m) → UInt8.ofNat m ∈
      (if 97 ≤ (lower (UInt8.ofNat n)).toNat ∧ (lower (UInt8.ofNat n)).toNat ≤ 122 then
        [lower (UInt8.ofNat n), lower (UInt8.ofNat n) - 32] else [UInt8.ofNat n]) := by decide +kernel
  induction w generalizing w' with
  | nil => rw [same_nil h]; simp [caseVariants]
  | cons b w ih =>
    obtain ⟨c, t, rfl, h1, h2⟩ := same_cons h
    have := key b.toNat b.toNat_lt c.toNat c.toNat_lt
    rw [UInt8.ofNat_toNat, UInt8.ofNat_toNat] at this
    replace this := this h1
    unfold caseVariants
    refine List.mem_flatMap.2 ⟨t, ih h2, ?_⟩
    split
    · rename_i hl; rw [if_pos hl] at this; simpa using this
    · rename_i hl; rw [if_neg hl] at this; simpa using this

def caseCalls : List CustomCall :=
  [.timeUnit ⟨.hour, ⟨1, 0⟩, caseVariants (b! "h")⟩, .timeUnit ⟨.day, ⟨1, 0⟩, caseVariants (b! "day")⟩,
    .keyword ⟨⟨.day, ⟨1, 0⟩, caseVariants (b! "now")⟩⟩, .numeral ⟨caseVariants (b! "one"), ⟨1, 0⟩⟩,
    .option .allowTimeUnitDelimiter, .option .allowAgo, .option (.parseMultiple (some [b! "and"]))]

def caseParser : CustomDurationParser := caseCalls.foldl callCustomSetter CustomDurationParser.new

/-- C88_custom applies to this parser -/
theorem case_example (s s' : Bytes) (hs : IsText s) (hs' : IsText s') (h : SameText s s') (x : Int) :
    (∃ d, caseParser.parse s = .ok d ∧ d.WF ∧ nanos d = x) ↔ ∃ d, caseParser.parse s' = .ok d ∧ d.WF ∧ nanos d = x := by
  have one : ∀ {us : List CustomTimeUnit}, (∀ r ∈ us, ∀ r' ∈ us, ∀ id ∈ r.identifiers, id ∈ r'.identifiers →
      r.baseUnit = r'.baseUnit ∧ r.multiplier = r'.multiplier) → OneMeaning us := by
    rintro us h id u m u' m' ⟨r, hr, hid, rfl, rfl⟩ ⟨r', hr', hid', rfl, rfl⟩
    exact h r hr r' hr' id hid hid'
  have any : ∀ {us : List CustomTimeUnit}, (∀ r ∈ us, ∀ id ∈ r.identifiers, ∀ v ∈ caseVariants id, v ∈ r.identifiers) → InAnyCase us := by
    rintro us h id id' u m hid ⟨r, hr, hi, rfl, rfl⟩
    exact ⟨r, hr, h r hr id hi id' (caseVariants_mem hid), rfl, rfl⟩
  refine C88_custom caseCalls caseParser rfl ⟨defaultConfig_text.inner, defaultConfig_text.outer, ?_⟩ whitespace_case whitespace_case
    (fun _ b h => h) (any (by decide +kernel)) (any (by decide +kernel)) ?_ (one (by decide +kernel)) (one (by decide +kernel))
    (by unfold OneNumber; decide +kernel) s s' hs hs' h x
  · intro ws h
    cases h
    intro w hw
    obtain rfl : w = b! "and" := List.mem_singleton.1 hw
    exact isText_ascii (by decide)
  · intro id id' hid n hn hi
    have key : ∀ n ∈ caseCalls.flatMap CustomCall.numeralList, ∀ id ∈ n.identifiers, ∀ v ∈ caseVariants id, v ∈ n.identifiers := by
      decide +kernel
    exact ⟨n, hn, key n hn id hi id' (caseVariants_mem hid), rfl⟩

example : caseParser.parse (b! "ONE Day AGO aNd 1E1H now") = .ok ⟨false, ⟨36000, 0⟩⟩ ∧
    caseParser.parse (b! "one day ago and 1e1h now") = .ok ⟨false, ⟨36000, 0⟩⟩ := by decide +kernel

example : SameText (b! "1.5E-3") (b! "1.5e-3") ∧ DurationParser.withoutTimeUnits.parse (b! "1.5E-3") = .ok ⟨false, ⟨0, 1500000⟩⟩ := by
  decide +kernel

/-- identifiers are case sensitive: the default parser knows `s` but not `S` -/
theorem C88_identifiers_case_sensitive :
    (∃ d, DurationParser.new.parse (b! "1s") = .ok d) ∧ ¬ ∃ d, DurationParser.new.parse (b! "1S") = .ok d := by
  refine ⟨⟨⟨false, ⟨1, 0⟩⟩, by decide +kernel⟩, ?_⟩
  rintro ⟨d, h⟩
  have e : DurationParser.new.parse (b! "1S") = fail (.timeUnit 1 (.invalidTimeUnit (b! "S"))) := by decide +kernel
  rw [e] at h
  cases h

end Fundu.Props
