import Verif.Spec.Order
import Verif.Props.Builder
import Verif.Props.Units
import Verif.Props.Standard
/-!
# Property C87: the order in which words are added does not matter

The specification is `Verif/Spec/Order.lean`.
-/
namespace Fundu.Props
open Fundu Fundu.Spec

theorem same_get {units units' : List CustomTimeUnit} (h : SameUnits units units') (h1 : OneMeaning units) (id : Bytes) :
    (CustomTimeUnits.withTimeUnits units).like.get id = (CustomTimeUnits.withTimeUnits units').like.get id := by
  have key : ∀ {us us' : List CustomTimeUnit}, SameUnits us us' → OneMeaning us' → ∀ x,
      (CustomTimeUnits.withTimeUnits us).like.get id = some x → (CustomTimeUnits.withTimeUnits us').like.get id = some x := by
    intro us us' g g1 x hx
    obtain ⟨u, m⟩ := x
    obtain ⟨r, hr, rfl, rfl, hid⟩ := C36_sound us id u m hx
    obtain ⟨r', hr', hid', e1, e2⟩ := (g id _ _).1 ⟨r, hr, hid, rfl, rfl⟩
    rw [← e1, ← e2]
    refine C36_unique us' id r' hr' hid' ((C36_resolves us id).1 ⟨_, hx⟩).1 fun r2 hr2 hid2 => ?_
    exact g1 id _ _ _ _ ⟨r2, hr2, hid2, rfl, rfl⟩ ⟨r', hr', hid', rfl, rfl⟩
  have h2 : OneMeaning units' := fun id u m u' m' a b => h1 id u m u' m' ((h _ _ _).2 a) ((h _ _ _).2 b)
  cases g : (CustomTimeUnits.withTimeUnits units).like.get id with
  | some x => exact (key h h2 x g).symm
  | none =>
    cases g' : (CustomTimeUnits.withTimeUnits units').like.get id with
    | none => rfl
    | some x =>
      have := key (us := units') (us' := units) (fun id u m => (h id u m).symm) h1 x g'
      rw [g] at this
      cases this

/-- the tables are the same -/
theorem same_like {units units' : List CustomTimeUnit} (h : SameUnits units units') (h1 : OneMeaning units) :
    (CustomTimeUnits.withTimeUnits units).like = (CustomTimeUnits.withTimeUnits units').like := by
  have e : (CustomTimeUnits.withTimeUnits units).like.isEmpty = (CustomTimeUnits.withTimeUnits units').like.isEmpty := by
    rw [Bool.eq_iff_iff, C36_is_empty, C36_is_empty]
    constructor
    · intro g r hr id hid
      obtain ⟨r', hr', hid', -⟩ := (h id _ _).2 ⟨r, hr, hid, rfl, rfl⟩
      exact g r' hr' id hid'
    · intro g r hr id hid
      obtain ⟨r', hr', hid', -⟩ := (h id _ _).1 ⟨r, hr, hid, rfl, rfl⟩
      exact g r' hr' id hid'
  have g := funext (same_get h h1)
  generalize (CustomTimeUnits.withTimeUnits units).like = a at *
  generalize (CustomTimeUnits.withTimeUnits units').like = b at *
  cases a; cases b
  simp only at e g
  rw [e, g]

theorem same_numerals {ns ns' : List Numeral} (h : SameNumerals ns ns') (h1 : OneNumber ns) : numeralsGet ns = numeralsGet ns' := by
  have key : ∀ {us us' : List Numeral}, SameNumerals us us' → OneNumber us' → ∀ id x,
      numeralsGet us id = some x → numeralsGet us' id = some x := by
    intro us us' g g1 id x hx
    obtain ⟨before, n, after, e, k1, k2, -⟩ := (C37_get us id x).1 hx
    obtain ⟨n', hn', hid', e1⟩ := (g.2 id _).1 ⟨n, by rw [e]; simp, k1, k2⟩
    cases g' : numeralsGet us' id with
    | none => exact absurd hid' ((C37_none us' id).1 g' n' hn')
    | some y =>
      obtain ⟨before', n2, after', e', q1, q2, -⟩ := (C37_get us' id y).1 g'
      rw [← q2, ← e1, g1 n2 (by rw [e']; simp) n' hn' id q1 hid']
  have h2 : OneNumber ns' := by
    intro n hn n' hn' id hid hid'
    obtain ⟨a, ha, ha1, ha2⟩ := (h.2 id _).2 ⟨n, hn, hid, rfl⟩
    obtain ⟨b, hb, hb1, hb2⟩ := (h.2 id _).2 ⟨n', hn', hid', rfl⟩
    rw [← ha2, ← hb2]
    exact h1 a ha b hb id ha1 hb1
  funext id
  cases g : numeralsGet ns id with
  | some x => exact (key h h2 id x g).symm
  | none =>
    cases g' : numeralsGet ns' id with
    | none => rfl
    | some x =>
      have := key (us := ns') (us' := ns) ⟨h.1.symm, fun id m => (h.2 id m).symm⟩ h1 id x g'
      rw [g] at this
      cases this

/-- the settings depend only on the calls which set options -/
theorem options_config (calls : List CustomCall) (p q : CustomDurationParser) (h : p.config = q.config) :
    (calls.foldl callCustomSetter p).config = ((calls.flatMap CustomCall.options).foldl callCustomParser q).config := by
  induction calls generalizing p q with
  | nil => exact h
  | cons c l ih =>
    rw [List.foldl_cons, List.flatMap_cons, List.foldl_append]
    apply ih
    cases c with
    | timeUnit _ => exact h
    | timeUnits us => show (us.foldl _ p).config = _; rw [foldl_timeUnit]; exact h
    | keyword _ => exact h
    | keywords ks => show (ks.foldl _ p).config = _; rw [foldl_keyword]; exact h
    | numeral _ => exact h
    | numerals ns => show (ns.foldl _ p).config = _; rw [foldl_numeral]; exact h
    | option c =>
      show (callCustomParser p c.setter).config = (callCustomParser q c.setter).config
      obtain ⟨a, b, c1, cfg⟩ := p
      obtain ⟨a', b', c1', cfg'⟩ := q
      simp only at h
      subst h
      cases c <;> rfl

/-- C87: parsers which were given the same words with the same meanings - in any order, in any groups and any number of times -
and the same options give the same result for every text, also the same errors, if no word has two meanings. -/
theorem C87_custom (calls calls' : List CustomCall)
    (hoptions : calls.flatMap CustomCall.options = calls'.flatMap CustomCall.options)
    (hunits : SameUnits (calls.flatMap CustomCall.units) (calls'.flatMap CustomCall.units))
    (hkeywords : SameUnits ((calls.flatMap CustomCall.keywordUnits).map (·.timeUnit))
      ((calls'.flatMap CustomCall.keywordUnits).map (·.timeUnit)))
    (hnumerals : SameNumerals (calls.flatMap CustomCall.numeralList) (calls'.flatMap CustomCall.numeralList))
    (ounits : OneMeaning (calls.flatMap CustomCall.units))
    (okeywords : OneMeaning ((calls.flatMap CustomCall.keywordUnits).map (·.timeUnit)))
    (onumerals : OneNumber (calls.flatMap CustomCall.numeralList)) (s : Bytes) :
    (calls.foldl callCustomSetter CustomDurationParser.new).parse s =
      (calls'.foldl callCustomSetter CustomDurationParser.new).parse s := by
  obtain ⟨a1, a2, a3⟩ := C35_custom_tables calls
  obtain ⟨b1, b2, b3⟩ := C35_custom_tables calls'
  have e : (calls.foldl callCustomSetter CustomDurationParser.new).config =
      (calls'.foldl callCustomSetter CustomDurationParser.new).config := by
    rw [options_config calls _ CustomDurationParser.new rfl, options_config calls' _ CustomDurationParser.new rfl, hoptions]
  have k : (CustomTimeUnits.withKeywords (calls.flatMap CustomCall.keywordUnits)).like =
      (CustomTimeUnits.withKeywords (calls'.flatMap CustomCall.keywordUnits)).like := by
    rw [C36_keywords, C36_keywords]; exact same_like hkeywords okeywords
  have k' : (CustomTimeUnits.withKeywords (calls.flatMap CustomCall.keywordUnits)).isEmpty =
      (CustomTimeUnits.withKeywords (calls'.flatMap CustomCall.keywordUnits)).isEmpty := congrArg TimeUnitsLike.isEmpty k
  have n : (calls.flatMap CustomCall.numeralList).isEmpty = (calls'.flatMap CustomCall.numeralList).isEmpty := by
    rw [Bool.eq_iff_iff, List.isEmpty_iff, List.isEmpty_iff]; exact hnumerals.1
  unfold CustomDurationParser.parse
  rw [a1, a2, a3, b1, b2, b3, e, k, k', n, same_like hunits ounits, same_numerals hnumerals onumerals]

/-- C87, the usual case: a permutation of the calls -/
theorem C87_permutation (calls calls' : List CustomCall) (h : calls.Perm calls')
    (hoptions : calls.flatMap CustomCall.options = calls'.flatMap CustomCall.options)
    (ounits : OneMeaning (calls.flatMap CustomCall.units))
    (okeywords : OneMeaning ((calls.flatMap CustomCall.keywordUnits).map (·.timeUnit)))
    (onumerals : OneNumber (calls.flatMap CustomCall.numeralList)) (s : Bytes) :
    (calls.foldl callCustomSetter CustomDurationParser.new).parse s =
      (calls'.foldl callCustomSetter CustomDurationParser.new).parse s := by
  have hm : ∀ {α : Type} (f : CustomCall → List α) (x : α), x ∈ calls.flatMap f ↔ x ∈ calls'.flatMap f := by
    intro α f x
    simp only [List.mem_flatMap, h.mem_iff]
  refine C87_custom calls calls' hoptions ?_ ?_ ⟨?_, ?_⟩ ounits okeywords onumerals s
  · intro id u m
    simp only [StandsFor, hm]
  · intro id u m
    simp only [StandsFor, List.mem_map, hm]
  · rw [List.eq_nil_iff_forall_not_mem, List.eq_nil_iff_forall_not_mem]
    simp only [hm]
  · intro id m
    simp only [hm]

/-- C87, DurationParser: neither the order of the time units nor how often they are listed matters. -/
theorem C87_standard (units units' : List TimeUnit) (h : ∀ u, u ∈ units ↔ u ∈ units') :
    DurationParser.withTimeUnits units = DurationParser.withTimeUnits units' := by
  have : TimeUnits.withTimeUnits units = TimeUnits.withTimeUnits units' := by
    have e1 := withTimeUnits_eq units
    have e2 := withTimeUnits_eq units'
    simp only [h] at e1
    rw [← e2] at e1
    generalize TimeUnits.withTimeUnits units = a at *
    generalize TimeUnits.withTimeUnits units' = b at *
    cases a; cases b
    simp only at e1
    rw [e1]
  unfold DurationParser.withTimeUnits
  rw [this]

/-! ## Examples -/

def orderUnits : List CustomTimeUnit := [⟨.hour, ⟨1, 0⟩, [b! "h", b! "hours"]⟩, ⟨.week, ⟨2, 0⟩, [b! "fortnight"]⟩]

def orderCalls : List CustomCall :=
  [.timeUnits orderUnits, .keyword ⟨⟨.day, ⟨-1, 0⟩, [b! "yesterday"]⟩⟩, .numeral ⟨[b! "a", b! "one"], ⟨1, 0⟩⟩,
    .option .allowTimeUnitDelimiter]

/-- other groups, another order, and one word twice -/
def otherCalls : List CustomCall :=
  [.numeral ⟨[b! "one"], ⟨1, 0⟩⟩, .timeUnit ⟨.hour, ⟨1, 0⟩, [b! "hours"]⟩, .option .allowTimeUnitDelimiter,
    .numeral ⟨[b! "a", b! "one"], ⟨1, 0⟩⟩, .timeUnit ⟨.week, ⟨2, 0⟩, [b! "fortnight"]⟩,
    .keyword ⟨⟨.day, ⟨-1, 0⟩, [b! "yesterday"]⟩⟩, .timeUnit ⟨.hour, ⟨1, 0⟩, [b! "h"]⟩]

/-- the two parsers are the same -/
theorem same_parser (s : Bytes) : (orderCalls.foldl callCustomSetter CustomDurationParser.new).parse s =
    (otherCalls.foldl callCustomSetter CustomDurationParser.new).parse s := by
  have one : ∀ {us : List CustomTimeUnit}, (∀ r ∈ us, ∀ r' ∈ us, ∀ id ∈ r.identifiers, id ∈ r'.identifiers →
      r.baseUnit = r'.baseUnit ∧ r.multiplier = r'.multiplier) → OneMeaning us := by
    rintro us h id u m u' m' ⟨r, hr, hid, rfl, rfl⟩ ⟨r', hr', hid', rfl, rfl⟩
    exact h r hr r' hr' id hid hid'
  have same : ∀ {us us' : List CustomTimeUnit}, (∀ r ∈ us, ∀ id ∈ r.identifiers, ∃ r' ∈ us', id ∈ r'.identifiers ∧
      r'.baseUnit = r.baseUnit ∧ r'.multiplier = r.multiplier) → ∀ {id u m}, StandsFor us id u m → StandsFor us' id u m := by
    rintro us us' h id u m ⟨r, hr, hid, rfl, rfl⟩
    exact h r hr id hid
  have number : ∀ {ns ns' : List Numeral}, (∀ n ∈ ns, ∀ id ∈ n.identifiers, ∃ n' ∈ ns', id ∈ n'.identifiers ∧
      n'.multiplier = n.multiplier) → ∀ {id m}, (∃ n ∈ ns, id ∈ n.identifiers ∧ n.multiplier = m) →
        ∃ n ∈ ns', id ∈ n.identifiers ∧ n.multiplier = m := by
    rintro ns ns' h id m ⟨n, hn, hid, rfl⟩
    exact h n hn id hid
  exact C87_custom orderCalls otherCalls (by rfl) (fun id u m => ⟨same (by decide +kernel), same (by decide +kernel)⟩)
    (fun id u m => ⟨same (by decide +kernel), same (by decide +kernel)⟩)
    ⟨by decide +kernel, fun id m => ⟨number (by decide +kernel), number (by decide +kernel)⟩⟩ (one (by decide +kernel))
    (one (by decide +kernel)) (by unfold OneNumber; decide +kernel) s

example : (orderCalls.foldl callCustomSetter CustomDurationParser.new).parse (b! "one fortnight") = .ok ⟨false, ⟨1209600, 0⟩⟩ := by
  decide +kernel

/-- two meanings of a word: the order matters -/
theorem C87_condition_needed :
    ∃ (calls calls' : List CustomCall) (s : Bytes), calls.Perm calls' ∧
      calls.flatMap CustomCall.options = calls'.flatMap CustomCall.options ∧
      (calls.foldl callCustomSetter CustomDurationParser.new).parse s ≠
        (calls'.foldl callCustomSetter CustomDurationParser.new).parse s :=
  ⟨[.timeUnit ⟨.minute, ⟨1, 0⟩, [b! "m"]⟩, .timeUnit ⟨.month, ⟨1, 0⟩, [b! "m"]⟩],
    [.timeUnit ⟨.month, ⟨1, 0⟩, [b! "m"]⟩, .timeUnit ⟨.minute, ⟨1, 0⟩, [b! "m"]⟩], b! "1m", .swap .., rfl, by decide +kernel⟩

example : DurationParser.withTimeUnits [.year, .second, .year] = DurationParser.withTimeUnits [.second, .year] :=
  C87_standard _ _ (by intro u; simp; tauto)

end Fundu.Props
