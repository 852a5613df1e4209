import Verif.Proofs.Negated
import Verif.Props.Exact
import Verif.Props.Literal
import Verif.Props.Concat
/-!
# C90: the opposite of a text is the negation of its value
-/
namespace Fundu.Props
open Fundu Fundu.Spec

/-- the power of ten of a word is small enough for its sign (see finding F1) -/
def SmallItem : Item → Prop
  | .word u => u.1.multiplier.exponent + u.2.exponent ≤ 19
  | .numeral q u => q.exponent + u.1.multiplier.exponent + u.2.exponent ≤ 19
  | _ => True

section
variable {cfg : Config} {units : TimeUnitsLike} {keywords : Option TimeUnitsLike} {numerals : Option NumbersLike}

theorem agoPart_exponent {s r : Bytes} {m m' : Multiplier} (h : AgoPart cfg s m m' r) : m'.exponent = m.exponent := by
  cases h <;> rfl

theorem multi_small (hw : SmallExponents units keywords numerals) {s r : Bytes} {item : Item}
    (h : MultiText cfg units keywords numerals s item r) : SmallItem item := by
  have unit : ∀ {s r : Bytes} {u : TimeUnit} {m : Multiplier}, UnitMulti cfg units s (u, m) r →
      ∃ id m', units.get id = some (u, m') ∧ m'.exponent = m.exponent := by
    intro s r u m h
    cases h with
    | mk h1 h2 _ =>
      obtain ⟨w, -, -, h1⟩ := h1
      exact ⟨w, _, h1, (agoPart_exponent h2).symm⟩
  cases h with
  | numberEnd => trivial
  | numberUnit => trivial
  | number => trivial
  | inf => trivial
  | infinity => trivial
  | keyword _ h2 h3 _ =>
    obtain ⟨w, -, -, h3⟩ := h3
    exact hw.ofKeywords _ h2 w _ _ h3
  | unit _ _ _ h4 =>
    obtain ⟨id, m', g1, g2⟩ := unit h4
    have := hw.ofUnits id _ m' g1
    rw [g2] at this
    exact this
  | numeral _ _ _ h4 _ _ h7 _ _ h10 =>
    obtain ⟨id, m', g1, g2⟩ := unit h10
    have := hw.ofNumerals _ h4 _ _ h7 id _ m' g1
    rw [g2] at this
    exact this

theorem denotes_other {neg : Bool} {item : Item} {d : Duration} (hi : SmallItem item) (h : Denotes cfg neg item d) :
    ∃ d', Denotes cfg (!neg) item d' ∧ nanos d' = -nanos d := by
  cases h with
  | number h =>
    obtain ⟨d', hd'⟩ := value_exists (!neg) _ _ _ _
    exact ⟨d', .number hd', value_opposite h hd'⟩
  | numberUnit hf h =>
    obtain ⟨d', hd'⟩ := value_exists (!neg) _ _ _ _
    exact ⟨d', .numberUnit hf hd', value_opposite h hd'⟩
  | infinity h1 h2 =>
    cases neg with
    | false => exact ⟨⟨true, ⟨18446744073709551615, 999999999⟩⟩, .infinity (by decide) (by decide), by rw [h2]; decide⟩
    | true => exact ⟨⟨false, ⟨18446744073709551615, 999999999⟩⟩, .infinity (by decide) (by decide), by rw [h2]; decide⟩
  | @word u m _ h1 h2 =>
    have he : (product u.multiplier m).exponent ≤ 19 := hi
    rw [decide_eq_true he, Bool.and_true] at h2
    obtain ⟨d', hd'⟩ := value_exists (!neg) (b! "1") [] 0 (product u.multiplier m)
    exact ⟨d', .word h1 (by rw [decide_eq_true he, Bool.and_true]; exact hd'), value_opposite h2 hd'⟩
  | @numeral q u m _ h1 h2 h3 =>
    have he : (product (product q u.multiplier) m).exponent ≤ 19 := hi
    rw [decide_eq_true he, Bool.and_true] at h3
    obtain ⟨d', hd'⟩ := value_exists (!neg) (b! "1") [] 0 (product (product q u.multiplier) m)
    exact ⟨d', .numeral h1 h2 (by rw [decide_eq_true he, Bool.and_true]; exact hd'), value_opposite h3 hd'⟩

theorem accepted_other (ha : cfg.allowNegative = true) {items : List (Bool × Item)} (hi : ∀ i ∈ items, SmallItem i.2) {ds : List Duration}
    (h : List.Forall₂ (fun i d => Accepted cfg i.1 i.2 d) items ds) :
    ∃ ds', List.Forall₂ (fun i d => Accepted cfg i.1 i.2 d) (items.map Negated.other) ds' ∧ ds'.map nanos = (ds.map nanos).map (- ·) := by
  induction h with
  | nil => exact ⟨[], .nil, rfl⟩
  | @cons i d items ds h1 _ ih =>
    obtain ⟨ds', g1, g2⟩ := ih fun i hi' => hi i (by simp [hi'])
    obtain ⟨d', k1, k2⟩ := denotes_other (hi i (by simp)) h1.1
    exact ⟨d' :: ds', .cons ⟨k1, Or.inl ha⟩ g1, by simp [k2, g2]⟩

theorem saturatingSum_neg (l : List Int) : saturatingSum (l.map (- ·)) = -saturatingSum l := by
  have key : ∀ a, (l.map (- ·)).foldl (fun acc x => clamp (acc + x)) (-a) = -l.foldl (fun acc x => clamp (acc + x)) a := by
    induction l with
    | nil => intro a; rfl
    | cons x l ih =>
      intro a
      simp only [List.map_cons, List.foldl_cons]
      rw [← ih]
      congr 1
      have : (0 : Int) ≤ maxNanos := by decide
      unfold clamp
      omega
  exact key 0

theorem durations_opposite {s : Bytes} {l : List (Bool × Item)} (h : Durations cfg units keywords numerals s l) :
    ∃ t, Opposite cfg units keywords numerals s t := by
  have total : ∀ s : Bytes, ∃ t, OtherSign s t := by
    intro s
    by_cases hs : StartsWith (fun b => b = 43 ∨ b = 45) s
    · obtain ⟨b, r, rfl, rfl | rfl⟩ := hs
      · exact ⟨_, Or.inr (Or.inl ⟨r, rfl, rfl⟩)⟩
      · exact ⟨_, Or.inr (Or.inr ⟨r, rfl, rfl⟩)⟩
    · exact ⟨_, Or.inl ⟨hs, rfl⟩⟩
  have suff : ∀ {s r : Bytes} {neg : Bool}, SignPart cfg s neg r → r <:+ s := by
    intro s r neg h
    cases h with
    | absent => exact List.suffix_refl _
    | plus h _ => exact (Negated.afterDelims_suffix h).trans (List.suffix_cons _ _)
    | minus h _ => exact (Negated.afterDelims_suffix h).trans (List.suffix_cons _ _)
  induction h with
  | @last s _ _ _ h1 h2 =>
    obtain ⟨t, ht⟩ := total s
    exact ⟨t, .last h1 h2 ht⟩
  | @more s neg r item rest l h1 h2 h3 _ ih =>
    obtain ⟨rest', hr⟩ := ih
    obtain ⟨front, hf⟩ := (Negated.multi_suffix h2).trans (suff h1)
    obtain ⟨t, ht⟩ := total (front ++ rest')
    exact ⟨t, .more h1 h2 h3 hf.symm hr ht⟩

theorem other_other (items : List (Bool × Item)) : (items.map Negated.other).map Negated.other = items := by
  rw [List.map_map]
  refine (List.map_congr_left fun i _ => ?_).trans (List.map_id _)
  simp [Negated.other]

end

section
variable (cfg : Config) (units : TimeUnitsLike) (keywords : Option TimeUnitsLike) (numerals : Option NumbersLike)

/-- C90: If negative durations are allowed, writing the other sign in front of each duration of a text negates the result; the new text
is accepted exactly if the old one is. The words need powers of ten of at most 19 (finding F1). -/
theorem C90_opposite (s t : Bytes) (hs : IsText s) (ht : IsText t) (hc : CfgText cfg) (hm : cfg.allowMultiple = true)
    (ha : cfg.allowNegative = true)
    (hd : (∀ b, cfg.innerDelimiter b = true → cfg.outerDelimiter b = true) ∨ (keywords = none ∧ numerals = none))
    (ho : Orderly cfg units keywords numerals) (hn : NoSigns cfg) (hw : SmallExponents units keywords numerals)
    (h : Opposite cfg units keywords numerals s t) (x : Int) :
    Gives (parse cfg units keywords numerals t) (-x) ↔ Gives (parse cfg units keywords numerals s) x := by
  obtain ⟨items, h1, h2, h3, -⟩ := Negated.opposite_durations hn ho hd (P := SmallItem) (multi_small hw) h
  unfold Gives
  rw [C27_multiple cfg units keywords numerals s x hs hc hm hd, C27_multiple cfg units keywords numerals t (-x) ht hc hm hd]
  constructor
  · rintro ⟨ds, ⟨items', g1, g2⟩, g3⟩
    obtain rfl := C27_unambiguous_multiple cfg units keywords numerals t _ _ g1 h2
    obtain ⟨ds', k1, k2⟩ := accepted_other ha (by
      intro i hi
      obtain ⟨j, hj, rfl⟩ := List.mem_map.1 hi
      exact h3 j hj) g2
    rw [other_other] at k1
    refine ⟨ds', ⟨items, h1, k1⟩, ?_⟩
    rw [k2, saturatingSum_neg]
    omega
  · rintro ⟨ds, ⟨items', g1, g2⟩, g3⟩
    obtain rfl := C27_unambiguous_multiple cfg units keywords numerals s _ _ g1 h1
    obtain ⟨ds', k1, k2⟩ := accepted_other ha h3 g2
    refine ⟨ds', ⟨_, h2, k1⟩, ?_⟩
    rw [k2, saturatingSum_neg]
    omega

/-- C90: every accepted text has an opposite. -/
theorem C90_exists (s : Bytes) (d : Duration) (hs : IsText s) (hc : CfgText cfg) (hm : cfg.allowMultiple = true)
    (hd : (∀ b, cfg.innerDelimiter b = true → cfg.outerDelimiter b = true) ∨ (keywords = none ∧ numerals = none))
    (h : parse cfg units keywords numerals s = .ok d) : ∃ t, Opposite cfg units keywords numerals s t := by
  have hwf : d.WF := parse_wf hs hc h
  obtain ⟨ds, ⟨items, h1, -⟩, -⟩ := (C27_multiple cfg units keywords numerals s (nanos d) hs hc hm hd).1 ⟨d, h, hwf, rfl⟩
  exact durations_opposite h1

end

/-- C90 for a `DurationParser` with any time units and white space as delimiters. -/
theorem C90_standard (us : List TimeUnit) (cfg : Config) (s t : Bytes) (hs : IsText s) (ht : IsText t) (hc : CfgText cfg)
    (hm : cfg.allowMultiple = true) (ha : cfg.allowNegative = true) (hi : cfg.innerDelimiter = isAsciiWhitespace)
    (hou : cfg.outerDelimiter = isAsciiWhitespace) (hj : ∀ w ∈ cfg.conjunctions.getD [], ∀ b ∈ w, b ≠ 43 ∧ b ≠ 45)
    (h : Opposite cfg (DurationParser.withTimeUnits us).timeUnits.like none none s t) (x : Int) :
    Gives (parse cfg (DurationParser.withTimeUnits us).timeUnits.like none none t) (-x) ↔
      Gives (parse cfg (DurationParser.withTimeUnits us).timeUnits.like none none s) x := by
  refine C90_opposite cfg _ none none s t hs ht hc hm ha (Or.inl fun b h => by rw [hou]; rw [hi] at h; exact h)
    (standard_orderly cfg us (whitespace_delimiters _ hi hou)) ⟨?_, hj⟩ (C77_standard us) h x
  intro b hb
  have hb : isAsciiWhitespace b = true := by
    rcases hb with h | h
    · rw [hi] at h; exact h
    · rw [hou] at h; exact h
  constructor <;> rintro rfl <;> revert hb <;> decide

/-! ## Concrete cases -/

def signedParser : DurationParser := joinParser.allowNegative true

example : (∃ t, Opposite signedParser.config signedParser.timeUnits.like none none (b! "1h2m -3s") t) ∧
    signedParser.parse (b! "1h2m -3s") = .ok ⟨false, ⟨3717, 0⟩⟩ ∧ signedParser.parse (b! "-1h-2m +3s") = .ok ⟨true, ⟨3717, 0⟩⟩ :=
  ⟨C90_exists signedParser.config signedParser.timeUnits.like none none (b! "1h2m -3s") ⟨false, ⟨3717, 0⟩⟩ (isText_ascii (by decide))
    ⟨defaultConfig_text.inner, defaultConfig_text.outer, by intro ws h; cases h⟩ rfl (Or.inl fun _ h => h) (by decide +kernel),
    by decide +kernel, by decide +kernel⟩

/-- the opposite of a text of one duration -/
example : OtherSign (b! "1h") (b! "-1h") ∧ OtherSign (b! "+1h") (b! "-1h") ∧ OtherSign (b! "-1h") (b! "+1h") := by
  refine ⟨Or.inl ⟨?_, rfl⟩, Or.inr (Or.inl ⟨_, rfl, rfl⟩), Or.inr (Or.inr ⟨_, rfl, rfl⟩)⟩
  rw [show b! "1h" = 49 :: b! "h" from rfl, startsWith_cons]; decide

end Fundu.Props
