import Verif.Spec.Float
import Verif.Props.Regex
/-!
# Property C80: without time units, the numbers are those of the standard library

This is what the fuzz target /repo/fundu/fuzz/fuzz_targets/f64_like_input.rs tests. The specification is `Verif/Spec/Float.lean`.
-/
namespace Fundu.Props
open Fundu Fundu.Spec

/-- a parser without time units, which allows negative durations or not -/
def plainParser (negative : Bool) : DurationParser := DurationParser.withoutTimeUnits.allowNegative negative

theorem plain_text (b : Bool) : CfgText (plainParser b).config :=
  ⟨defaultConfig_text.inner, defaultConfig_text.outer, by intro ws h; cases h⟩

theorem plain_get (b : Bool) (id : Bytes) : (plainParser b).timeUnits.like.get id = none := by
  have h : (plainParser b).timeUnits = (DurationParser.withTimeUnits []).timeUnits := rfl
  rw [h]
  cases hg : (DurationParser.withTimeUnits []).timeUnits.like.get id with
  | none => rfl
  | some r =>
    obtain ⟨u, hu, -⟩ := (C34_get [] id r).1 hg
    cases hu

theorem plain_empty (b : Bool) : (plainParser b).timeUnits.like.isEmpty = true := by
  have h : (plainParser b).timeUnits = (DurationParser.withTimeUnits []).timeUnits := rfl
  rw [h]
  exact (C34_is_empty []).2 rfl

theorem letter_e {x : Bytes} (h : SameText x (b! "e")) : x = [101] ∨ x = [69] := by
  unfold SameText at h
  have hl : x.length = 1 := by
    have := congrArg List.length h
    simpa using this
  match x, hl with
  | [c], _ =>
    have key : ∀ n < 256, lower (UInt8.ofNat n) = lower 101 → UInt8.ofNat n = 101 ∨ UInt8.ofNat n = 69 := by decide +kernel
    have h1 := key c.toNat c.toNat_lt
    rw [UInt8.ofNat_toNat] at h1
    simp only [List.map_cons, List.map_nil, List.cons.injEq, and_true] at h
    rcases h1 h with rfl | rfl
    · exact Or.inl rfl
    · exact Or.inr rfl

theorem sign_part {a r : Bytes} {neg : Bool} {cfg : Config} (hs : cfg.allowSignDelimiter = false) (h : FloatSign a neg) (hne : r ≠ [])
    (h1 : ¬ StartsWith (fun b => b = 43 ∨ b = 45) r) : SignPart cfg (a ++ r) neg r := by
  have hd : AfterDelims cfg.allowSignDelimiter cfg.innerDelimiter r r := by
    unfold AfterDelims; rw [hs]; rfl
  cases h with
  | absent => exact .absent hne h1
  | plus => exact .plus hd hne
  | minus => exact .minus hd hne

theorem base_part {b W F r : Bytes} {cfg : Config} (hf : cfg.disableFraction = false) (h : FloatBase b W F)
    (h1 : ¬ StartsWith IsDigit r) (h2 : ¬ StartsWith (· = 46) r) :
    ∃ r1, Split IsDigit (b ++ r) W r1 ∧ FractionPart cfg W r1 F r := by
  cases h with
  | whole h3 h4 => exact ⟨r, ⟨rfl, h4, h1⟩, .absent h3 h2⟩
  | point h3 h4 h5 =>
    refine ⟨46 :: (F ++ r), ⟨by simp, h3, ?_⟩, .present hf ⟨rfl, h4, h1⟩ h5⟩
    rw [startsWith_cons]
    decide

theorem base_head {b W F r : Bytes} (h : FloatBase b W F) : b ≠ [] ∧ ¬ StartsWith (fun b => b = 43 ∨ b = 45) (b ++ r) := by
  cases h with
  | whole h3 h4 =>
    obtain ⟨x, W', rfl⟩ := List.exists_cons_of_ne_nil h3
    refine ⟨h3, ?_⟩
    rw [List.cons_append, startsWith_cons]
    have := digit_facts (h4 x (by simp))
    tauto
  | point h3 h4 h5 =>
    refine ⟨by simp, ?_⟩
    cases W with
    | nil => rw [List.nil_append, List.append_assoc]; show ¬ StartsWith _ (46 :: _); rw [startsWith_cons]; decide
    | cons x W =>
      rw [List.cons_append, List.cons_append, List.cons_append, startsWith_cons]
      have := digit_facts (h3 x (by simp))
      tauto

theorem base_start {b W F r : Bytes} (h : FloatBase b W F) : StartsWith (fun b => IsDigit b ∨ b = 46) (b ++ r) := by
  cases h with
  | whole h3 h4 =>
    obtain ⟨x, W', rfl⟩ := List.exists_cons_of_ne_nil h3
    exact ⟨x, _, rfl, Or.inl (h4 x (by simp))⟩
  | point h3 h4 h5 =>
    cases W with
    | nil => exact ⟨46, _, rfl, Or.inr rfl⟩
    | cons x W => exact ⟨x, _, rfl, Or.inl (h3 x (by simp))⟩

/-- an exponent is absent or has a letter, a sign and digits -/
theorem exponent_part {c : Bytes} {e : ℤ} (h : FloatExponent c e) :
    (c = [] ∧ e = 0) ∨ ∃ x q n E, c = x :: q ∧ (x = 101 ∨ x = 69) ∧ ExponentSign q n E ∧ E ≠ [] ∧ AllDigits E ∧
      e = if n then -(decimal E : Int) else decimal E := by
  cases h with
  | absent => exact Or.inl ⟨rfl, rfl⟩
  | @plain x E h1 h2 h3 =>
    right
    have hs : ExponentSign E false E := by
      refine .absent ?_
      obtain ⟨y, E', rfl⟩ := List.exists_cons_of_ne_nil h2
      rw [startsWith_cons]
      have := digit_facts (h3 y (by simp))
      tauto
    rcases letter_e h1 with rfl | rfl
    · exact ⟨101, E, false, E, rfl, Or.inl rfl, hs, h2, h3, rfl⟩
    · exact ⟨69, E, false, E, rfl, Or.inr rfl, hs, h2, h3, rfl⟩
  | @plus x E h1 h2 h3 =>
    right
    rcases letter_e h1 with rfl | rfl
    · exact ⟨101, 43 :: E, false, E, rfl, Or.inl rfl, .plus, h2, h3, rfl⟩
    · exact ⟨69, 43 :: E, false, E, rfl, Or.inr rfl, .plus, h2, h3, rfl⟩
  | @minus x E h1 h2 h3 =>
    right
    rcases letter_e h1 with rfl | rfl
    · exact ⟨101, 45 :: E, true, E, rfl, Or.inl rfl, .minus, h2, h3, rfl⟩
    · exact ⟨69, 45 :: E, true, E, rfl, Or.inr rfl, .minus, h2, h3, rfl⟩

/-- the outcome for a text of the grammar -/
theorem plain_outcome (negative : Bool) {s r : Bytes} {neg : Bool} {item : Item} {d : Duration} (hs : IsText s)
    (h1 : SignPart (plainParser negative).config s neg r)
    (h2 : SingleText (plainParser negative).config (plainParser negative).timeUnits.like none none r item)
    (h3 : Denotes (plainParser negative).config neg item d) :
    (plainParser negative).parse s = if d.isNegative = true ∧ negative = false then fail .negativeNumber else .ok d := by
  have hc := plain_text negative
  have hneg : (plainParser negative).config.allowNegative = negative := rfl
  by_cases hd : d.isNegative = true ∧ negative = false
  · rw [if_pos hd]
    refine (C71_single _ _ none none s _ hs hc rfl).2 ⟨_, .negative h1 h2 h3 hd.1 (by rw [hneg]; exact hd.2), rfl⟩
  · rw [if_neg hd]
    refine (C27_single _ _ none none s d hs hc rfl).2 ⟨neg, r, item, h1, h2, h3, ?_⟩
    rw [hneg]
    cases negative
    · exact Or.inr (by cases hb : d.isNegative; rfl; exact absurd ⟨hb, rfl⟩ hd)
    · exact Or.inl rfl

/-- C80: a number of the standard library whose exponent does not fit into 16 bits is an exponent overflow; any other
number is accepted with its exact value cut off to nanoseconds (as seconds), or the maximum if this is too large; if it is
negative and at least `10^-18` it is rejected unless negative durations are allowed. -/
theorem C80_number (negative : Bool) (s : Bytes) (hs : IsText s) (neg : Bool) (v : ℚ) (e : ℤ) (h : FloatText s (.number neg v e)) :
    (¬ IsI16 e → (plainParser negative).parse s =
      fail (if e < 0 then .negativeExponentOverflow else .positiveExponentOverflow)) ∧
    (IsI16 e → neg = true → 10 ^ (-18 : ℤ) ≤ v → negative = false → (plainParser negative).parse s = fail .negativeNumber) ∧
    (IsI16 e → (neg = false ∨ v < 10 ^ (-18 : ℤ) ∨ negative = true) → ∃ d, (plainParser negative).parse s = .ok d ∧ d.WF ∧
      nanos d = (if neg then -1 else 1) * min maxNanos ⌊v * 10 ^ 9⌋ ∧
      (d.isNegative = true ↔ neg = true ∧ 10 ^ (-18 : ℤ) ≤ v)) := by
  cases h with
  | @number a b c _ W F _ h1 h2 h3 =>
  obtain ⟨k1, k2⟩ := base_head (r := c) h2
  have hs1 : SignPart (plainParser negative).config (a ++ (b ++ c)) neg (b ++ c) := sign_part rfl h1 (by simp [k1]) k2
  rw [List.append_assoc] at hs ⊢
  have hn : ¬ StartsWith IsDigit c ∧ ¬ StartsWith (· = 46) c := by
    rcases exponent_part h3 with ⟨rfl, -⟩ | ⟨x, q, n, E, rfl, hx, -⟩
    · exact ⟨not_startsWith_nil, not_startsWith_nil⟩
    · rw [startsWith_cons, startsWith_cons]
      rcases hx with rfl | rfl <;> decide
  obtain ⟨r1, hb1, hb2⟩ := base_part (cfg := (plainParser negative).config) rfl h2 hn.1 hn.2
  have ok : IsI16 e → ∃ d, Value neg W F e ⟨1, 0⟩ d ∧ (plainParser negative).parse (a ++ (b ++ c)) =
      if d.isNegative = true ∧ negative = false then fail .negativeNumber else .ok d := by
    intro hi
    have ht : NumberText (plainParser negative).config (b ++ c) W F e [] := by
      rcases exponent_part h3 with ⟨rfl, rfl⟩ | ⟨x, q, n, E, rfl, hx, g1, g2, g3, rfl⟩
      · exact ⟨r1, [], hb1, hb2, .absent not_startsWith_nil⟩
      · exact ⟨r1, _, hb1, hb2, .present hx rfl g1 ⟨by simp, g3, not_startsWith_nil⟩ g2 hi⟩
    obtain ⟨d, hd⟩ := value_exists neg W F e ⟨1, 0⟩
    exact ⟨d, hd, plain_outcome negative hs hs1 (.number ht .absent) (.number hd)⟩
  have hval : ∀ d, Value neg W F e ⟨1, 0⟩ d → nanos d = (if neg then -1 else 1) * min maxNanos ⌊literalValue W F e * 10 ^ 9⌋ ∧
      (d.isNegative = true ↔ neg = true ∧ 10 ^ (-18 : ℤ) ≤ literalValue W F e) := by
    rintro d ⟨-, g1, g2⟩
    rw [Int.add_zero] at g1 g2
    have e1 : literalSign neg 1 = if neg then -1 else 1 := by cases neg <;> rfl
    constructor
    · rw [g1, C17_exact _ _ (Or.inr (Or.inl rfl)), e1]
      norm_num
    · rw [g2, e1]
      cases neg <;> simp
  refine ⟨fun hi => ?_, fun hi hneg hv hno => ?_, fun hi hor => ?_⟩
  · rcases exponent_part h3 with ⟨rfl, rfl⟩ | ⟨x, q, n, E, rfl, hx, g1, g2, g3, rfl⟩
    · exact absurd (by decide) hi
    · have := C20_overflow (plainParser negative).config (plainParser negative).timeUnits.like none none _ hs (plain_text negative)
        hs1 hb1 hb2 hx rfl g1 (E := E) (rest := []) ⟨by simp, g3, not_startsWith_nil⟩ (by
          unfold IsI16 I16_MIN I16_MAX at hi
          omega)
      refine Eq.trans this ?_
      congr 1
      cases n
      · simp
      · have : decimal E ≠ 0 := by
          intro h0
          rw [h0] at hi
          exact hi (by decide)
        rw [if_pos rfl, if_pos (by simp; omega)]
  · obtain ⟨d, hd, hp⟩ := ok hi
    rw [hp, if_pos ⟨(hval d hd).2.2 ⟨hneg, hv⟩, hno⟩]
  · obtain ⟨d, hd, hp⟩ := ok hi
    refine ⟨d, ?_, hd.1, hval d hd⟩
    rw [hp, if_neg]
    rintro ⟨k1, k2⟩
    obtain ⟨k3, k4⟩ := (hval d hd).2.1 k1
    rcases hor with h | h | h
    · rw [k3] at h; cases h
    · exact absurd k4 (not_le.2 h)
    · rw [k2] at h; cases h

theorem inf_start {t : Bytes} (h : SameText t (b! "inf") ∨ SameText t (b! "infinity") ∨ SameText t (b! "nan")) :
    t ≠ [] ∧ ¬ StartsWith (fun b => b = 43 ∨ b = 45) t ∧ ¬ StartsWith (fun b => IsDigit b ∨ b = 46) t := by
  have key : ∀ n < 256, (lower (UInt8.ofNat n) = 105 ∨ lower (UInt8.ofNat n) = 110) →
      UInt8.ofNat n ≠ 43 ∧ UInt8.ofNat n ≠ 45 ∧ ¬ IsDigit (UInt8.ofNat n) ∧ UInt8.ofNat n ≠ 46 := by decide +kernel
  cases t with
  | nil => rcases h with h | h | h <;> cases h
  | cons c t =>
    refine ⟨by simp, ?_⟩
    have h1 := key c.toNat c.toNat_lt
    rw [UInt8.ofNat_toNat] at h1
    have h2 : lower c = 105 ∨ lower c = 110 := by
      rcases h with h | h | h
      · left; exact (List.cons.inj (show lower c :: t.map lower = 105 :: _ from h)).1
      · left; exact (List.cons.inj (show lower c :: t.map lower = 105 :: _ from h)).1
      · right; exact (List.cons.inj (show lower c :: t.map lower = 110 :: _ from h)).1
    obtain ⟨g1, g2, g3, g4⟩ := h1 h2
    rw [startsWith_cons, startsWith_cons]
    exact ⟨fun h => h.elim g1 g2, fun h => h.elim g3 g4⟩

/-- C80: infinity is the maximum; the negative infinity is rejected unless negative durations are allowed. -/
theorem C80_infinity (negative : Bool) (s : Bytes) (hs : IsText s) (neg : Bool) (h : FloatText s (.infinity neg)) :
    (plainParser negative).parse s = if neg = true ∧ negative = false then fail .negativeNumber
      else .ok (if neg then Duration.MIN else Duration.MAX) := by
  cases h with
  | @infinity a t _ h1 h2 =>
  obtain ⟨k1, k2, -⟩ := inf_start (h2.imp_right Or.inl)
  have hs1 : SignPart (plainParser negative).config (a ++ t) neg t := sign_part rfl h1 k1 k2
  have hd : Denotes (plainParser negative).config neg .infinity (if neg then Duration.MIN else Duration.MAX) := by
    cases neg
    · exact .infinity (by decide) (by decide)
    · exact .infinity (by decide) (by decide)
  rw [plain_outcome negative hs hs1 (.infinity rfl h2) hd]
  cases neg <;> rfl

theorem plain_single {negative : Bool} {r : Bytes} {item : Item}
    (h : SingleText (plainParser negative).config (plainParser negative).timeUnits.like none none r item) :
    (∃ W F e, NumberText (plainParser negative).config r W F e [] ∧ item = .number W F e none) ∨
    (SameText r (b! "inf") ∨ SameText r (b! "infinity")) := by
  cases h with
  | @number W F e r' u h1 h2 =>
    cases h2 with
    | absent => exact Or.inl ⟨W, F, e, h1, rfl⟩
    | present _ _ h3 _ => rw [plain_empty] at h3; cases h3
  | infinity _ h => exact Or.inr h
  | keyword _ h _ => cases h
  | unit _ _ h _ => cases h
  | numeral _ _ _ h => cases h

theorem number_float {negative : Bool} {r W F : Bytes} {e : ℤ} (h : NumberText (plainParser negative).config r W F e []) :
    ∃ b c, r = b ++ c ∧ FloatBase b W F ∧ FloatExponent c e := by
  obtain ⟨r1, r2, ⟨rfl, hW, -⟩, h2, h3⟩ := h
  have hb : ∃ b, W ++ r1 = b ++ r2 ∧ FloatBase b W F := by
    cases h2 with
    | absent h4 _ => exact ⟨W, rfl, .whole h4 hW⟩
    | present _ h5 h6 =>
      obtain ⟨rfl, hF, -⟩ := h5
      exact ⟨W ++ b! "." ++ F, by simp, .point hW hF h6⟩
  obtain ⟨b, e1, hb⟩ := hb
  refine ⟨b, r2, e1, hb, ?_⟩
  cases h3 with
  | absent _ => exact .absent
  | @present x q neg q' E rest hx _ hsg hE hne _ =>
    obtain ⟨rfl, hE, -⟩ := hE
    have hx' : SameText [x] (b! "e") := by rcases hx with rfl | rfl <;> decide
    rw [List.append_nil] at hsg
    cases hsg with
    | absent _ => exact .plain hx' hne hE
    | plus => exact .plus hx' hne hE
    | minus => exact .minus hx' hne hE

theorem sign_float {cfg : Config} (hc : cfg.allowSignDelimiter = false) {s r : Bytes} {neg : Bool} (h : SignPart cfg s neg r) :
    ∃ a, s = a ++ r ∧ FloatSign a neg := by
  have e : ∀ {x y}, AfterDelims cfg.allowSignDelimiter cfg.innerDelimiter x y → y = x := by
    intro x y h
    unfold AfterDelims at h
    rw [hc] at h
    exact h
  cases h with
  | absent _ _ => exact ⟨[], rfl, .absent⟩
  | plus h _ => rw [e h]; exact ⟨b! "+", rfl, .plus⟩
  | minus h _ => rw [e h]; exact ⟨b! "-", rfl, .minus⟩

/-- C80: what is not a number or infinity of the standard library is rejected. -/
theorem C80_rejected (negative : Bool) (s : Bytes) (hs : IsText s) (h1 : ¬ ∃ neg v e, FloatText s (.number neg v e))
    (h2 : ¬ ∃ neg, FloatText s (.infinity neg)) : ∃ err, (plainParser negative).parse s = fail err := by
  have hp : plainParser negative = [SetterCall.allowNegative negative].foldl callStandardParser (DurationParser.withTimeUnits []) := by
    cases negative <;> rfl
  rcases C56_no_panic [] [.allowNegative negative] s hs (by rw [← hp]; exact plain_text negative) with ⟨d, hd, -⟩ | h
  · exfalso
    rw [← hp] at hd
    obtain ⟨neg, r, item, k1, k2, -⟩ := (C27_single _ _ none none s d hs (plain_text negative) rfl).1 hd
    obtain ⟨a, rfl, ha⟩ := sign_float rfl k1
    rcases plain_single k2 with ⟨W, F, e, hn, -⟩ | hi
    · obtain ⟨b, c, rfl, hb, hc⟩ := number_float hn
      refine h1 ⟨neg, literalValue W F e, e, ?_⟩
      rw [← List.append_assoc]
      exact .number ha hb hc
    · exact h2 ⟨neg, .infinity ha hi⟩
  · rw [← hp] at h; exact h

/-- C80: what is not a number for the standard library (`NaN`) is rejected. -/
theorem C80_nan (negative : Bool) (s : Bytes) (hs : IsText s) (h : FloatText s .nan) :
    ∃ err, (plainParser negative).parse s = fail err := by
  have hp : plainParser negative = [SetterCall.allowNegative negative].foldl callStandardParser (DurationParser.withTimeUnits []) := by
    cases negative <;> rfl
  rcases C56_no_panic [] [.allowNegative negative] s hs (by rw [← hp]; exact plain_text negative) with ⟨d, hd, -⟩ | h'
  · exfalso
    rw [← hp] at hd
    obtain ⟨neg, r, item, k1, k2, -⟩ := (C27_single _ _ none none s d hs (plain_text negative) rfl).1 hd
    cases h with
    | @nan a t neg' g1 g2 =>
    obtain ⟨e1, e2, e3⟩ := inf_start (Or.inr (Or.inr g2))
    obtain ⟨-, rfl⟩ := signPart_unique (sign_part rfl g1 e1 e2) k1
    rcases plain_single k2 with ⟨W, F, e, hn, -⟩ | hi | hi
    · obtain ⟨b, c, rfl, hb, -⟩ := number_float hn
      exact e3 (base_start hb)
    · unfold SameText at hi g2
      rw [hi] at g2
      revert g2; decide
    · unfold SameText at hi g2
      rw [hi] at g2
      revert g2; decide
  · rw [← hp] at h'; exact h'

/-- `-1.5e-3` is a number of the standard library -/
example : FloatText (b! "-1.5e-3") (.number true (literalValue (b! "1") (b! "5") (-decimal (b! "3"))) (-decimal (b! "3"))) :=
  .number (a := b! "-") (b := b! "1" ++ b! "." ++ b! "5") (c := b! "e" ++ b! "-" ++ b! "3") .minus
    (.point (by decide) (by decide) (by decide)) (.minus (by decide) (by decide) (by decide))

example : (plainParser true).parse (b! "-1.5e-3") = .ok ⟨true, ⟨0, 1500000⟩⟩ ∧
    (plainParser false).parse (b! "-1.5e-3") = fail .negativeNumber ∧
    (plainParser false).parse (b! "-.999e-18") = .ok ⟨false, ⟨0, 0⟩⟩ ∧
    (plainParser false).parse (b! "+.5E+1") = .ok ⟨false, ⟨5, 0⟩⟩ ∧
    (plainParser false).parse (b! "1e-32769") = fail .negativeExponentOverflow ∧
    (plainParser false).parse (b! "INFinity") = .ok Duration.MAX := by decide +kernel

/-- `nan`, and texts which the standard library rejects -/
example : (∃ err, (plainParser true).parse (b! "-NaN") = fail err) ∧ (∃ err, (plainParser true).parse (b! ".") = fail err) ∧
    (∃ err, (plainParser true).parse (b! "1e") = fail err) :=
  ⟨C80_nan true _ (isText_ascii (by decide)) (.nan (a := b! "-") (t := b! "NaN") .minus (by decide)),
    ⟨.«syntax» 0 .wholeOrFractionMustBePresent, by decide +kernel⟩, ⟨.«syntax» 2 .unexpectedEnd, by decide +kernel⟩⟩

end Fundu.Props
