import Verif.Props.Options
/-!
# Properties C64, C65: what the setting for negative durations does, and settings without effect
-/
namespace Fundu.Props
open Fundu Fundu.Spec

/-- the settings with negative durations allowed or not -/
def withNegative (cfg : Config) (b : Bool) : Config := { cfg with allowNegative := b }

def gate (env : Env) (b : Bool) : Env := { env with cfg := withNegative env.cfg b }

theorem template_gate (m : Mode) (env : Env) (b : Bool) (c : Cursor) :
    templateParse m (gate env b) c = templateParse m env c := rfl

theorem parseRepr_gate (cfg : Config) (r : DurationRepr) :
    parseRepr (withNegative cfg false) r = match parseRepr (withNegative cfg true) r with
      | .ok d => if d.isNegative then fail .negativeNumber else .ok d
      | e => e := by
  unfold parseRepr rejectNegative withNegative
  simp only [Bool.not_true, Bool.false_and, Bool.not_false, Bool.true_and, Bool.false_eq_true, if_false]
  cases h : liftP r.parse with
  | error e => rfl
  | ok d => rfl

/-- C64: for single durations, not allowing negative durations only replaces negative results by the error
`NegativeNumber`. All other results, and all errors, are the same. -/
theorem C64_single (cfg : Config) (units : TimeUnitsLike) (keywords : Option TimeUnitsLike)
    (numerals : Option NumbersLike) (s : Bytes) (hm : cfg.allowMultiple = false) :
    parse { cfg with allowNegative := false } units keywords numerals s =
      match parse { cfg with allowNegative := true } units keywords numerals s with
      | .ok d => if d.isNegative then fail .negativeNumber else .ok d
      | e => e := by
  unfold parse parseWith
  simp only [hm, Bool.false_eq_true, if_false]
  unfold parseSingle
  show (templateParse .single (gate ⟨cfg, units, keywords, numerals, Cursor.bufferedAdvanceTo⟩ false) (Cursor.new s) >>= fun x =>
      parseRepr (withNegative cfg false) x.1) = _
  rw [template_gate]
  show _ = match (templateParse .single (gate ⟨cfg, units, keywords, numerals, Cursor.bufferedAdvanceTo⟩ true) (Cursor.new s) >>= fun x =>
      parseRepr (withNegative cfg true) x.1) with
      | .ok d => if d.isNegative then fail .negativeNumber else .ok d
      | e => e
  rw [template_gate]
  cases templateParse .single ⟨cfg, units, keywords, numerals, Cursor.bufferedAdvanceTo⟩ (Cursor.new s) with
  | error e => rfl
  | ok x => exact parseRepr_gate cfg x.1

theorem loop_gate (env : Env) (fuel : Nat) (d : Duration) (c : Cursor) :
    parseMultipleLoop (gate env false) fuel d c = parseMultipleLoop (gate env true) fuel d c ∨
      parseMultipleLoop (gate env false) fuel d c = fail .negativeNumber := by
  induction fuel generalizing d c with
  | zero => exact Or.inl rfl
  | succ fuel ih =>
    unfold parseMultipleLoop
    simp only [template_gate]
    cases templateParse .multiple env c with
    | error e => exact Or.inl rfl
    | ok x =>
      obtain ⟨repr, next⟩ := x
      simp only [ok_bind]
      show (parseRepr (withNegative env.cfg false) repr >>= _) = (parseRepr (withNegative env.cfg true) repr >>= _) ∨ _
      show _ ∨ (parseRepr (withNegative env.cfg false) repr >>= _) = _
      rw [parseRepr_gate]
      cases parseRepr (withNegative env.cfg true) repr with
      | error e => exact Or.inl rfl
      | ok p =>
        simp only
        by_cases hp : p.isNegative = true
        · right; rw [if_pos hp]; rfl
        · rw [if_neg hp]
          simp only [ok_bind]
          cases accumulate d p with
          | error e => exact Or.inl rfl
          | ok d' =>
            cases next with
            | none => exact Or.inl rfl
            | some c' => exact ih d' c'

/-- C64: for several durations, not allowing negative durations does not change the result or the error, or the error is
`NegativeNumber`. -/
theorem C64_multiple_or (cfg : Config) (units : TimeUnitsLike) (keywords : Option TimeUnitsLike)
    (numerals : Option NumbersLike) (s : Bytes) (hm : cfg.allowMultiple = true) :
    parse { cfg with allowNegative := false } units keywords numerals s =
        parse { cfg with allowNegative := true } units keywords numerals s ∨
      parse { cfg with allowNegative := false } units keywords numerals s = fail .negativeNumber := by
  have e : ∀ b, parse { cfg with allowNegative := b } units keywords numerals s =
      parseMultiple (gate ⟨cfg, units, keywords, numerals, Cursor.bufferedAdvanceTo⟩ b) s := fun b => if_pos hm
  rw [e, e]
  exact loop_gate ⟨cfg, units, keywords, numerals, Cursor.bufferedAdvanceTo⟩ _ _ _

theorem _root_.Fundu.Spec.Value.unique {neg : Bool} {W F : Bytes} {e : Int} {m : Multiplier} {d d' : Duration}
    (h : Value neg W F e m d) (h' : Value neg W F e m d') : d = d' :=
  ((value_iff neg W F e m d).1 h).symm.trans ((value_iff neg W F e m d').1 h')

theorem denotes_unique {cfg : Config} {neg : Bool} {item : Item} {d d' : Duration}
    (h : Denotes cfg neg item d) (h' : Denotes cfg neg item d') : d = d' := by
  cases h with
  | number h => cases h' with | number h' => exact h.unique h'
  | numberUnit _ h => cases h' with | numberUnit _ h' => exact h.unique h'
  | infinity h1 h2 =>
    cases h' with
    | infinity h3 h4 =>
      have key : ∀ {d : Duration}, nanos d = (if neg then -maxNanos else maxNanos) → d.isNegative = neg := by
        intro d h
        have hp : 0 < maxNanos := by decide
        unfold nanos at h
        cases hd : d.isNegative <;> cases neg <;> simp only [hd, if_true, Bool.false_eq_true, if_false] at h <;>
          first | rfl | omega
      exact Duration.eq_of h1 h3 (by rw [key h2, key h4]) (h2.trans h4.symm)
  | word _ h => cases h' with | word _ h' => exact h.unique h'
  | numeral _ _ h => cases h' with | numeral _ _ h' => exact h.unique h'

theorem sign_gate {cfg : Config} {b : Bool} {s r : Bytes} {neg : Bool} (h : SignPart (withNegative cfg b) s neg r) (b' : Bool) :
    SignPart (withNegative cfg b') s neg r := by
  cases h with
  | absent k1 k2 => exact .absent k1 k2
  | plus k1 k2 => exact .plus k1 k2
  | minus k1 k2 => exact .minus k1 k2

theorem durations_gate {cfg : Config} {units : TimeUnitsLike} {keywords : Option TimeUnitsLike} {numerals : Option NumbersLike}
    {s : Bytes} {b : Bool} {l : List (Bool × Item)} (h : Durations (withNegative cfg b) units keywords numerals s l) (b' : Bool) :
    Durations (withNegative cfg b') units keywords numerals s l := by
  have hmt : ∀ {r rest item}, MultiText (withNegative cfg b) units keywords numerals r item rest →
      MultiText (withNegative cfg b') units keywords numerals r item rest := by
    intro r rest item h
    exact (multi_iff (env := gate ⟨cfg, units, keywords, numerals, fun d c => c.advanceTo d⟩ b') item).1
      ((multi_iff (env := gate ⟨cfg, units, keywords, numerals, fun d c => c.advanceTo d⟩ b) item).2 h)
  induction h with
  | last h1 h2 => exact .last (sign_gate h1 b') (hmt h2)
  | more h1 h2 h3 h4 ih => exact .more (sign_gate h1 b') (hmt h2) h3 ih

theorem denotes_gate {cfg : Config} {b : Bool} {neg : Bool} {item : Item} {d : Duration}
    (h : Denotes (withNegative cfg b) neg item d) (b' : Bool) : Denotes (withNegative cfg b') neg item d := by
  cases h with
  | number k => exact .number k
  | numberUnit k1 k2 => exact .numberUnit k1 k2
  | infinity k1 k2 => exact .infinity k1 k2
  | word k1 k2 => exact .word k1 k2
  | numeral k1 k2 k3 => exact .numeral k1 k2 k3

/-- C64: for several durations: let the text be accepted when negative durations are allowed, and let `ds` be the durations in
it. If none of them is negative the result is the same when they are not allowed, otherwise the error is `NegativeNumber`
(even if the sum is not negative). -/
theorem C64_multiple (cfg : Config) (units : TimeUnitsLike) (keywords : Option TimeUnitsLike)
    (numerals : Option NumbersLike) (s : Bytes) (hs : IsText s) (hc : CfgText cfg) (hm : cfg.allowMultiple = true)
    (hd : (∀ b, cfg.innerDelimiter b = true → cfg.outerDelimiter b = true) ∨ (keywords = none ∧ numerals = none))
    (ds : List Duration) (h : DenotesMultiple { cfg with allowNegative := true } units keywords numerals s ds) :
    parse { cfg with allowNegative := false } units keywords numerals s =
      if ds.any (·.isNegative) then fail .negativeNumber
      else parse { cfg with allowNegative := true } units keywords numerals s := by
  have c27 := fun b x => C27_multiple (withNegative cfg b) units keywords numerals s x hs ⟨hc.inner, hc.outer, hc.conjunctions⟩ hm hd
  have hor := C64_multiple_or cfg units keywords numerals s hm
  obtain ⟨items, h1, h2⟩ := h
  by_cases hn : ds.any (·.isNegative) = true
  · rw [if_pos hn]
    rcases hor with hor | hor
    · exfalso
      obtain ⟨d, k1, k2, -⟩ := (c27 true _).2 ⟨ds, ⟨items, h1, h2⟩, rfl⟩
      obtain ⟨ds', ⟨items', g1, g2⟩, -⟩ := (c27 false _).1 ⟨d, hor.trans k1, k2, rfl⟩
      have e := C27_unambiguous_multiple (withNegative cfg true) units keywords numerals s _ _ h1 (durations_gate g1 true)
      subst e
      have : ds = ds' := by
        clear hn h1 g1 hor k1 c27
        induction h2 generalizing ds' with
        | nil => cases g2; rfl
        | cons a _ ih =>
          cases g2 with
          | cons b g2 => rw [denotes_unique a.1 (denotes_gate b.1 true), ih _ g2]
      subst this
      obtain ⟨d, hmem, hneg⟩ := List.any_eq_true.1 hn
      clear h2 hn h1 g1 hor k1 c27
      induction g2 with
      | nil => cases hmem
      | cons a _ ih =>
        rcases List.mem_cons.1 hmem with rfl | hmem
        · rcases a.2 with k | k
          · cases k
          · rw [k] at hneg; cases hneg
        · exact ih hmem
    · exact hor
  · rw [if_neg hn]
    rcases hor with hor | hor
    · exact hor
    · exfalso
      have hnn : ∀ d ∈ ds, d.isNegative = false := by
        intro d hd
        cases hx : d.isNegative with
        | false => rfl
        | true => exact absurd (List.any_eq_true.2 ⟨d, hd, hx⟩) hn
      have h2' : List.Forall₂ (fun i d => Accepted (withNegative cfg false) i.1 i.2 d) items ds := by
        clear h1 hn
        induction h2 with
        | nil => exact .nil
        | cons a _ ih =>
          exact .cons ⟨denotes_gate a.1 false, Or.inr (hnn _ (by simp))⟩ (ih fun d hd => hnn d (by simp [hd]))
      obtain ⟨d, k1, -⟩ := (c27 false _).2 ⟨ds, ⟨items, durations_gate h1 false, h2'⟩, rfl⟩
      have : (Except.ok d : R Duration) = fail .negativeNumber := k1.symm.trans hor
      cases this

/-! ## C64: concrete cases -/

/-- single durations: a negative one, one which is not, and an error -/
example :
    (DurationParser.new.allowNegative true).parse (b! "-1.5h") = .ok ⟨true, ⟨5400, 0⟩⟩ ∧
    (DurationParser.new.allowNegative false).parse (b! "-1.5h") = fail .negativeNumber ∧
    (DurationParser.new.allowNegative false).parse (b! "1.5h") = .ok ⟨false, ⟨5400, 0⟩⟩ ∧
    (DurationParser.new.allowNegative true).parse (b! "-1x") = fail (.timeUnit 2 (.invalidTimeUnit (b! "x"))) ∧
    (DurationParser.new.allowNegative false).parse (b! "-1x") = fail (.timeUnit 2 (.invalidTimeUnit (b! "x"))) := by decide +kernel

/-- several durations: the sum is positive, but one of the durations is negative. An error after a negative duration
is found only if negative durations are allowed. -/
example :
    ((DurationParser.new.parseMultiple true none).allowNegative true).parse (b! "2s -1s") = .ok ⟨false, ⟨1, 0⟩⟩ ∧
    ((DurationParser.new.parseMultiple true none).allowNegative false).parse (b! "2s -1s") = fail .negativeNumber ∧
    ((DurationParser.new.parseMultiple true none).allowNegative false).parse (b! "-1s 1x") = fail .negativeNumber ∧
    ((DurationParser.new.parseMultiple true none).allowNegative true).parse (b! "-1s 1x") =
      fail (.invalidInput (.text (b! "x"))) := by decide +kernel

/-- the hypotheses of `C64_multiple` are met by every text accepted when negative durations are allowed -/
example : ∃ ds, DenotesMultiple { ({ allowMultiple := true } : Config) with allowNegative := true }
    DurationParser.new.timeUnits.like none none (b! "2s -1s") ds := by
  have h := (C27_multiple { ({ allowMultiple := true } : Config) with allowNegative := true } DurationParser.new.timeUnits.like none none
    (b! "2s -1s") (1 * 10 ^ 9) (isText_ascii (by decide)) ⟨defaultConfig_text.inner, defaultConfig_text.outer, by intro ws h; cases h⟩
    rfl (Or.inr ⟨rfl, rfl⟩)).1 ⟨⟨false, ⟨1, 0⟩⟩, by decide +kernel, by decide, by decide⟩
  exact ⟨_, h.choose_spec.1⟩

/-! ## C65 -/

def withDefaultMultiplier (env : Env) (m : Multiplier) : Env := { env with cfg := { env.cfg with defaultMultiplier := m } }

theorem loop_multiplier (env : Env) (m : Multiplier) (fuel : Nat) (d : Duration) (c : Cursor) :
    parseMultipleLoop (withDefaultMultiplier env m) fuel d c = parseMultipleLoop env fuel d c := by
  induction fuel generalizing d c with
  | zero => rfl
  | succ fuel ih =>
    unfold parseMultipleLoop
    simp only [ih]
    rfl

/-- C65: the default multiplier of a configuration has no effect. -/
theorem C65_default_multiplier (cfg : Config) (units : TimeUnitsLike) (keywords : Option TimeUnitsLike)
    (numerals : Option NumbersLike) (s : Bytes) (m : Multiplier) :
    parse { cfg with defaultMultiplier := m } units keywords numerals s = parse cfg units keywords numerals s := by
  have h : parseMultiple (withDefaultMultiplier ⟨cfg, units, keywords, numerals, Cursor.bufferedAdvanceTo⟩ m) s =
      parseMultiple ⟨cfg, units, keywords, numerals, Cursor.bufferedAdvanceTo⟩ s := loop_multiplier _ _ _ _ _
  by_cases hm : cfg.allowMultiple = true
  · exact (if_pos hm).trans (h.trans (if_pos hm).symm)
  · exact (if_neg hm).trans (if_neg hm).symm

theorem parse_single (cfg : Config) (units : TimeUnitsLike) (keywords : Option TimeUnitsLike) (numerals : Option NumbersLike)
    (s : Bytes) (h : cfg.allowMultiple = false) : parse cfg units keywords numerals s =
      parseSingle ⟨cfg, units, keywords, numerals, Cursor.bufferedAdvanceTo⟩ s := by
  unfold parse parseWith
  rw [h, if_neg (by decide)]

/-- C65: the outer delimiter and the conjunctions have no effect if there is only one duration. -/
theorem C65_outer_delimiter (cfg : Config) (units : TimeUnitsLike) (keywords : Option TimeUnitsLike)
    (numerals : Option NumbersLike) (s : Bytes) (outer : Delimiter) (conjunctions : Option (List Bytes))
    (h : cfg.allowMultiple = false) :
    parse { cfg with outerDelimiter := outer, conjunctions := conjunctions } units keywords numerals s =
      parse cfg units keywords numerals s := by
  rw [parse_single cfg _ _ _ _ h, parse_single _ _ _ _ _ (show ({ cfg with outerDelimiter := outer, conjunctions := conjunctions } : Config).allowMultiple = false from h)]
  rfl

/-- C65: the inner delimiter has no effect for single durations if no delimiter is allowed after the sign or before the
unit, `ago` is not allowed and there are no numerals. -/
theorem C65_inner_delimiter (cfg : Config) (units : TimeUnitsLike) (keywords : Option TimeUnitsLike)
    (s : Bytes) (inner : Delimiter) (h : cfg.allowMultiple = false) (h1 : cfg.allowSignDelimiter = false)
    (h2 : cfg.allowTimeUnitDelimiter = false) (h3 : cfg.allowAgo = false) :
    parse { cfg with innerDelimiter := inner } units keywords none s = parse cfg units keywords none s := by
  rw [parse_single cfg _ _ _ _ h, parse_single _ _ _ _ _ (show ({ cfg with innerDelimiter := inner } : Config).allowMultiple = false from h)]
  obtain ⟨a1, a2, a3, a4, a5, a6, a7, a8, a9, a10, a11, a12, a13, a14⟩ := cfg
  cases h1
  cases h2
  cases h3
  rfl

/-- C65: the default unit has no effect on a number with a unit, on a keyword, or on infinity: more generally the
result depends on the default unit only if the text is a number without a unit. -/
theorem C65_default_unit (cfg : Config) (units : TimeUnitsLike) (keywords : Option TimeUnitsLike)
    (numerals : Option NumbersLike) (s : Bytes) (u : TimeUnit) (d : Duration) (hs : IsText s) (hc : CfgText cfg)
    (h : cfg.allowMultiple = false) (hd : parse cfg units keywords numerals s = .ok d) :
    (∃ neg r W F e, SignPart cfg s neg r ∧ NumberText cfg r W F e []) ∨
      parse { cfg with defaultUnit := u } units keywords numerals s = .ok d := by
  obtain ⟨neg, r, item, h1, h2, h3⟩ := (C27_single cfg units keywords numerals s d hs hc h).1 hd
  have hsign : SignPart { cfg with defaultUnit := u } s neg r := by
    cases h1 with
    | absent k1 k2 => exact .absent k1 k2
    | plus k1 k2 => exact .plus k1 k2
    | minus k1 k2 => exact .minus k1 k2
  have hmore : SingleText { cfg with defaultUnit := u } units keywords numerals r item :=
    ((single_iff (env := ⟨{ cfg with defaultUnit := u }, units, keywords, numerals, fun d c => c.advanceTo d⟩) item []).1
      ((single_iff (env := ⟨cfg, units, keywords, numerals, fun d c => c.advanceTo d⟩) item []).2 ⟨rfl, h2⟩)).2
  have hfin : Denotes { cfg with defaultUnit := u } neg item d →
      parse { cfg with defaultUnit := u } units keywords numerals s = .ok d := fun k =>
    (C27_single { cfg with defaultUnit := u } units keywords numerals s d hs ⟨hc.inner, hc.outer, hc.conjunctions⟩ h).2
      ⟨neg, r, item, hsign, hmore, k, h3.2⟩
  cases h3.1 with
  | number k =>
    left
    cases h2 with
    | number k1 k2 =>
      cases k2 with
      | absent => exact ⟨_, _, _, _, _, h1, k1⟩
  | numberUnit k1 k2 => exact Or.inr (hfin (.numberUnit k1 k2))
  | infinity k1 k2 => exact Or.inr (hfin (.infinity k1 k2))
  | word k1 k2 => exact Or.inr (hfin (.word k1 k2))
  | numeral k1 k2 k3 => exact Or.inr (hfin (.numeral k1 k2 k3))

/-- the default unit matters for "2" but not for "2s" -/
example :
    (DurationParser.new.defaultUnit .minute).parse (b! "2") = .ok ⟨false, ⟨120, 0⟩⟩ ∧
    DurationParser.new.parse (b! "2") = .ok ⟨false, ⟨2, 0⟩⟩ ∧
    (DurationParser.new.defaultUnit .minute).parse (b! "2s") = .ok ⟨false, ⟨2, 0⟩⟩ := by decide +kernel

/-- the inner delimiter does have an effect if `ago` is allowed -/
example :
    (DurationParser.new.allowAgo true).parse (b! "1s ago") = .ok ⟨true, ⟨1, 0⟩⟩ ∧
    parse { (DurationParser.new.allowAgo true).config with innerDelimiter := fun b => b = 95 } DurationParser.new.timeUnits.like none none
      (b! "1s ago") = fail (.timeUnit 1 (.invalidTimeUnit (b! "s ago"))) := by decide +kernel

end Fundu.Props
