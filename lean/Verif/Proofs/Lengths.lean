import Verif.Spec.Lengths
import Verif.Spec.Mistakes
import Verif.Proofs.OutOfRange
import Verif.Proofs.LaterMistakes
/-!
# The grammar and the mistakes don't depend on the lengths of the time units

All relations are carried over from a configuration `cfg` and its tables to the same configuration with another default
unit and tables with the same words.
-/
namespace Fundu.Lengths
open Fundu Fundu.Spec Fundu.Props

/-- the words of optional tables -/
abbrev SameKeywords := Option.Rel SameWords
abbrev SameNumerals := Option.Rel SameNumberWords

/-- the same configuration with another default unit -/
abbrev other (cfg : Config) (v : TimeUnit) : Config := { cfg with defaultUnit := v }

variable {cfg : Config} {v : TimeUnit} {units units' : TimeUnitsLike} {keywords keywords' : Option TimeUnitsLike}
  {numerals numerals' : Option NumbersLike} {s r : Bytes} {f : Fault}

theorem words_symm (h : SameWords units units') : SameWords units' units := ⟨h.empty.symm, fun w => (h.words w).symm⟩

theorem get_other (h : SameWords units units') {w : Bytes} {u} (hw : units.get w = some u) : ∃ u', units'.get w = some u' := by
  rw [← Option.isSome_iff_exists, h.words, hw]; rfl

theorem get_none (h : SameWords units units') {w : Bytes} (hw : units.get w = none) : units'.get w = none := by
  rw [← Option.not_isSome_iff_eq_none, h.words, hw]; simp

theorem keywords_symm (h : SameKeywords keywords keywords') : SameKeywords keywords' keywords := by
  cases h with
  | some h => exact .some (words_symm h)
  | none => exact .none

theorem numerals_symm (h : SameNumerals numerals numerals') : SameNumerals numerals' numerals := by
  cases h with
  | some h => exact .some fun w => (h w).symm
  | none => exact .none

theorem wordIn {stop : UInt8 → Prop} (h : SameWords units units') {u} (hw : WordIn stop units s u r) :
    ∃ u', WordIn stop units' s u' r := by
  obtain ⟨w, h1, h2, h3⟩ := hw
  obtain ⟨u', h4⟩ := get_other h h3
  exact ⟨u', w, h1, h2, h4⟩

theorem no_wordIn {stop : UInt8 → Prop} (h : SameWords units units') (hw : ¬ ∃ u r, WordIn stop units s u r) :
    ¬ ∃ u r, WordIn stop units' s u r := by
  rintro ⟨u, r, g⟩
  obtain ⟨u', g⟩ := wordIn (words_symm h) g
  exact hw ⟨u', r, g⟩

theorem no_keyword {stop : UInt8 → Prop} (h : SameKeywords keywords keywords')
    (hk : ∀ k, keywords = some k → ¬ ∃ u r, WordIn stop k s u r) : ∀ k, keywords' = some k → ¬ ∃ u r, WordIn stop k s u r := by
  cases h with
  | some h => rintro k ⟨⟩; exact no_wordIn h (hk _ rfl)
  | none => rintro k ⟨⟩

theorem no_whole_keyword (h : SameKeywords keywords keywords')
    (hk : ∀ k, keywords = some k → k.get s = none) : ∀ k, keywords' = some k → k.get s = none := by
  cases h with
  | some h => rintro k ⟨⟩; exact get_none h (hk _ rfl)
  | none => rintro k ⟨⟩

theorem numeralIn {w : Bytes} (h : SameNumerals numerals numerals') (hn : NumeralIn cfg numerals s w r) :
    NumeralIn (other cfg v) numerals' s w r := by
  obtain ⟨n, q, rfl, h2, h3, h4, h5⟩ := hn
  cases h with
  | some h =>
    obtain ⟨q', h4⟩ : ∃ q', _ = some q' := by rw [← Option.isSome_iff_exists, h w, h4]; rfl
    exact ⟨_, q', rfl, h2, h3, h4, h5⟩

/-! ## Signs, numbers and connections -/

theorem sign {neg : Bool} (h : SignPart cfg s neg r) : SignPart (other cfg v) s neg r := by
  cases h with
  | absent a b => exact .absent a b
  | plus a b => exact .plus a b
  | minus a b => exact .minus a b

theorem fraction {W F : Bytes} (h : FractionPart cfg W s F r) : FractionPart (other cfg v) W s F r := by
  cases h with
  | absent a b => exact .absent a b
  | present a b c => exact .present a b c

theorem exponent {e : Int} (h : ExponentPart cfg s e r) : ExponentPart (other cfg v) s e r := by
  cases h with
  | absent a => exact .absent a
  | present a b c d e f => exact .present a b c d e f

theorem number {W F : Bytes} {e : Int} (h : NumberText cfg s W F e r) : NumberText (other cfg v) s W F e r := by
  obtain ⟨r1, r2, h1, h2, h3⟩ := h
  exact ⟨r1, r2, h1, fraction h2, exponent h3⟩

theorem connection (h : Connection cfg s r) : Connection (other cfg v) s r := by
  cases h with
  | absent a => exact .absent a
  | delims a b c d => exact .delims a b c d
  | conjunction a b c d e f g h => exact .conjunction a b c d e f g h

theorem ago {m m' m1 : Multiplier} (h : AgoPart cfg s m m' r) : ∃ m1', AgoPart (other cfg v) s m1 m1' r := by
  cases h with
  | absent a => exact ⟨_, .absent a⟩
  | other a b c d e => exact ⟨_, .other a b c d e⟩
  | ago a b c d => exact ⟨_, .ago a b c d⟩

/-! ## Durations -/

theorem unitMulti (hu : SameWords units units') {u} (h : UnitMulti cfg units s u r) : ∃ u', UnitMulti (other cfg v) units' s u' r := by
  obtain ⟨h1, h2, h3⟩ := h
  obtain ⟨⟨u', m1⟩, h1⟩ := wordIn hu h1
  obtain ⟨m', h2⟩ := ago (v := v) (m1 := m1) h2
  exact ⟨(u', m'), h1, h2, connection h3⟩

theorem multi (hu : SameWords units units') (hk : SameKeywords keywords keywords') (hn : SameNumerals numerals numerals') {item : Item}
    (h : MultiText cfg units keywords numerals s item r) : ∃ item', MultiText (other cfg v) units' keywords' numerals' s item' r := by
  cases h with
  | numberEnd a => exact ⟨_, .numberEnd (number a)⟩
  | numberUnit a b c d =>
    obtain ⟨u', d⟩ := unitMulti (v := v) hu d
    exact ⟨_, .numberUnit (number a) b (hu.empty.trans c) d⟩
  | number a b c d e =>
    exact ⟨_, .number (number a) b c (fun g => no_wordIn hu (d (hu.empty.symm.trans g))) (connection e)⟩
  | inf a b c d => exact ⟨_, .inf a b c (connection d)⟩
  | infinity a b c d e f => exact ⟨_, .infinity a b c d e (connection f)⟩
  | keyword a b c d =>
    subst b
    cases hk with
    | some hk =>
      obtain ⟨u', c⟩ := wordIn hk c
      exact ⟨_, .keyword a rfl c (connection d)⟩
  | unit a b c d =>
    obtain ⟨u', d⟩ := unitMulti (v := v) hu d
    exact ⟨_, .unit a (no_keyword hk b) c d⟩
  | @numeral n w _ _ _ _ _ _ a b c d e f g i j k =>
    subst d
    cases hn with
    | some hn =>
      obtain ⟨q', g⟩ : ∃ q', _ = some q' := by rw [← Option.isSome_iff_exists, hn w, g]; rfl
      obtain ⟨u', k⟩ := unitMulti (v := v) hu k
      exact ⟨_, .numeral a (no_keyword hk b) (fun x => no_wordIn hu (c x)) rfl e f g i j k⟩

theorem unitSingle (hu : SameWords units units') {u} (h : UnitSingle cfg units s u r) : ∃ u', UnitSingle (other cfg v) units' s u' r := by
  cases h with
  | whole a b => obtain ⟨u', b⟩ := get_other hu b; exact ⟨_, .whole a b⟩
  | plain a b c d => obtain ⟨u', d⟩ := get_other hu d; exact ⟨_, .plain a b c d⟩
  | ago a b c d e f => obtain ⟨⟨u', m'⟩, d⟩ := get_other hu d; exact ⟨_, .ago a b c d e f⟩

theorem single (hu : SameWords units units') (hk : SameKeywords keywords keywords') (hn : SameNumerals numerals numerals') {item : Item}
    (h : SingleText cfg units keywords numerals s item) : ∃ item', SingleText (other cfg v) units' keywords' numerals' s item' := by
  cases h with
  | number a b =>
    cases b with
    | absent => exact ⟨_, .number (number a) .absent⟩
    | present b c d e =>
      obtain ⟨u', e⟩ := unitSingle (v := v) hu e
      exact ⟨_, .number (number a) (.present b c (hu.empty.trans d) e)⟩
  | infinity a b => exact ⟨_, .infinity a b⟩
  | keyword a b c =>
    subst b
    cases hk with
    | some hk =>
      obtain ⟨u', c⟩ := get_other hk c
      exact ⟨_, .keyword a rfl c⟩
  | unit a b c d =>
    obtain ⟨u', d⟩ := unitSingle (v := v) hu d
    exact ⟨_, .unit a (no_whole_keyword hk b) c d⟩
  | @numeral n w _ _ _ _ _ a b c d e f g i j k =>
    subst d
    cases hn with
    | some hn =>
      obtain ⟨q', g⟩ : ∃ q', _ = some q' := by rw [← Option.isSome_iff_exists, hn w, g]; rfl
      obtain ⟨u', k⟩ := unitSingle (v := v) hu k
      refine ⟨_, .numeral a (no_whole_keyword hk b) (fun x => ?_) rfl e f g i j k⟩
      rintro ⟨u, rest, y⟩
      obtain ⟨u', y⟩ := unitSingle (cfg := other cfg v) (v := cfg.defaultUnit) (words_symm hu) y
      exact c x ⟨u', rest, y⟩

/-! ## Mistakes -/

theorem signMistake (h : SignMistake cfg s f) : SignMistake (other cfg v) s f := by
  cases h with
  | noNumber a => exact .noNumber a
  | delimiters a b c => exact .delimiters a b c

theorem numberMistake (h : NumberMistake cfg s f) : NumberMistake (other cfg v) s f := by
  cases h with
  | fraction a b =>
    refine .fraction a ?_
    cases b with
    | disabled c => exact .disabled c
    | noDigits c d e => exact .noDigits c d e
  | exponent a b c =>
    refine .exponent a (fraction b) ?_
    cases c with
    | disabled x y => exact .disabled x y
    | endOfText x y => exact .endOfText x y
    | onlySign x y z => exact .onlySign x y z
    | noDigit x y z w t => exact .noDigit x y z w t
    | overflow x y z w t => exact .overflow x y z w t

theorem connectionMistake (h : ConnectionMistake cfg s f) : ConnectionMistake (other cfg v) s f := by
  cases h with
  | delimiters a => exact .delimiters a
  | conjunction a b c d e g h =>
    refine .conjunction a b c d e g ?_
    cases h with
    | endOfText => exact .endOfText
    | delimiters a => exact .delimiters a
    | notSeparated a b => exact .notSeparated a b

theorem unitMultiMistake (hu : SameWords units units') (h : UnitMultiMistake cfg units s f) : UnitMultiMistake (other cfg v) units' s f := by
  cases h with
  | delimiters a b c =>
    obtain ⟨u', a⟩ := wordIn hu a
    exact .delimiters a b c
  | connection a b c =>
    obtain ⟨⟨u', m1⟩, a⟩ := wordIn hu a
    obtain ⟨m', b⟩ := ago (v := v) (m1 := m1) b
    exact .connection a b (connectionMistake c)

theorem unitSingleMistake (hu : SameWords units units') (h : UnitSingleMistake cfg units s f) :
    UnitSingleMistake (other cfg v) units' s f := by
  cases h with
  | delimiters a b c d e =>
    obtain ⟨u', d⟩ := get_other hu d
    exact .delimiters a b c d e
  | more a b =>
    obtain ⟨u', a⟩ := unitSingle (v := v) hu a
    exact .more a b

theorem noUnitSingle (hu : SameWords units units') (h : NoUnitSingle cfg units s) : NoUnitSingle (other cfg v) units' s := by
  refine ⟨?_, ?_⟩
  · rintro ⟨u, r, y⟩
    obtain ⟨u', y⟩ := unitSingle (cfg := other cfg v) (v := cfg.defaultUnit) (words_symm hu) y
    exact h.1 ⟨u', r, y⟩
  · rintro ⟨f, y⟩
    exact h.2 ⟨f, unitSingleMistake (cfg := other cfg v) (v := cfg.defaultUnit) (words_symm hu) y⟩

theorem numeralMistake {um um' : Bytes → Fault → Prop} {no no' : Bytes → Prop} (hu : SameWords units units')
    (hn : SameNumerals numerals numerals') (h1 : ∀ s f, um s f → um' s f) (h2 : ∀ s, no s → no' s)
    (h : NumeralMistake cfg units numerals um no s f) : NumeralMistake (other cfg v) units' numerals' um' no' s f := by
  cases h with
  | delimiters a b => exact .delimiters (numeralIn hn a) b
  | unit a b c d => exact .unit (numeralIn hn a) b c (h1 _ _ d)
  | noUnit a b c d =>
    rw [← hu.empty]
    exact .noUnit (numeralIn hn a) b c (h2 _ d)
  | noNumeral a =>
    refine .noNumeral ?_
    rintro ⟨w, r, y⟩
    exact a ⟨w, r, numeralIn (cfg := other cfg v) (v := cfg.defaultUnit) (numerals_symm hn) y⟩

theorem multiMistake (hu : SameWords units units') (hk : SameKeywords keywords keywords') (hn : SameNumerals numerals numerals')
    (h : MultiMistake cfg units keywords numerals s f) : MultiMistake (other cfg v) units' keywords' numerals' s f := by
  cases h with
  | number a => exact .number (numberMistake a)
  | delimiters a b c => exact .delimiters (number a) b c
  | unit a b c d e => exact .unit (number a) b c (hu.empty.trans d) (unitMultiMistake hu e)
  | connection a b c d e =>
    exact .connection (number a) b c (fun g => no_wordIn hu (d (hu.empty.symm.trans g))) (connectionMistake e)
  | infinity a b c =>
    refine .infinity a b ?_
    cases c with
    | connection a => exact .connection (connectionMistake a)
    | character a b c d e => exact .character a b c d e
    | endOfText a b c d e => exact .endOfText a b c d e
    | noDelimiter a b c => exact .noDelimiter a b c
    | connection' a b c => exact .connection' a b (connectionMistake c)
  | keyword a b c d =>
    subst b
    cases hk with
    | some hk =>
      obtain ⟨u', c⟩ := wordIn hk c
      exact .keyword a rfl c (connectionMistake d)
  | unitWord a b c d => exact .unitWord a (no_keyword hk b) c (unitMultiMistake hu d)
  | numeral a b c d =>
    exact .numeral a (no_keyword hk b) (fun x => no_wordIn hu (c x))
      (numeralMistake hu hn (fun _ _ h => unitMultiMistake hu h) (fun _ h => no_wordIn hu h) d)

theorem singleMistake (hu : SameWords units units') (hk : SameKeywords keywords keywords') (hn : SameNumerals numerals numerals')
    (h : SingleMistake cfg units keywords numerals s f) : SingleMistake (other cfg v) units' keywords' numerals' s f := by
  cases h with
  | number a => exact .number (numberMistake a)
  | delimiters a b c => exact .delimiters (number a) b c
  | noUnits a b c d => exact .noUnits (number a) b c (hu.empty.trans d)
  | noUnit a b c d e => exact .noUnit (number a) b c (hu.empty.trans d) (noUnitSingle hu e)
  | unit a b c d e => exact .unit (number a) b c (hu.empty.trans d) (unitSingleMistake hu e)
  | infinity a b c => exact .infinity a b c
  | unitWord a b c d => exact .unitWord a (no_whole_keyword hk b) c (unitSingleMistake hu d)
  | numeral a b c d =>
    exact .numeral a (no_whole_keyword hk b) (fun x => noUnitSingle hu (c x))
      (numeralMistake hu hn (fun _ _ h => unitSingleMistake hu h) (fun _ h => noUnitSingle hu h) d)

/-! ## Whole texts -/

/-- an item is a duration, a negative one which is not allowed, or out of range -/
theorem item_kinds (cfg : Config) (neg : Bool) (item : Item) : (∃ d, Accepted cfg neg item d) ∨
    (∃ d, Denotes cfg neg item d ∧ d.isNegative = true ∧ cfg.allowNegative = false) ∨ OutOfRange item := by
  by_cases h : ∃ d, Denotes cfg neg item d
  · obtain ⟨d, h⟩ := h
    cases ha : cfg.allowNegative with
    | true => exact Or.inl ⟨d, h, Or.inl ha⟩
    | false =>
      cases hd : d.isNegative with
      | true => exact Or.inr (Or.inl ⟨d, h, hd, rfl⟩)
      | false => exact Or.inl ⟨d, h, Or.inr hd⟩
  · exact Or.inr (Or.inr ((outOfRange_iff cfg neg item).2 h))

/-- a mistake is also one for the other lengths, unless there is a negative duration which is not allowed or a multiplier out
of range -/
theorem first (hu : SameWords units units') (hk : SameKeywords keywords keywords') (hn : SameNumerals numerals numerals')
    (h : FirstMistake cfg units keywords numerals s f) (hf : f ≠ .other .negativeNumber) :
    FirstMistake (other cfg v) units' keywords' numerals' s f ∨
      (cfg.allowNegative = false ∧ FirstMistake (other cfg v) units' keywords' numerals' s (.other .negativeNumber)) ∨
      FirstOutOfRange (other cfg v) units' keywords' numerals' s := by
  induction h with
  | empty => exact Or.inl .empty
  | sign h => exact Or.inl (.sign (signMistake h))
  | text h1 h => exact Or.inl (.text (sign h1) (multiMistake hu hk hn h))
  | negative => exact absurd rfl hf
  | @later s neg r item rest d f h1 h2 h3 h4 h5 ih =>
    obtain ⟨item', g2⟩ := multi (v := v) hu hk hn h2
    rcases item_kinds (other cfg v) neg item' with ⟨d', hd⟩ | ⟨d', hd, hd', ha⟩ | hd
    · rcases ih hf with ih | ⟨ha, ih⟩ | ih
      · exact Or.inl (.later (sign h1) g2 h3 hd ih)
      · exact Or.inr (Or.inl ⟨ha, .later (sign h1) g2 h3 hd ih⟩)
      · exact Or.inr (Or.inr (.later (sign h1) g2 h3 hd ih))
    · exact Or.inr (Or.inl ⟨ha, .negative (sign h1) g2 hd hd' ha⟩)
    · exact Or.inr (Or.inr (.here (sign h1) g2 hd))

theorem mistake (hu : SameWords units units') (hk : SameKeywords keywords keywords') (hn : SameNumerals numerals numerals')
    (h : Mistake cfg units keywords numerals s f) (hf : f ≠ .other .negativeNumber) :
    Mistake (other cfg v) units' keywords' numerals' s f := by
  cases h with
  | empty => exact .empty
  | sign h => exact .sign (signMistake h)
  | text h1 h => exact .text (sign h1) (singleMistake hu hk hn h)
  | negative => exact absurd rfl hf

/-! ## The error for negative durations -/

theorem number_not (h : NumberMistake cfg s f) : f ≠ .other .negativeNumber := by
  cases h with
  | fraction _ h => cases h <;> (intro h; cases h)
  | exponent _ _ h =>
    cases h with
    | @overflow _ _ neg => cases neg <;> (intro h; cases h)
    | disabled => intro h; cases h
    | endOfText => intro h; cases h
    | onlySign => intro h; cases h
    | noDigit => intro h; cases h

theorem connection_not (h : ConnectionMistake cfg s f) : f ≠ .other .negativeNumber := by
  cases h with
  | delimiters => intro h; cases h
  | conjunction _ _ _ _ _ _ h => cases h <;> (intro h; cases h)

theorem unitMulti_not (h : UnitMultiMistake cfg units s f) : f ≠ .other .negativeNumber := by
  cases h with
  | delimiters => intro h; cases h
  | connection _ _ h => exact connection_not h

theorem unitSingle_not (h : UnitSingleMistake cfg units s f) : f ≠ .other .negativeNumber := by
  cases h <;> (intro h; cases h)

theorem numeral_not {um : Bytes → Fault → Prop} {no : Bytes → Prop} (hu : ∀ s f, um s f → f ≠ .other .negativeNumber)
    (h : NumeralMistake cfg units numerals um no s f) : f ≠ .other .negativeNumber := by
  cases h with
  | unit _ _ _ h => exact hu _ _ h
  | delimiters => intro h; cases h
  | noUnit => intro h; cases h
  | noNumeral => intro h; cases h

theorem sign_not (h : SignMistake cfg s f) : f ≠ .other .negativeNumber := by cases h <;> (intro h; cases h)

theorem single_not (h : SingleMistake cfg units keywords numerals s f) : f ≠ .other .negativeNumber := by
  cases h with
  | number h => exact number_not h
  | unit _ _ _ _ h => exact unitSingle_not h
  | infinity _ _ h => cases h <;> (intro h; cases h)
  | unitWord _ _ _ h => exact unitSingle_not h
  | numeral _ _ _ h => exact numeral_not (fun _ _ h => unitSingle_not h) h
  | delimiters => intro h; cases h
  | noUnits => intro h; cases h
  | noUnit => intro h; cases h

theorem multi_not (h : MultiMistake cfg units keywords numerals s f) : f ≠ .other .negativeNumber := by
  cases h with
  | number h => exact number_not h
  | delimiters => intro h; cases h
  | unit _ _ _ _ h => exact unitMulti_not h
  | connection _ _ _ _ h => exact connection_not h
  | infinity _ _ h =>
    cases h with
    | connection h => exact connection_not h
    | connection' _ _ h => exact connection_not h
    | character => intro h; cases h
    | endOfText => intro h; cases h
    | noDelimiter => intro h; cases h
  | keyword _ _ _ h => exact connection_not h
  | unitWord _ _ _ h => exact unitMulti_not h
  | numeral _ _ _ h => exact numeral_not (fun _ _ h => unitMulti_not h) h

/-- where the error for a negative duration in a single duration comes from -/
theorem negative_single (h : Mistake cfg units keywords numerals s (.other .negativeNumber)) :
    ∃ neg r item d, SignPart cfg s neg r ∧ SingleText cfg units keywords numerals r item ∧ Denotes cfg neg item d ∧
      d.isNegative = true ∧ cfg.allowNegative = false := by
  cases h with
  | sign h => exact absurd rfl (sign_not h)
  | text _ h => exact absurd rfl (single_not h)
  | negative h1 h2 h3 h4 h5 => exact ⟨_, _, _, _, h1, h2, h3, h4, h5⟩

/-- and in several ones -/
theorem negative_first (h : FirstMistake cfg units keywords numerals s (.other .negativeNumber)) :
    ∃ s' neg r item rest d, s' <:+ s ∧ SignPart cfg s' neg r ∧ MultiText cfg units keywords numerals r item rest ∧
      Denotes cfg neg item d ∧ d.isNegative = true ∧ cfg.allowNegative = false := by
  generalize hf : Fault.other .negativeNumber = f at h
  induction h with
  | empty => cases hf
  | sign h => exact absurd hf.symm (sign_not h)
  | text _ h => exact absurd hf.symm (multi_not h)
  | negative h1 h2 h3 h4 h5 => exact ⟨_, _, _, _, _, _, List.suffix_refl _, h1, h2, h3, h4, h5⟩
  | later h1 h2 _ _ _ ih =>
    obtain ⟨s', neg, r, item, rest, d, g1, g⟩ := ih hf
    exact ⟨s', neg, r, item, rest, d, g1.trans ((Negated.multi_suffix h2).trans (Later.sign_part_suffix h1)), g⟩


/-- a number and words which don't stand for negative durations -/
def NonnegativeItem : Item → Prop
  | .number _ _ _ u => ∀ x, u = some x → 0 ≤ x.2.coefficient
  | .infinity => True
  | .word x => 0 ≤ x.2.coefficient
  | .numeral q x => 0 ≤ q.coefficient ∧ 0 ≤ x.2.coefficient

theorem item_nonnegative {item : Item} {d : Duration} (hi : NonnegativeItem item) (h : Denotes cfg false item d) :
    d.isNegative = false := by
  have key : ∀ {W F : Bytes} {e : Int} {m : Multiplier}, 0 ≤ m.coefficient → Value false W F e m d → d.isNegative = false := by
    intro W F e m hm hv
    by_contra hd
    rw [Bool.not_eq_false] at hd
    have := (hv.2.2.1 hd).2.2
    unfold literalSign at this
    rw [if_neg (by decide), if_neg (by omega)] at this
    revert this; decide
  have pos : ∀ u : TimeUnit, 0 ≤ u.multiplier.coefficient := by intro u; cases u <;> decide
  cases h with
  | number h => exact key (pos _) h
  | @numberUnit _ _ _ u m _ _ h => exact key (Int.mul_nonneg (pos u) (hi _ rfl)) h
  | infinity hw h =>
    by_contra hd
    rw [Bool.not_eq_false] at hd
    rw [if_neg (by decide)] at h
    unfold nanos at h
    rw [hd, if_pos rfl] at h
    have : (0 : Int) < maxNanos := by decide
    omega
  | @word u m _ _ h => exact key (Int.mul_nonneg (pos u) hi) h
  | @numeral q u m _ _ _ h => exact key (Int.mul_nonneg (Int.mul_nonneg hi.1 (pos u)) hi.2) h

theorem sign_plain {neg : Bool} (h : SignPart cfg s neg r) (hs : (45 : UInt8) ∉ s) : neg = false := by
  cases h with
  | absent => rfl
  | plus => rfl
  | minus => exact absurd (by simp) hs

theorem unitMulti_nonnegative (ha : cfg.allowAgo = false) (ht : NonnegativeTable units) {x} (h : UnitMulti cfg units s x r) :
    0 ≤ x.2.coefficient := by
  obtain ⟨⟨w, -, -, h1⟩, h2, -⟩ := h
  cases h2 with
  | absent => exact ht _ _ _ h1
  | other h => rw [ha] at h; cases h
  | ago h => rw [ha] at h; cases h

theorem unitSingle_nonnegative (ha : cfg.allowAgo = false) (ht : NonnegativeTable units) {x} (h : UnitSingle cfg units s x r) :
    0 ≤ x.2.coefficient := by
  cases h with
  | whole _ h => exact ht _ _ _ h
  | plain h => rw [ha] at h; cases h
  | ago h => rw [ha] at h; cases h

theorem multi_nonnegative (ha : cfg.allowAgo = false) (ht : NonnegativeTable units) (hk : ∀ k, keywords = some k → NonnegativeTable k)
    (hn : ∀ n, numerals = some n → ∀ id q, n id = some q → 0 ≤ q.coefficient) {item : Item}
    (h : MultiText cfg units keywords numerals s item r) : NonnegativeItem item := by
  cases h with
  | numberEnd => rintro x ⟨⟩
  | numberUnit _ _ _ h => rintro x ⟨⟩; exact unitMulti_nonnegative ha ht h
  | number => rintro x ⟨⟩
  | inf => trivial
  | infinity => trivial
  | keyword _ h1 h2 => obtain ⟨w, -, -, h2⟩ := h2; exact hk _ h1 _ _ _ h2
  | unit _ _ _ h => exact unitMulti_nonnegative ha ht h
  | numeral _ _ _ h1 _ _ h2 _ _ h => exact ⟨hn _ h1 _ _ h2, unitMulti_nonnegative ha ht h⟩

theorem single_nonnegative (ha : cfg.allowAgo = false) (ht : NonnegativeTable units) (hk : ∀ k, keywords = some k → NonnegativeTable k)
    (hn : ∀ n, numerals = some n → ∀ id q, n id = some q → 0 ≤ q.coefficient) {item : Item}
    (h : SingleText cfg units keywords numerals s item) : NonnegativeItem item := by
  cases h with
  | number _ h =>
    cases h with
    | absent => rintro x ⟨⟩
    | present _ _ _ h => rintro x ⟨⟩; exact unitSingle_nonnegative ha ht h
  | infinity => trivial
  | keyword _ h1 h2 => exact hk _ h1 _ _ _ h2
  | unit _ _ _ h => exact unitSingle_nonnegative ha ht h
  | numeral _ _ _ h1 _ _ h2 _ _ h => exact ⟨hn _ h1 _ _ h2, unitSingle_nonnegative ha ht h⟩

end Fundu.Lengths
