import Verif.Spec.Bare
import Verif.Spec.OutOfRange
import Verif.Proofs.Numbered
/-!
# `number_is_optional` has no influence on texts without bare time units
-/
namespace Fundu.Bare
open Fundu Fundu.Spec

/-- the same configuration with or without bare time units -/
abbrev other (cfg : Config) (v : Bool) : Config := { cfg with numberIsOptional := v }

variable {cfg : Config} {v : Bool} {units : TimeUnitsLike} {keywords : Option TimeUnitsLike}
  {numerals : Option NumbersLike} {s r : Bytes} {f : Fault}

/-! ## Signs, numbers, units and connections -/

theorem sign {neg : Bool} (h : SignPart cfg s neg r) : SignPart (other cfg v) s neg r := by
  cases h with
  | absent a b => exact .absent a b
  | plus a b => exact .plus a b
  | minus a b => exact .minus a b

theorem fraction {W F : Bytes} (h : FractionPart cfg W s F r) : FractionPart (other cfg v) W s F r := by
  cases h with
  | absent a b => exact .absent a b
  | present a b c => exact .present a b c

theorem exponent {e : Int} (h : ExponentPart cfg s e r) : ExponentPart (other cfg v) s e r := by
  cases h with
  | absent a => exact .absent a
  | present a b c d e f => exact .present a b c d e f

theorem number {W F : Bytes} {e : Int} (h : NumberText cfg s W F e r) : NumberText (other cfg v) s W F e r := by
  obtain ⟨r1, r2, h1, h2, h3⟩ := h
  exact ⟨r1, r2, h1, fraction h2, exponent h3⟩

theorem connection (h : Connection cfg s r) : Connection (other cfg v) s r := by
  cases h with
  | absent a => exact .absent a
  | delims a b c d => exact .delims a b c d
  | conjunction a b c d e f g h => exact .conjunction a b c d e f g h

theorem ago {m m' : Multiplier} (h : AgoPart cfg s m m' r) : AgoPart (other cfg v) s m m' r := by
  cases h with
  | absent a => exact .absent a
  | other a b c d e => exact .other a b c d e
  | ago a b c d => exact .ago a b c d

theorem unitMulti {u} (h : UnitMulti cfg units s u r) : UnitMulti (other cfg v) units s u r := by
  obtain ⟨h1, h2, h3⟩ := h
  exact ⟨h1, ago h2, connection h3⟩

theorem unitSingle {u} (h : UnitSingle cfg units s u r) : UnitSingle (other cfg v) units s u r := by
  cases h with
  | whole a b => exact .whole a b
  | plain a b c d => exact .plain a b c d
  | ago a b c d e f => exact .ago a b c d e f

theorem unitPart {u} (h : UnitPart cfg units s u) : UnitPart (other cfg v) units s u := by
  cases h with
  | absent => exact .absent
  | present a b c d => exact .present a b c (unitSingle d)

/-! ## Mistakes -/

theorem signMistake (h : SignMistake cfg s f) : SignMistake (other cfg v) s f := by
  cases h with
  | noNumber a => exact .noNumber a
  | delimiters a b c => exact .delimiters a b c

theorem numberMistake (h : NumberMistake cfg s f) : NumberMistake (other cfg v) s f := by
  cases h with
  | fraction a b =>
    refine .fraction a ?_
    cases b with
    | disabled c => exact .disabled c
    | noDigits c d e => exact .noDigits c d e
  | exponent a b c =>
    refine .exponent a (fraction b) ?_
    cases c with
    | disabled x y => exact .disabled x y
    | endOfText x y => exact .endOfText x y
    | onlySign x y z => exact .onlySign x y z
    | noDigit x y z w t => exact .noDigit x y z w t
    | overflow x y z w t => exact .overflow x y z w t

theorem connectionMistake (h : ConnectionMistake cfg s f) : ConnectionMistake (other cfg v) s f := by
  cases h with
  | delimiters a => exact .delimiters a
  | conjunction a b c d e g h =>
    refine .conjunction a b c d e g ?_
    cases h with
    | endOfText => exact .endOfText
    | delimiters a => exact .delimiters a
    | notSeparated a b => exact .notSeparated a b

theorem unitMultiMistake (h : UnitMultiMistake cfg units s f) : UnitMultiMistake (other cfg v) units s f := by
  cases h with
  | delimiters a b c => exact .delimiters a b c
  | connection a b c => exact .connection a (ago b) (connectionMistake c)

theorem unitSingleMistake (h : UnitSingleMistake cfg units s f) : UnitSingleMistake (other cfg v) units s f := by
  cases h with
  | delimiters a b c d e => exact .delimiters a b c d e
  | more a b => exact .more (unitSingle a) b

theorem noUnitSingle (h : NoUnitSingle cfg units s) : NoUnitSingle (other cfg v) units s := by
  refine ⟨?_, ?_⟩
  · rintro ⟨u, r, y⟩
    exact h.1 ⟨u, r, unitSingle (cfg := other cfg v) (v := cfg.numberIsOptional) y⟩
  · rintro ⟨f, y⟩
    exact h.2 ⟨f, unitSingleMistake (cfg := other cfg v) (v := cfg.numberIsOptional) y⟩

theorem numeralMistake {um um' : Bytes → Fault → Prop} {no no' : Bytes → Prop} (h1 : ∀ s f, um s f → um' s f) (h2 : ∀ s, no s → no' s)
    (h : NumeralMistake cfg units numerals um no s f) : NumeralMistake (other cfg v) units numerals um' no' s f := by
  cases h with
  | delimiters a b => exact .delimiters a b
  | unit a b c d => exact .unit a b c (h1 _ _ d)
  | noUnit a b c d => exact .noUnit a b c (h2 _ d)
  | noNumeral a => exact .noNumeral a

/-! ## One duration -/

theorem single {item : Item} (hb : WordStart cfg s → NoUnitSingle cfg units s)
    (h : SingleText cfg units keywords numerals s item) : SingleText (other cfg v) units keywords numerals s item := by
  cases h with
  | number a b => exact .number (number a) (unitPart b)
  | infinity a b => exact .infinity a b
  | keyword a b c => exact .keyword a b c
  | unit a b c d => exact absurd ⟨_, _, d⟩ (hb a).1
  | numeral a b c d e f g i j k =>
    exact .numeral a b (fun _ => (noUnitSingle (v := v) (hb a)).1) d e f g i j (unitSingle k)

theorem singleMistake (hb : WordStart cfg s → NoUnitSingle cfg units s)
    (h : SingleMistake cfg units keywords numerals s f) : SingleMistake (other cfg v) units keywords numerals s f := by
  cases h with
  | number a => exact .number (numberMistake a)
  | delimiters a b c => exact .delimiters (number a) b c
  | noUnits a b c d => exact .noUnits (number a) b c d
  | noUnit a b c d e => exact .noUnit (number a) b c d (noUnitSingle e)
  | unit a b c d e => exact .unit (number a) b c d (unitSingleMistake e)
  | infinity a b c => exact .infinity a b c
  | unitWord a b c d => exact absurd ⟨_, d⟩ (hb a).2
  | numeral a b c d =>
    exact .numeral a b (fun _ => noUnitSingle (hb a))
      (numeralMistake (fun _ _ h => unitSingleMistake h) (fun _ h => noUnitSingle h) d)

theorem multi {item : Item} (hb : WordStart cfg s → NoUnitMulti cfg units s)
    (h : MultiText cfg units keywords numerals s item r) : MultiText (other cfg v) units keywords numerals s item r := by
  cases h with
  | numberEnd a => exact .numberEnd (number a)
  | numberUnit a b c d => exact .numberUnit (number a) b c (unitMulti d)
  | number a b c d e => exact .number (number a) b c d (connection e)
  | inf a b c d => exact .inf a b c (connection d)
  | infinity a b c d e f => exact .infinity a b c d e (connection f)
  | keyword a b c d => exact .keyword a b c (connection d)
  | unit a b c d =>
    obtain ⟨h1, -, -⟩ := d
    exact absurd ⟨_, _, h1⟩ (hb a)
  | numeral a b c d e f g i j k => exact .numeral a b (fun _ => hb a) d e f g i j (unitMulti k)

theorem multiMistake (hb : WordStart cfg s → NoUnitMulti cfg units s)
    (h : MultiMistake cfg units keywords numerals s f) : MultiMistake (other cfg v) units keywords numerals s f := by
  cases h with
  | number a => exact .number (numberMistake a)
  | delimiters a b c => exact .delimiters (number a) b c
  | unit a b c d e => exact .unit (number a) b c d (unitMultiMistake e)
  | connection a b c d e => exact .connection (number a) b c d (connectionMistake e)
  | infinity a b c =>
    refine .infinity a b ?_
    cases c with
    | connection a => exact .connection (connectionMistake a)
    | character a b c d e => exact .character a b c d e
    | endOfText a b c d e => exact .endOfText a b c d e
    | noDelimiter a b c => exact .noDelimiter a b c
    | connection' a b c => exact .connection' a b (connectionMistake c)
  | keyword a b c d => exact .keyword a b c (connectionMistake d)
  | unitWord a b c d =>
    cases d with
    | delimiters d => exact absurd ⟨_, _, d⟩ (hb a)
    | connection d => exact absurd ⟨_, _, d⟩ (hb a)
  | numeral a b c d =>
    exact .numeral a b (fun _ => hb a) (numeralMistake (fun _ _ h => unitMultiMistake h) (fun _ h => h) d)

/-! ## Whole texts -/

theorem denotes {neg : Bool} {item : Item} {d : Duration} (h : Denotes cfg neg item d) : Denotes (other cfg v) neg item d := by
  cases h with
  | number h => exact .number h
  | numberUnit h g => exact .numberUnit h g
  | infinity h g => exact .infinity h g
  | word h g => exact .word h g
  | numeral h g k => exact .numeral h g k

theorem accepted {neg : Bool} {item : Item} {d : Duration} (h : Accepted cfg neg item d) : Accepted (other cfg v) neg item d :=
  ⟨denotes h.1, h.2⟩

theorem remains_trans {r' : Bytes} (h : Remains cfg units keywords numerals s r) (h' : Remains cfg units keywords numerals r r') :
    Remains cfg units keywords numerals s r' := by
  induction h' with
  | all => exact h
  | after _ a b c ih => exact .after ih a b c

variable (hb : ¬ BareMultiple (other cfg v) units keywords numerals s)
include hb

theorem here {neg : Bool} (h : SignPart cfg s neg r) : WordStart cfg r → NoUnitMulti cfg units r := fun hw =>
  Classical.byContradiction fun hn => hb ⟨s, neg, r, .all, sign h, hw, hn⟩

theorem rest {neg : Bool} {item : Item} {t : Bytes} (h : SignPart cfg s neg r) (h' : MultiText cfg units keywords numerals r item t) (ht : t ≠ []) :
    ¬ BareMultiple (other cfg v) units keywords numerals t := by
  rintro ⟨x, neg', y, h1, h2⟩
  exact hb ⟨x, neg', y, remains_trans (.after .all (sign h) (multi (here hb h) h') ht) h1, h2⟩

omit hb

theorem durations {l : List (Bool × Item)} (h : Durations cfg units keywords numerals s l) :
    ¬ BareMultiple (other cfg v) units keywords numerals s → Durations (other cfg v) units keywords numerals s l := by
  induction h with
  | last h1 h2 => exact fun hb => .last (sign h1) (multi (here hb h1) h2)
  | more h1 h2 h3 _ ih => exact fun hb => .more (sign h1) (multi (here hb h1) h2) h3 (ih (rest hb h1 h2 h3))

theorem first (h : FirstMistake cfg units keywords numerals s f) :
    ¬ BareMultiple (other cfg v) units keywords numerals s → FirstMistake (other cfg v) units keywords numerals s f := by
  induction h with
  | empty => exact fun _ => .empty
  | sign h => exact fun _ => .sign (signMistake h)
  | text h1 h => exact fun hb => .text (sign h1) (multiMistake (here hb h1) h)
  | negative h1 h2 h3 h4 h5 => exact fun hb => .negative (sign h1) (multi (here hb h1) h2) (denotes h3) h4 h5
  | later h1 h2 h3 h4 _ ih => exact fun hb => .later (sign h1) (multi (here hb h1) h2) h3 (accepted h4) (ih (rest hb h1 h2 h3))

theorem outOfRange (h : FirstOutOfRange cfg units keywords numerals s) :
    ¬ BareMultiple (other cfg v) units keywords numerals s → FirstOutOfRange (other cfg v) units keywords numerals s := by
  induction h with
  | here h1 h2 h3 => exact fun hb => .here (sign h1) (multi (here hb h1) h2) h3
  | later h1 h2 h3 h4 _ ih => exact fun hb => .later (sign h1) (multi (here hb h1) h2) h3 (accepted h4) (ih (rest hb h1 h2 h3))

end Fundu.Bare
