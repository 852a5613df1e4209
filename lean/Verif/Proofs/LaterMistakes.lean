import Verif.Spec.LaterMistakes
import Verif.Spec.Mistakes
import Verif.Spec.OutOfRange
import Verif.Proofs.Concat
import Verif.Proofs.Negated
/-!
# Mistakes behind accepted durations

The place of a mistake is in the text, and a mistake in a text is also one in a longer text with accepted durations in
front.
-/
namespace Fundu.Props.Later
open Fundu Fundu.Spec Fundu.Props Fundu.Props.Concat Fundu.Props.Negated

variable {cfg : Config} {units : TimeUnitsLike} {keywords : Option TimeUnitsLike} {numerals : Option NumbersLike} {s t X : Bytes}
  {f : Fault}

/-- the place of the mistake is in the text -/
def Within (s : Bytes) : Fault → Prop
  | .syntax r _ => r <:+ s
  | .timeUnit r _ => r <:+ s
  | .other e => ∀ n, movedBy n e = e

theorem within_mono {s s' : Bytes} (h : s <:+ s') (hf : Within s f) : Within s' f := by
  cases f with
  | «syntax» r _ => exact List.IsSuffix.trans hf h
  | timeUnit r _ => exact List.IsSuffix.trans hf h
  | other => exact hf

theorem sign_part_suffix {neg : Bool} {r : Bytes} (h : SignPart cfg s neg r) : r <:+ s := by
  cases h with
  | absent => exact List.suffix_refl _
  | plus h _ => exact (afterDelims_suffix h).trans (List.suffix_cons _ _)
  | minus h _ => exact (afterDelims_suffix h).trans (List.suffix_cons _ _)

theorem exponentSign_suffix {r r' : Bytes} {neg : Bool} (h : ExponentSign r neg r') : r' <:+ r := by
  cases h <;> first | exact List.suffix_refl _ | exact List.suffix_cons _ _

theorem within_sign (h : SignMistake cfg s f) : Within s f := by
  cases h with
  | noNumber => exact List.nil_suffix
  | delimiters => exact List.suffix_cons _ _

theorem within_number (h : NumberMistake cfg s f) : Within s f := by
  cases h with
  | fraction h1 h => exact within_mono (split_suffix h1) (by cases h <;> exact List.suffix_refl _)
  | exponent h1 h2 h =>
    refine within_mono ((fraction_suffix h2).trans (split_suffix h1)) ?_
    cases h with
    | disabled => exact List.suffix_refl _
    | endOfText => exact List.nil_suffix
    | onlySign => exact List.nil_suffix
    | noDigit _ _ h => exact (exponentSign_suffix h).trans (List.suffix_cons _ _)
    | @overflow _ _ neg => intro n; cases neg <;> rfl

theorem within_connection (h : ConnectionMistake cfg s f) : Within s f := by
  cases h with
  | delimiters => exact List.suffix_refl _
  | conjunction h1 _ _ _ _ h2 h =>
    refine within_mono (split_suffix h1) ?_
    cases h with
    | endOfText => exact List.suffix_refl _
    | delimiters => exact afterWord_suffix h2
    | notSeparated => exact afterWord_suffix h2

theorem within_unit (h : UnitMultiMistake cfg units s f) : Within s f := by
  cases h with
  | delimiters h => exact wordIn_suffix h
  | connection h1 h2 h => exact within_mono ((ago_suffix h2).trans (wordIn_suffix h1)) (within_connection h)

theorem within_numeral (h : NumeralMistake cfg units numerals (UnitMultiMistake cfg units) (NoUnitMulti cfg units) s f) :
    Within s f := by
  cases h with
  | delimiters h => obtain ⟨n, q, -, h, -⟩ := h; exact split_suffix h
  | unit h h' _ hm =>
    obtain ⟨n, q, -, h, -⟩ := h
    exact within_mono ((split_suffix h').trans (split_suffix h)) (within_unit hm)
  | noUnit h h' => obtain ⟨n, q, -, h, -⟩ := h; exact (split_suffix h').trans (split_suffix h)
  | noNumeral => exact fun _ => rfl

theorem within_multi (h : MultiMistake cfg units keywords numerals s f) : Within s f := by
  cases h with
  | number h => exact within_number h
  | delimiters h => exact number_suffix h
  | unit h1 h2 _ _ h => exact within_mono ((afterDelims_suffix h2).trans (number_suffix h1)) (within_unit h)
  | connection h1 h2 _ _ h => exact within_mono ((afterDelims_suffix h2).trans (number_suffix h1)) (within_connection h)
  | infinity _ hr h =>
    cases h with
    | connection h => exact within_mono (afterWord_suffix hr) (within_connection h)
    | character _ h => exact List.IsSuffix.trans ⟨_, h.symm⟩ (afterWord_suffix hr)
    | endOfText => exact List.suffix_refl _
    | noDelimiter _ h => exact (afterWord_suffix h).trans (afterWord_suffix hr)
    | connection' _ h' h => exact within_mono ((afterWord_suffix h').trans (afterWord_suffix hr)) (within_connection h)
  | keyword _ _ h' h => exact within_mono (wordIn_suffix h') (within_connection h)
  | unitWord _ _ _ h => exact within_unit h
  | numeral _ _ _ h => exact within_numeral h

theorem within_first (h : FirstMistake cfg units keywords numerals s f) : Within s f := by
  induction h with
  | empty => exact fun _ => rfl
  | sign h => exact within_sign h
  | text h1 h => exact within_mono (sign_part_suffix h1) (within_multi h)
  | negative => exact fun _ => rfl
  | later h1 h2 _ _ _ ih => exact within_mono ((multi_suffix h2).trans (sign_part_suffix h1)) ih

/-- the error of a mistake, with more text in front -/
theorem error_moved {a : Bytes} (h : Within t f) : f.error (a ++ t) = movedBy a.length (f.error t) := by
  cases f with
  | «syntax» r _ =>
    have := List.IsSuffix.length_le h
    show ParseError.syntax _ _ = .syntax _ _
    rw [List.length_append]
    congr 1; omega
  | timeUnit r _ =>
    have := List.IsSuffix.length_le h
    show ParseError.timeUnit _ _ = .timeUnit _ _
    rw [List.length_append]
    congr 1; omega
  | other e => exact (h _).symm

/-- the first mistake in a text is the first one of the text with accepted durations in front -/
theorem first_append (ho : Orderly cfg units keywords numerals) (hp : PlainConjunctions cfg) (hj : Junction cfg units X t)
    {l : List (Bool × Item)} {ds : List Duration} (h : Durations cfg units keywords numerals s l)
    (ha : List.Forall₂ (fun i d => Accepted cfg i.1 i.2 d) l ds)
    (h' : FirstMistake cfg units keywords numerals t f) : FirstMistake cfg units keywords numerals (s ++ X) f := by
  induction h generalizing ds with
  | last h1 h2 =>
    cases ha with
    | cons g _ => exact .later (sign_append h1) (multi_append ho hp hj.start hj h2) hj.ne g h'
  | more h1 h2 h3 h4 ih =>
    have := multi_append ho hp hj.start hj h2
    rw [out_ne h3] at this
    cases ha with
    | cons g gs => exact .later (sign_append h1) this (by simp [h3]) g (ih gs)

theorem outOfRange_append (ho : Orderly cfg units keywords numerals) (hp : PlainConjunctions cfg) (hj : Junction cfg units X t)
    {l : List (Bool × Item)} {ds : List Duration} (h : Durations cfg units keywords numerals s l)
    (ha : List.Forall₂ (fun i d => Accepted cfg i.1 i.2 d) l ds)
    (h' : FirstOutOfRange cfg units keywords numerals t) : FirstOutOfRange cfg units keywords numerals (s ++ X) := by
  induction h generalizing ds with
  | last h1 h2 =>
    cases ha with
    | cons g _ => exact .later (sign_append h1) (multi_append ho hp hj.start hj h2) hj.ne g h'
  | more h1 h2 h3 h4 ih =>
    have := multi_append ho hp hj.start hj h2
    rw [out_ne h3] at this
    cases ha with
    | cons g gs => exact .later (sign_append h1) this (by simp [h3]) g (ih gs)

end Fundu.Props.Later
