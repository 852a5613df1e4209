import Verif.Proofs.Distinct
/-!
# Parsers on some short texts

Each fact is checked by evaluation for all values of the options the text has a use for; `run` carries it over to all parsers.
-/
namespace Fundu.Distinct
open Fundu Spec Props

def accepted (r : R Duration) : Bool := r.toOption.isSome

/-- the time units other than `u` whose identifier is a part of the identifier of `u` -/
def others : TimeUnit → List TimeUnit
  | .nanoSecond => [.second]
  | .microSecond => [.month, .second]
  | .milliSecond => [.minute, .second]
  | _ => []

/-- a time unit whose identifier is not a part of the identifier of `u` -/
def filler (u : TimeUnit) : TimeUnit := if u = .year then .day else .year

/-- the lists which are left if some elements are taken away -/
def subs : List TimeUnit → List (List TimeUnit)
  | [] => [[]]
  | a :: l => subs l ++ (subs l).map (a :: ·)

theorem filter_subs (p : TimeUnit → Bool) (l : List TimeUnit) : l.filter p ∈ subs l := by
  induction l with
  | nil => simp [subs]
  | cons a l ih =>
    unfold subs
    rw [List.mem_append, List.filter_cons]
    split
    · exact Or.inr (List.mem_map.2 ⟨_, ih, rfl⟩)
    · exact Or.inl ih

def canon (u : TimeUnit) (b : Bool) (sub tail : List TimeUnit) : List TimeUnit := (if b then [u] else []) ++ sub ++ tail

theorem mem_all (u : TimeUnit) : u ∈ allUnits := by cases u <;> decide

theorem filler_other : ∀ u ∈ allUnits, filler u ≠ u ∧ filler u ∉ others u ∧ u ∉ others u := by decide +kernel

theorem runUnit {c : Config} (hc : PlainDelimiters c) (us : List TimeUnit) (u : TimeUnit) (s : Bytes)
    (hs : ∀ w ∈ allUnits, w.defaultIdentifier <:+: s → w = u ∨ w ∈ others u) :
    ∃ sub ∈ subs (others u), ∃ tail, (us = [] ∧ tail = [] ∨ us ≠ [] ∧ tail = [filler u]) ∧
      parse c (table us) none none s = parse (lite s c) (table (canon u (decide (u ∈ us)) sub tail)) none none s := by
  obtain ⟨f1, f2, f3⟩ := filler_other u (mem_all u)
  refine ⟨(others u).filter (· ∈ us), filter_subs _ _, if us = [] then [] else [filler u], ?_, ?_⟩
  · by_cases h : us = [] <;> simp [h]
  · refine run hc us _ s ?_ ?_
    · unfold canon
      by_cases h : us = []
      · simp [h]
      · simp [h]
    · intro w hw
      have hx := hs w (mem_all w) hw
      have hf : w ≠ filler u := by
        rintro rfl
        rcases hx with h | h
        · exact f1 h
        · exact f2 h
      have ht : w ∉ (if us = [] then [] else [filler u]) := by
        split
        · simp
        · simpa using hf
      unfold canon
      rw [List.mem_append, List.mem_append]
      by_cases h : w = u
      · subst h
        simp only [List.mem_filter, decide_eq_true_eq, ht, or_false]
        by_cases hm : w ∈ us
        · simp [hm]
        · simp [hm]
      · have hu : w ∉ (if u ∈ us then [u] else []) := by
          split
          · simpa using h
          · simp
        have ho := hx.resolve_left h
        simp only [hu, ht, List.mem_filter, decide_eq_true_eq, ho, true_and, or_false, false_or]

theorem runPlain {c : Config} (hc : PlainDelimiters c) (us : List TimeUnit) (hu : us ≠ []) (s : Bytes)
    (hs : ∀ w ∈ allUnits, ¬ w.defaultIdentifier <:+: s) :
    parse c (table us) none none s = parse (lite s c) (table [.second]) none none s := by
  refine run hc us _ s (by simp [hu]) ?_
  intro w hw
  exact absurd hw (hs w (mem_all w))

/-! ## Numbers -/

theorem eval_one : ∀ v ∈ allUnits, ∀ m n o : Bool,
    parse { defaultUnit := v, allowMultiple := m, allowNegative := n, numberIsOptional := o } (table [.second]) none none (b! "1") =
      parse { defaultUnit := v } (table []) none none (b! "1") := by decide +kernel

theorem eval_lengths : ∀ v ∈ allUnits, ∀ v' ∈ allUnits, parse { defaultUnit := v } (table []) none none (b! "1") =
    parse { defaultUnit := v' } (table []) none none (b! "1") → v = v' := by decide +kernel

theorem eval_two : ∀ v ∈ allUnits, ∀ m n o ud a : Bool,
    accepted (parse { defaultUnit := v, allowMultiple := m, allowNegative := n, numberIsOptional := o, allowTimeUnitDelimiter := ud, allowAgo := a }
      (table [.second]) none none (b! "1 1")) = m := by decide +kernel

theorem eval_minus : ∀ v ∈ allUnits, ∀ m n o : Bool,
    accepted (parse { defaultUnit := v, allowMultiple := m, allowNegative := n, numberIsOptional := o }
      (table [.second]) none none (b! "-1")) = n := by decide +kernel

theorem eval_fraction : ∀ v ∈ allUnits, ∀ m n o f : Bool,
    accepted (parse { defaultUnit := v, allowMultiple := m, allowNegative := n, numberIsOptional := o, disableFraction := f }
      (table [.second]) none none (b! "1.5")) = !f := by decide +kernel

theorem eval_exponent : ∀ v ∈ allUnits, ∀ m n o e : Bool,
    accepted (parse { defaultUnit := v, allowMultiple := m, allowNegative := n, numberIsOptional := o, disableExponent := e }
      (table [.second]) none none (b! "1e1")) = !e := by decide +kernel

theorem eval_infinity : ∀ v ∈ allUnits, ∀ m n o i : Bool,
    accepted (parse { defaultUnit := v, allowMultiple := m, allowNegative := n, numberIsOptional := o, disableInfinity := i }
      (table [.second]) none none (b! "inf")) = !i := by decide +kernel

theorem eval_sign : ∀ v ∈ allUnits, ∀ m n o sd a : Bool,
    accepted (parse { defaultUnit := v, allowMultiple := m, allowNegative := n, numberIsOptional := o, allowSignDelimiter := sd, allowAgo := a }
      (table [.second]) none none (b! "+ 1")) = sd := by decide +kernel

/-! ## Time units -/

theorem eval_unit : ∀ u ∈ allUnits, ∀ sub ∈ subs (others u), ∀ tail ∈ [[], [filler u]], ∀ b : Bool, ∀ v ∈ allUnits, ∀ m n o : Bool,
    accepted (parse { defaultUnit := v, allowMultiple := m, allowNegative := n, numberIsOptional := o }
      (table (canon u b sub tail)) none none (b! "1" ++ u.defaultIdentifier)) = b := by decide +kernel

theorem eval_optional : ∀ u ∈ allUnits, ∀ sub ∈ subs (others u), ∀ v ∈ allUnits, ∀ m n o : Bool,
    accepted (parse { defaultUnit := v, allowMultiple := m, allowNegative := n, numberIsOptional := o }
      (table (canon u true sub [filler u])) none none u.defaultIdentifier) = o := by decide +kernel

theorem eval_ago : ∀ u ∈ allUnits, ∀ sub ∈ subs (others u), ∀ v ∈ allUnits, ∀ m n o a : Bool,
    (accepted (parse { defaultUnit := v, allowMultiple := m, allowNegative := n, numberIsOptional := o, allowAgo := a }
      (table (canon u true sub [filler u])) none none (b! "1" ++ u.defaultIdentifier ++ b! " ago")) ||
     decide (parse { defaultUnit := v, allowMultiple := m, allowNegative := n, numberIsOptional := o, allowAgo := a }
      (table (canon u true sub [filler u])) none none (b! "1" ++ u.defaultIdentifier ++ b! " ago") = fail .negativeNumber)) = a := by decide +kernel

theorem eval_delimiter : ∀ u ∈ allUnits, ∀ sub ∈ subs (others u), ∀ v ∈ allUnits, ∀ m n o ud a : Bool,
    decide (parse { defaultUnit := v, allowMultiple := m, allowNegative := n, numberIsOptional := o, allowTimeUnitDelimiter := ud, allowAgo := a }
      (table (canon u true sub [filler u])) none none (b! "1 " ++ u.defaultIdentifier) =
      parse { defaultUnit := u } (table []) none none (b! "1")) = ud := by decide +kernel

end Fundu.Distinct
