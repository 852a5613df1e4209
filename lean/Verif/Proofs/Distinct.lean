import Verif.Spec.Distinct
import Verif.Props.Local
/-!
# Evaluating a parser on a fixed text, whatever its other options and time units are
-/
namespace Fundu.Distinct
open Fundu Spec Props

def pairs (s : Bytes) : List (UInt8 × UInt8) := s.zip s.tail
def spaced (b : UInt8) : Bool := isAsciiWhitespace b
def numeric (b : UInt8) : Bool := isDigit b || b = 46
def signed (b : UInt8) : Bool := b = 43 || b = 45

/-- the options the text `s` has a use for -/
def lite (s : Bytes) (c : Config) : Config :=
  { defaultUnit := c.defaultUnit
    disableExponent := (pairs s).any (fun p => numeric p.1 && (p.2 = 101 || p.2 = 69)) && c.disableExponent
    disableFraction := s.contains 46 && c.disableFraction
    disableInfinity := decide (b! "inf" <:+: s.map lower) && c.disableInfinity
    numberIsOptional := c.numberIsOptional
    allowMultiple := c.allowMultiple
    allowNegative := c.allowNegative
    allowAgo := s.any spaced && c.allowAgo
    allowSignDelimiter := (pairs s).any (fun p => signed p.1 && spaced p.2) && c.allowSignDelimiter
    allowTimeUnitDelimiter := (pairs s).any (fun p => numeric p.1 && spaced p.2) && c.allowTimeUnitDelimiter }

theorem pairs_of {a b : UInt8} {s : Bytes} (h : OccursIn [a, b] s) : (a, b) ∈ pairs s := by
  obtain ⟨x, y, rfl⟩ := h
  induction x with
  | nil => simp [pairs]
  | cons c x ih =>
    unfold pairs at *
    cases x with
    | nil => simp
    | cons d x =>
      simp only [List.cons_append, List.tail_cons, List.zip_cons_cons] at ih ⊢
      exact List.mem_cons_of_mem _ ih

theorem any_of {p q : UInt8 → Prop} {p' q' : UInt8 → Bool} {s : Bytes} (hp : ∀ b, p b → p' b = true) (hq : ∀ b, q b → q' b = true)
    (h : Adjacent p q s) : ((pairs s).any fun x => p' x.1 && q' x.2) = true := by
  obtain ⟨a, b, h1, h2, h3⟩ := h
  rw [List.any_eq_true]
  exact ⟨_, pairs_of h1, by simp [hp a h2, hq b h3]⟩

theorem occurs_infix {w s : Bytes} (h : OccursIn w s) : w <:+: s := by
  obtain ⟨x, y, h⟩ := h
  exact ⟨x, y, h.symm⟩

theorem anyCase_infix {s : Bytes} (h : OccursAnyCase (b! "inf") s) : b! "inf" <:+: s.map lower := by
  obtain ⟨v, ⟨x, y, h⟩, hv⟩ := h
  refine ⟨x.map lower, y.map lower, ?_⟩
  unfold SameText at hv
  have e : (b! "inf").map lower = b! "inf" := by decide
  rw [h, List.map_append, List.map_append, hv, e]

theorem numeric_of {b : UInt8} (h : NumberByte b) : numeric b = true := by
  unfold numeric
  rcases h with h | h
  · have : isDigit b = true := by
      unfold isDigit; unfold IsDigit at h
      simpa using h
    simp [this]
  · simp [h]

theorem same_lite {c : Config} (hc : PlainDelimiters c) (s : Bytes) : SameOptions s c (lite s c) where
  inner b _ := by rw [hc.inner]; rfl
  outer b _ := by rw [hc.outer]; rfl
  defaultUnit := rfl
  multiple := rfl
  negative := rfl
  optional := rfl
  conjunctions r _ := by rw [hc.conjunctions]; rfl
  fraction h := by simp [lite, h]
  exponent h := by
    have := any_of (p' := numeric) (q' := fun b => b = 101 || b = 69) (fun b => numeric_of) (fun b h => by simpa using h) h
    simp only [lite, this, Bool.true_and]
  infinity h := by simp only [lite, decide_eq_true (anyCase_infix h), Bool.true_and]
  signDelimiter h := by
    rw [hc.inner] at h
    have := any_of (p' := signed) (q' := spaced) (fun b h => by simpa [signed] using h) (fun b h => h) h
    simp only [lite, this, Bool.true_and]
  unitDelimiter h := by
    rw [hc.inner] at h
    have := any_of (p' := numeric) (q' := spaced) (fun b => numeric_of) (fun b h => h) h
    simp only [lite, this, Bool.true_and]
  ago h := by
    rw [hc.inner] at h
    have : s.any spaced = true := List.any_eq_true.2 h
    simp only [lite, this, Bool.true_and]

/-- the time units of a list -/
abbrev table (us : List TimeUnit) : TimeUnitsLike := (DurationParser.withTimeUnits us).timeUnits.like

theorem run {c : Config} (hc : PlainDelimiters c) (us us' : List TimeUnit) (s : Bytes) (he : us' = [] ↔ us = [])
    (ho : ∀ u : TimeUnit, u.defaultIdentifier <:+: s → (u ∈ us' ↔ u ∈ us)) :
    parse c (table us) none none s = parse (lite s c) (table us') none none s := by
  refine (C104_bytes (same_lite hc s) ?_ ?_ (fun _ _ => rfl) rfl (fun _ _ => rfl) rfl).symm
  · intro w hw
    apply Option.ext
    intro r
    rw [C34_get, C34_get]
    constructor
    · rintro ⟨u, hu, rfl, hr⟩
      exact ⟨u, (ho u (occurs_infix hw)).1 hu, rfl, hr⟩
    · rintro ⟨u, hu, rfl, hr⟩
      exact ⟨u, (ho u (occurs_infix hw)).2 hu, rfl, hr⟩
  · rw [Bool.eq_iff_iff, C34_is_empty, C34_is_empty]
    exact he

end Fundu.Distinct
