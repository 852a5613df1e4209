import Verif.Props.Words
import Verif.Props.Options
/-!
# Properties C20, C21, C31, C32 for each of several durations
-/
namespace Fundu.Props
open Fundu Fundu.Spec

variable (cfg : Config) (units : TimeUnitsLike) (keywords : Option TimeUnitsLike) (numerals : Option NumbersLike)

/-- two durations in texts are the same, or the first is a time unit or keyword without a number and the second is the number 1
with the same multiplier and sign; beyond a power of ten of 19 only without a minus sign -/
def SameButOne (i i' : Bool × Item) : Prop :=
  i = i' ∨ ∃ u m, i.1 = i'.1 ∧ i.2 = .word (u, m) ∧ i'.2 = .number (b! "1") [] 0 (some (u, m)) ∧
    (i.1 = false ∨ u.multiplier.exponent + m.exponent ≤ 19)

theorem word_one {neg : Bool} {u : TimeUnit} {m : Multiplier} (hx : neg = false ∨ u.multiplier.exponent + m.exponent ≤ 19) (d : Duration) :
    Denotes cfg neg (.word (u, m)) d ↔ Denotes cfg neg (.number (b! "1") [] 0 (some (u, m))) d := by
  have hneg : (neg && decide ((product u.multiplier m).exponent ≤ 19)) = neg := by
    rcases hx with rfl | hx
    · rfl
    · have : (product u.multiplier m).exponent ≤ 19 := hx
      simp [this]
  constructor
  · intro h
    cases h with
    | word g1 g2 => rw [hneg] at g2; exact .numberUnit g1 g2
  · intro h
    cases h with
    | numberUnit g1 g2 => exact .word g1 (by rw [hneg]; exact g2)

theorem sameButOne_iff {i i' : Bool × Item} (h : SameButOne i i') (d : Duration) : Accepted cfg i.1 i.2 d ↔ Accepted cfg i'.1 i'.2 d := by
  rcases h with rfl | ⟨u, m, h1, h2, h3, h4⟩
  · rfl
  · unfold Accepted
    rw [← h1, h2, h3, word_one cfg h4]

/-- C31: in a text with several durations each time unit and keyword without a number means the same as the number 1 with this unit:
texts which differ in nothing else have the same result. -/
theorem C31_sequence (s s' : Bytes) (items items' : List (Bool × Item)) (hs : IsText s) (hs' : IsText s') (hc : CfgText cfg)
    (hm : cfg.allowMultiple = true)
    (hd : (∀ b, cfg.innerDelimiter b = true → cfg.outerDelimiter b = true) ∨ (keywords = none ∧ numerals = none))
    (h : Durations cfg units keywords numerals s items) (h' : Durations cfg units keywords numerals s' items')
    (hsame : List.Forall₂ SameButOne items items') (x : Int) :
    (∃ d, parse cfg units keywords numerals s = .ok d ∧ d.WF ∧ nanos d = x) ↔
      ∃ d, parse cfg units keywords numerals s' = .ok d ∧ d.WF ∧ nanos d = x := by
  have key : ∀ ds, List.Forall₂ (fun i d => Accepted cfg i.1 i.2 d) items ds ↔ List.Forall₂ (fun i d => Accepted cfg i.1 i.2 d) items' ds := by
    clear h h'
    intro ds
    induction hsame generalizing ds with
    | nil => exact Iff.rfl
    | cons g _ ih =>
      cases ds with
      | nil => constructor <;> (intro h; cases h)
      | cons d ds => rw [List.forall₂_cons, List.forall₂_cons, sameButOne_iff cfg g, ih]
  rw [C27_multiple cfg units keywords numerals s x hs hc hm hd, C27_multiple cfg units keywords numerals s' x hs' hc hm hd]
  constructor
  · rintro ⟨ds, ⟨is, h1, h2⟩, h3⟩
    obtain rfl := C27_unambiguous_multiple cfg units keywords numerals s is items h1 h
    exact ⟨ds, ⟨items', h', (key ds).1 h2⟩, h3⟩
  · rintro ⟨ds, ⟨is, h1, h2⟩, h3⟩
    obtain rfl := C27_unambiguous_multiple cfg units keywords numerals s' is items' h1 h'
    exact ⟨ds, ⟨items, h, (key ds).2 h2⟩, h3⟩

/-- what a time unit, keyword or numeral of the sequence adds to the sum: the duration of its multiplier, if its power of ten
is between -18 and 19 (or above 19 without a minus sign, see findings F1 and F2) -/
def WordAdds (i : Bool × Item) (d : Duration) : Prop :=
  (∀ u m, i.2 = .word (u, m) → (i.1 = false ∨ u.multiplier.exponent + m.exponent ≤ 19) →
    -18 ≤ u.multiplier.exponent + m.exponent → MultiplierValue i.1 (product u.multiplier m) d) ∧
  ∀ q u m, i.2 = .numeral q (u, m) → (i.1 = false ∨ q.exponent + u.multiplier.exponent + m.exponent ≤ 19) →
    -18 ≤ q.exponent + u.multiplier.exponent + m.exponent → MultiplierValue i.1 (product (product q u.multiplier) m) d

theorem wordAdds_of {i : Bool × Item} {d : Duration} (h : Accepted cfg i.1 i.2 d) : WordAdds i d := by
  obtain ⟨neg, item⟩ := i
  have sign : ∀ {p : Multiplier}, (neg = false ∨ p.exponent ≤ 19) → (neg && decide (p.exponent ≤ 19)) = neg := by
    rintro p (rfl | hx)
    · rfl
    · simp [hx]
  constructor
  · rintro u m rfl hx hx'
    have g := h.1
    cases g with
    | word g1 g2 =>
      rw [sign hx] at g2
      exact value_one g2 hx'
  · rintro q u m rfl hx hx'
    have g := h.1
    cases g with
    | numeral g1 g1' g2 =>
      rw [sign hx] at g2
      exact value_one g2 hx'

/-- C31, C32: the result of a text with several durations is the sum of one duration for each of them, in which each time unit
without a number, each keyword and each numeral with its unit counts with the duration of its multiplier and its sign. -/
theorem C31_sequence_value (s : Bytes) (items : List (Bool × Item)) (d : Duration) (hs : IsText s) (hc : CfgText cfg)
    (hm : cfg.allowMultiple = true)
    (hd : (∀ b, cfg.innerDelimiter b = true → cfg.outerDelimiter b = true) ∨ (keywords = none ∧ numerals = none))
    (h : Durations cfg units keywords numerals s items) (hp : parse cfg units keywords numerals s = .ok d) :
    ∃ ds, List.Forall₂ WordAdds items ds ∧ nanos d = saturatingSum (ds.map nanos) := by
  obtain ⟨ds, ⟨is, h1, h2⟩, h3⟩ := (C27_multiple cfg units keywords numerals s (nanos d) hs hc hm hd).1 ⟨d, hp, parse_wf hs hc hp, rfl⟩
  obtain rfl := C27_unambiguous_multiple cfg units keywords numerals s is items h1 h
  exact ⟨ds, h2.imp fun i d hi => wordAdds_of cfg hi, h3⟩

theorem forall₂_split {α β : Type} {R : α → β → Prop} {b : List α} (a : List α) {l : List β} (h : List.Forall₂ R (a ++ b) l) :
    ∃ x y, List.Forall₂ R a x ∧ List.Forall₂ R b y ∧ l = x ++ y := by
  induction a generalizing l with
  | nil => exact ⟨[], l, .nil, h, rfl⟩
  | cons i a ih =>
    cases h with
    | cons h1 h2 =>
      obtain ⟨x, y, g1, g2, rfl⟩ := ih h2
      exact ⟨_ :: x, y, .cons h1 g1, g2, rfl⟩

/-- C32: a numeral with its unit adds the product of their multipliers, with its sign, to the sum of a text with several durations. -/
theorem C32_sequence_value (s : Bytes) (before after : List (Bool × Item)) (neg : Bool) (q : Multiplier) (u : TimeUnit) (m : Multiplier)
    (d : Duration) (hs : IsText s) (hc : CfgText cfg) (hm : cfg.allowMultiple = true)
    (hd : (∀ b, cfg.innerDelimiter b = true → cfg.outerDelimiter b = true) ∨ (keywords = none ∧ numerals = none))
    (h : Durations cfg units keywords numerals s (before ++ (neg, .numeral q (u, m)) :: after))
    (hx : neg = false ∨ q.exponent + u.multiplier.exponent + m.exponent ≤ 19)
    (hx' : -18 ≤ q.exponent + u.multiplier.exponent + m.exponent) (hp : parse cfg units keywords numerals s = .ok d) :
    ∃ ds x ds', ds.length = before.length ∧ ds'.length = after.length ∧ MultiplierValue neg (product (product q u.multiplier) m) x ∧
      nanos d = saturatingSum ((ds ++ x :: ds').map nanos) := by
  obtain ⟨l, h1, h2⟩ := C31_sequence_value cfg units keywords numerals s _ d hs hc hm hd h hp
  obtain ⟨ds, l', g1, g2, rfl⟩ := forall₂_split _ h1
  cases g2 with
  | cons g3 g4 =>
    rename_i x ds'
    exact ⟨ds, x, ds', g1.length_eq.symm, g4.length_eq.symm, g3.2 q u m rfl hx hx', h2⟩

/-- C20: no text is a sequence of durations with an exponent outside of [-32768, 32767]. -/
theorem C20_sequence (s : Bytes) (items : List (Bool × Item)) (h : Durations cfg units keywords numerals s items)
    (neg : Bool) (W F : Bytes) (e : Int) (u : Option (TimeUnit × Multiplier)) (hi : (neg, .number W F e u) ∈ items) :
    -32768 ≤ e ∧ e ≤ 32767 := by
  have number : ∀ {r t W F e}, NumberText cfg r W F e t → -32768 ≤ e ∧ e ≤ 32767 := by
    rintro r t W F e ⟨r1, r2, -, g1, g2⟩
    cases g2 with
    | absent _ => omega
    | present _ g _ _ _ k => exact k
  have key : ∀ {r t item}, MultiText cfg units keywords numerals r item t → item = .number W F e u → -32768 ≤ e ∧ e ≤ 32767 := by
    intro r t item h he
    cases h with
    | numberEnd g => cases he; exact number g
    | numberUnit g _ g' _ => cases he; exact number g
    | number g _ _ _ _ => cases he; exact number g
    | inf _ _ _ _ => cases he
    | infinity _ _ _ _ _ _ => cases he
    | keyword _ _ _ _ => cases he
    | unit _ _ _ _ => cases he
    | numeral _ _ _ _ _ _ _ _ _ _ => cases he
  induction h with
  | last _ h2 =>
    simp only [List.mem_singleton, Prod.mk.injEq] at hi
    exact key h2 hi.2.symm
  | more _ h2 _ _ ih =>
    simp only [List.mem_cons, Prod.mk.injEq] at hi
    rcases hi with hi | hi
    · exact key h2 hi.2.symm
    · exact ih hi

/-! ## Concrete texts -/

deriving instance DecidableEq for Item

/-- a reader of sequences which can be executed, for the examples -/
def itemsOf (env : Env) : Nat → Bytes → Option (List (Bool × Item))
  | 0, _ => none
  | n + 1, s => match L.template .multiple env s with
    | none => none
    | some (i, []) => some [i]
    | some (i, b :: r) => (itemsOf env n (b :: r)).map (i :: ·)

theorem durations_of {env : Env} {n : Nat} {s : Bytes} {l : List (Bool × Item)} (h : itemsOf env n s = some l) :
    Durations env.cfg env.units env.keywords env.numerals s l := by
  induction n generalizing s l with
  | zero => cases h
  | succ n ih =>
    unfold itemsOf at h
    cases e : L.template .multiple env s with
    | none => rw [e] at h; cases h
    | some x =>
      obtain ⟨⟨neg, item⟩, r⟩ := x
      rw [e] at h
      obtain ⟨t, g1, g2⟩ := (template_iff .multiple neg item).1 e
      cases r with
      | nil => cases h; exact .last g1 ((multi_iff item).1 g2)
      | cons b r =>
        obtain ⟨l', h', rfl⟩ := Option.map_eq_some_iff.1 h
        exact .more g1 ((multi_iff item).1 g2) (by simp) (ih h')

/-- the settings of the examples -/
def sequenceEnv : Env := ⟨exampleConfig, exampleUnits, some exampleKeywords, some exampleNumerals, fun d c => c.advanceTo d⟩

/-- the hypotheses of `C31_sequence` `C31_sequence_value` and `C32_sequence_value` hold for texts with a numeral, a keyword and time units -/
example :
    let l := [(false, Item.numeral ⟨2, 0⟩ (.second, ⟨1, 0⟩)), (false, .word (.year, ⟨100, 0⟩)), (false, .number (b! "2") (b! "5") 0 (some (.second, ⟨1, 0⟩)))]
    let l' := [(false, Item.numeral ⟨2, 0⟩ (.second, ⟨1, 0⟩)), (false, .number (b! "1") [] 0 (some (.year, ⟨100, 0⟩))), (false, .number (b! "2") (b! "5") 0 (some (.second, ⟨1, 0⟩)))]
    Durations exampleConfig exampleUnits (some exampleKeywords) (some exampleNumerals) (b! "two s and century 2.5s") l ∧
    Durations exampleConfig exampleUnits (some exampleKeywords) (some exampleNumerals) (b! "two s 1century and 2.5s") l' ∧
    List.Forall₂ SameButOne l l' ∧ (∀ b, exampleConfig.innerDelimiter b = true → exampleConfig.outerDelimiter b = true) ∧
    parse exampleConfig exampleUnits (some exampleKeywords) (some exampleNumerals) (b! "two s and century 2.5s") =
      .ok ⟨false, ⟨3155760004, 500000000⟩⟩ := by
  refine ⟨durations_of (env := sequenceEnv) (n := 9) (by decide +kernel), durations_of (env := sequenceEnv) (n := 9) (by decide +kernel),
    .cons (Or.inl rfl) (.cons (Or.inr ⟨.year, ⟨100, 0⟩, rfl, rfl, rfl, Or.inl rfl⟩) (.cons (Or.inl rfl) .nil)), fun b h => h, by decide +kernel⟩

/-- the hypothesis of `C20_sequence` holds with the smallest exponent, and the next one is an error -/
example : Durations exampleConfig exampleUnits none none (b! "1s and 0.5e-32768s")
      [(false, .number (b! "1") [] 0 (some (.second, ⟨1, 0⟩))), (false, .number (b! "0") (b! "5") (-32768) (some (.second, ⟨1, 0⟩)))] ∧
    parse exampleConfig exampleUnits none none (b! "1s and 0.5e-32769s") = fail .negativeExponentOverflow := by
  exact ⟨durations_of (env := ⟨exampleConfig, exampleUnits, none, none, fun d c => c.advanceTo d⟩) (n := 9) (by decide +kernel), by decide +kernel⟩

end Fundu.Props
