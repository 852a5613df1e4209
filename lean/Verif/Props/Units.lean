import Verif.Props.Builder
import Verif.Props.Grammar
/-!
# Properties C34, C36, C37: the tables of time units, keywords and numerals
-/
namespace Fundu.Props
open Fundu Fundu.Spec

/-! ## C34 -/

/-- all time units in ascending order -/
def allUnits : List TimeUnit :=
  [.nanoSecond, .microSecond, .milliSecond, .second, .minute, .hour, .day, .week, .month, .year]

/-- the array for a set of units -/
def slots (P : TimeUnit → Bool) : List (Option TimeUnit) := allUnits.map fun u => if P u then some u else none

theorem slots_set (P : TimeUnit → Bool) (u : TimeUnit) :
    (slots P).set u.index (some u) = slots (fun v => P v || decide (v = u)) := by
  cases u <;> simp [slots, allUnits, TimeUnit.index]

theorem withTimeUnits_eq (units : List TimeUnit) :
    (TimeUnits.withTimeUnits units).data = slots (fun u => decide (u ∈ units)) := by
  have h : ∀ P, units.foldl (fun data unit => data.set unit.index (some unit)) (slots P) =
      slots (fun u => P u || decide (u ∈ units)) := by
    induction units with
    | nil => intro P; simp
    | cons x xs ih =>
      intro P
      rw [List.foldl_cons, slots_set, ih]
      congr 1
      funext u
      simp [Bool.or_assoc]
  have := h (fun _ => false)
  simp only [Bool.false_or] at this
  exact this

theorem all_mem (u : TimeUnit) : u ∈ allUnits := by cases u <;> decide

theorem findSome_unique {α β : Type} (f : α → Option β) (l : List α)
    (hu : ∀ a b x y, f a = some x → f b = some y → x = y) (r : β) :
    l.findSome? f = some r ↔ ∃ a ∈ l, f a = some r := by
  induction l with
  | nil => simp
  | cons a l ih =>
    rw [List.findSome?_cons]
    cases h : f a with
    | some x =>
      constructor
      · intro e; cases e; exact ⟨a, List.mem_cons_self .., h⟩
      · rintro ⟨b, _, hb⟩; rw [hu _ _ _ _ h hb]
    | none =>
      simp only
      rw [ih]
      constructor
      · rintro ⟨b, hb, e⟩; exact ⟨b, List.mem_cons_of_mem _ hb, e⟩
      · rintro ⟨b, hb, e⟩
        rcases List.mem_cons.mp hb with rfl | hb
        · rw [h] at e; cases e
        · exact ⟨b, hb, e⟩

theorem matching_iff (id : Bytes) (u : TimeUnit) (r : TimeUnit × Multiplier) :
    TimeUnits.matching id u = some r ↔ u.defaultIdentifier = id ∧ r = (u, ⟨1, 0⟩) := by
  have h : STANDARD_TIME_UNITS[u.index]? = some u.defaultIdentifier := by cases u <;> rfl
  unfold TimeUnits.matching
  rw [h]
  by_cases he : u.defaultIdentifier = id
  · rw [if_pos (by rw [he])]
    simp only [he, true_and, Option.some.injEq]
    exact ⟨fun h => h.symm, fun h => h.symm⟩
  · rw [if_neg (by intro hc; exact he (Option.some.inj hc))]
    simp [he]

theorem defaultIdentifier_injective (u v : TimeUnit) (h : u.defaultIdentifier = v.defaultIdentifier) : u = v := by
  revert h
  cases u <;> cases v <;> decide

theorem matching_unique (id : Bytes) (a b : TimeUnit) (x y : TimeUnit × Multiplier)
    (h1 : TimeUnits.matching id a = some x) (h2 : TimeUnits.matching id b = some y) : x = y := by
  obtain ⟨e1, rfl⟩ := (matching_iff id a x).1 h1
  obtain ⟨e2, rfl⟩ := (matching_iff id b y).1 h2
  rw [defaultIdentifier_injective a b (e1.trans e2.symm)]

theorem mem_slots {P : TimeUnit → Bool} {l : List TimeUnit} {u : TimeUnit} :
    u ∈ (l.map fun u => if P u then some u else none).filterMap id ↔ u ∈ l ∧ P u = true := by
  simp only [List.mem_filterMap, List.mem_map, id]
  constructor
  · rintro ⟨o, ⟨v, hv, rfl⟩, e⟩
    by_cases hp : P v = true
    · rw [if_pos hp] at e; cases e; exact ⟨hv, hp⟩
    · rw [if_neg hp] at e; cases e
  · rintro ⟨hu, hp⟩
    exact ⟨some u, ⟨u, hu, by rw [if_pos hp]⟩, rfl⟩

theorem get_slots (P : TimeUnit → Bool) (t : TimeUnits) (ht : t.data = slots P) (id : Bytes)
    (r : TimeUnit × Multiplier) :
    t.get id = some r ↔ ∃ u, P u = true ∧ u.defaultIdentifier = id ∧ r = (u, ⟨1, 0⟩) := by
  have e1 : t.data.drop 3 = (allUnits.drop 3).map fun u => if P u then some u else none := by
    rw [ht]; rfl
  have e2 : t.data.take 3 = (allUnits.take 3).map fun u => if P u then some u else none := by
    rw [ht]; rfl
  have hl : ∀ u : TimeUnit, (u ∈ allUnits.drop 3 ↔ u.defaultIdentifier.length = 1) ∧
      (u ∈ allUnits.take 3 ↔ u.defaultIdentifier.length = 2) := by
    intro u; cases u <;> decide
  have hlen : ∀ u : TimeUnit, u.defaultIdentifier.length = 1 ∨ u.defaultIdentifier.length = 2 := by
    intro u; cases u <;> decide
  unfold TimeUnits.get
  rw [e1, e2]
  by_cases h1 : id.length = 1
  · rw [if_pos h1, findSome_unique _ _ (matching_unique id)]
    constructor
    · rintro ⟨u, hu, hm⟩
      exact ⟨u, (mem_slots.1 hu).2, (matching_iff id u r).1 hm⟩
    · rintro ⟨u, hp, he, hr⟩
      refine ⟨u, mem_slots.2 ⟨(hl u).1.2 (by rw [he]; exact h1), hp⟩, (matching_iff id u r).2 ⟨he, hr⟩⟩
  · rw [if_neg h1]
    by_cases h2 : id.length = 2
    · rw [if_pos h2, findSome_unique _ _ (matching_unique id)]
      constructor
      · rintro ⟨u, hu, hm⟩
        exact ⟨u, (mem_slots.1 hu).2, (matching_iff id u r).1 hm⟩
      · rintro ⟨u, hp, he, hr⟩
        refine ⟨u, mem_slots.2 ⟨(hl u).2.2 (by rw [he]; exact h2), hp⟩, (matching_iff id u r).2 ⟨he, hr⟩⟩
    · rw [if_neg h2]
      constructor
      · intro h; cases h
      · rintro ⟨u, _, he, _⟩
        have := hlen u
        rw [he] at this
        omega

/-- C34: with the time units `units` exactly their default identifiers are recognised, and each stands for
its unit. -/
theorem C34_get (units : List TimeUnit) (id : Bytes) (r : TimeUnit × Multiplier) :
    (DurationParser.withTimeUnits units).timeUnits.like.get id = some r ↔
      ∃ u ∈ units, u.defaultIdentifier = id ∧ r = (u, ⟨1, 0⟩) := by
  show (TimeUnits.withTimeUnits units).get id = some r ↔ _
  rw [get_slots _ _ (withTimeUnits_eq units)]
  simp

/-- C34: `get_current_time_units` returns each of the units once, in ascending order. -/
theorem C34_current (units : List TimeUnit) :
    ((DurationParser.withTimeUnits units).getCurrentTimeUnits).Pairwise (fun a b => a.index < b.index) ∧
    ∀ u, u ∈ (DurationParser.withTimeUnits units).getCurrentTimeUnits ↔ u ∈ units := by
  have e : (DurationParser.withTimeUnits units).getCurrentTimeUnits =
      (slots (fun u => decide (u ∈ units))).filterMap id := by
    show (TimeUnits.withTimeUnits units).data.filterMap id = _
    rw [withTimeUnits_eq]
  rw [e]
  refine ⟨?_, fun u => ?_⟩
  · unfold slots
    rw [List.filterMap_map]
    have : ((id : Option TimeUnit → Option TimeUnit) ∘ fun u => if decide (u ∈ units) = true then some u else none) =
        Option.guard (fun u => decide (u ∈ units)) := by
      funext u; simp [Option.guard]
    rw [this, List.filterMap_eq_filter]
    apply List.Pairwise.filter
    decide
  · unfold slots
    rw [mem_slots]
    simp [all_mem]

/-- C34: no units at all is the same as an empty table. -/
theorem C34_is_empty (units : List TimeUnit) :
    (DurationParser.withTimeUnits units).timeUnits.like.isEmpty = true ↔ units = [] := by
  show (TimeUnits.withTimeUnits units).isEmpty = true ↔ _
  unfold TimeUnits.isEmpty
  rw [withTimeUnits_eq]
  unfold slots
  rw [List.all_map, List.all_eq_true]
  constructor
  · intro h
    cases units with
    | nil => rfl
    | cons x xs =>
      have := h x (all_mem x)
      simp at this
  · rintro rfl
    simp

/-- C34: `new`, `with_all_time_units` and `without_time_units` are special cases. -/
theorem C34_constructors :
    DurationParser.new = DurationParser.withTimeUnits
      [.nanoSecond, .microSecond, .milliSecond, .second, .minute, .hour, .day, .week] ∧
    DurationParser.withAllTimeUnits = DurationParser.withTimeUnits allUnits ∧
    DurationParser.withoutTimeUnits = DurationParser.withTimeUnits [] := ⟨rfl, rfl, rfl⟩

example : (DurationParser.withTimeUnits [.year, .second, .year]).getCurrentTimeUnits = [.second, .year] ∧
    (DurationParser.withTimeUnits [.year, .second, .year]).timeUnits.like.get (b! "y") = some (.year, ⟨1, 0⟩) ∧
    (DurationParser.withTimeUnits [.year, .second, .year]).timeUnits.like.get (b! "Y") = none := by decide

/-! ## C36 -/

/-- what is registered with a custom time unit -/
abbrev pair (r : CustomTimeUnit) : TimeUnit × Multiplier := (r.baseUnit, r.multiplier)

/-- some unit with this base unit and multiplier was registered for the identifier -/
def RegisteredFor (regs : List CustomTimeUnit) (p : TimeUnit × Multiplier) (id : Bytes) : Prop :=
  id ≠ [] ∧ ∃ r ∈ regs, pair r = p ∧ id ∈ r.identifiers
instance (regs : List CustomTimeUnit) (p : TimeUnit × Multiplier) (id : Bytes) :
    Decidable (RegisteredFor regs p id) := by unfold RegisteredFor; infer_instance

/-- a unit has an identifier which is not empty -/
def Usable (r : CustomTimeUnit) : Prop := ∃ id ∈ r.identifiers, id ≠ []
instance (r : CustomTimeUnit) : Decidable (Usable r) := by unfold Usable; infer_instance

/-- the pair stored in an entry -/
abbrev entryPair (e : LookupData × List Bytes) : TimeUnit × Multiplier := (e.1.timeUnit, e.1.multiplier)

/-- what holds for the table after the registrations -/
structure TableInv (regs : List CustomTimeUnit) (t : CustomTimeUnits) : Prop where
  nodup : (t.timeUnits.map entryPair).Nodup
  ids : ∀ e ∈ t.timeUnits, ∀ id, id ∈ e.2 ↔ RegisteredFor regs (entryPair e) id
  check : ∀ e ∈ t.timeUnits, ∀ id ∈ e.2, e.1.minLength ≤ id.length ∧ id.length ≤ e.1.maxLength
  lengths : ∀ e ∈ t.timeUnits, t.minLength ≤ e.1.minLength ∧ e.1.maxLength ≤ t.maxLength
  order : ∀ P : TimeUnit × Multiplier → Bool,
    (t.timeUnits.map entryPair).find? P = ((regs.filter (fun r => decide (Usable r))).map pair).find? P
  nonempty : ∀ e ∈ t.timeUnits, e.2 ≠ []

theorem update_lengths (d : LookupData) (id : Bytes) :
    (d.update id).minLength = min d.minLength id.length ∧ (d.update id).maxLength = max d.maxLength id.length ∧
    (d.update id).timeUnit = d.timeUnit ∧ (d.update id).multiplier = d.multiplier := by
  unfold LookupData.update LookupData.updateMax LookupData.updateMin
  split <;> split <;> simp_all <;> omega

/-- pushing identifiers -/
theorem pushIds_spec (ids : List Bytes) (e : LookupData × List Bytes)
    (hc : ∀ id ∈ e.2, e.1.minLength ≤ id.length ∧ id.length ≤ e.1.maxLength) :
    entryPair (CustomTimeUnits.pushIds ids e) = entryPair e ∧
    (CustomTimeUnits.pushIds ids e).2 = e.2 ++ ids.filter (fun id => !id.isEmpty) ∧
    (∀ id ∈ (CustomTimeUnits.pushIds ids e).2, (CustomTimeUnits.pushIds ids e).1.minLength ≤ id.length ∧
      id.length ≤ (CustomTimeUnits.pushIds ids e).1.maxLength) := by
  unfold CustomTimeUnits.pushIds
  generalize ids.filter (fun id => !id.isEmpty) = l
  induction l generalizing e with
  | nil => exact ⟨rfl, by simp, hc⟩
  | cons x xs ih =>
    rw [List.foldl_cons]
    obtain ⟨u1, u2, u3, u4⟩ := update_lengths e.1 x
    obtain ⟨h1, h2, h3⟩ := ih (e.1.update x, e.2 ++ [x]) (by
      intro id hid
      simp only [u1, u2]
      rcases List.mem_append.mp hid with hid | hid
      · have := hc id hid; omega
      · rw [List.mem_singleton] at hid; subst hid; omega)
    refine ⟨?_, ?_, h3⟩
    · rw [h1]; simp [entryPair, u3, u4]
    · rw [h2]; simp

/-- `extend` finds nothing if there is no entry for the pair -/
theorem extend_none (u : TimeUnit) (m : Multiplier) (ids : List Bytes) (l : List (LookupData × List Bytes)) :
    CustomTimeUnits.extend u m ids l = none ↔ (u, m) ∉ l.map entryPair := by
  induction l with
  | nil => simp [CustomTimeUnits.extend]
  | cons e l ih =>
    obtain ⟨d, v⟩ := e
    unfold CustomTimeUnits.extend
    by_cases h : d.timeUnit = u ∧ d.multiplier = m
    · rw [if_pos h]
      simp [entryPair, h.1, h.2]
    · rw [if_neg h]
      have hne : (u, m) ≠ entryPair (d, v) := by
        intro hc
        simp only [entryPair, Prod.mk.injEq] at hc
        exact h ⟨hc.1.symm, hc.2.symm⟩
      rw [List.map_cons, List.mem_cons, not_or, ← ih]
      cases CustomTimeUnits.extend u m ids l with
      | none => simp [hne]
      | some x => simp

/-- otherwise it changes the first entry for it -/
theorem extend_some (u : TimeUnit) (m : Multiplier) (ids : List Bytes) (l l' : List (LookupData × List Bytes))
    (a b : Nat) (h : CustomTimeUnits.extend u m ids l = some (l', a, b)) :
    ∃ before e after, l = before ++ e :: after ∧ entryPair e = (u, m) ∧ (u, m) ∉ before.map entryPair ∧
      l' = before ++ CustomTimeUnits.pushIds ids e :: after ∧
      a = (CustomTimeUnits.pushIds ids e).1.minLength ∧ b = (CustomTimeUnits.pushIds ids e).1.maxLength := by
  induction l generalizing l' with
  | nil => simp [CustomTimeUnits.extend] at h
  | cons e l ih =>
    obtain ⟨d, v⟩ := e
    unfold CustomTimeUnits.extend at h
    by_cases hc : d.timeUnit = u ∧ d.multiplier = m
    · rw [if_pos hc] at h
      cases h
      exact ⟨[], (d, v), l, rfl, by simp [entryPair, hc.1, hc.2], by simp, rfl, rfl, rfl⟩
    · rw [if_neg hc] at h
      cases he : CustomTimeUnits.extend u m ids l with
      | none => rw [he] at h; cases h
      | some x =>
        obtain ⟨l2, a2, b2⟩ := x
        rw [he] at h
        cases h
        obtain ⟨before, e, after, h1, h2, h3, h4, h5, h6⟩ := ih l2 he
        refine ⟨(d, v) :: before, e, after, by rw [h1]; rfl, h2, ?_, by rw [h4]; rfl, h5, h6⟩
        rw [List.map_cons, List.mem_cons, not_or]
        refine ⟨?_, h3⟩
        intro hq
        simp only [entryPair, Prod.mk.injEq] at hq
        exact hc ⟨hq.1.symm, hq.2.symm⟩

theorem updateLengths_spec (t : CustomTimeUnits) (a b : Nat) :
    (t.updateLengths a b).timeUnits = t.timeUnits ∧ (t.updateLengths a b).minLength = min t.minLength a ∧
    (t.updateLengths a b).maxLength = max t.maxLength b := by
  unfold CustomTimeUnits.updateLengths CustomTimeUnits.updateMax CustomTimeUnits.updateMin
  split <;> split <;> simp_all <;> omega

theorem registered_append (regs : List CustomTimeUnit) (r : CustomTimeUnit) (p : TimeUnit × Multiplier)
    (id : Bytes) : RegisteredFor (regs ++ [r]) p id ↔
      RegisteredFor regs p id ∨ (id ≠ [] ∧ pair r = p ∧ id ∈ r.identifiers) := by
  unfold RegisteredFor
  constructor
  · rintro ⟨h1, q, hq, h2⟩
    rcases List.mem_append.mp hq with hq | hq
    · exact .inl ⟨h1, q, hq, h2⟩
    · rw [List.mem_singleton] at hq; subst hq; exact .inr ⟨h1, h2⟩
  · rintro (⟨h1, q, hq, h2⟩ | ⟨h1, h2⟩)
    · exact ⟨h1, q, List.mem_append_left _ hq, h2⟩
    · exact ⟨h1, r, by simp, h2⟩

theorem usable_filter (r : CustomTimeUnit) :
    r.identifiers.filter (fun id => !id.isEmpty) = [] ↔ ¬ Usable r := by
  unfold Usable
  rw [List.filter_eq_nil_iff]
  constructor
  · rintro h ⟨id, h1, h2⟩
    apply h id h1
    cases id with
    | nil => exact absurd rfl h2
    | cons => rfl
  · intro h id h1 h2
    apply h
    refine ⟨id, h1, ?_⟩
    rintro rfl
    simp at h2

theorem mem_filter_ids (l : List Bytes) (id : Bytes) :
    id ∈ l.filter (fun id => !id.isEmpty) ↔ id ≠ [] ∧ id ∈ l := by
  rw [List.mem_filter]
  cases id <;> simp

theorem find_append_mem {α : Type} (P : α → Bool) (l : List α) (x : α) (h : x ∈ l) :
    (l ++ [x]).find? P = l.find? P := by
  rw [List.find?_append]
  cases he : l.find? P with
  | some y => rfl
  | none =>
    have := List.find?_eq_none.mp he x h
    simp [List.find?_cons]
    cases hp : P x
    · rfl
    · exact absurd hp this

/-- the table changes only one entry -/
theorem inv_unusable {regs : List CustomTimeUnit} {t : CustomTimeUnits} (h : TableInv regs t) (r : CustomTimeUnit)
    (hr : ¬ Usable r) : TableInv (regs ++ [r]) t := by
  have hreg : ∀ p id, RegisteredFor (regs ++ [r]) p id ↔ RegisteredFor regs p id := by
    intro p id
    rw [registered_append]
    constructor
    · rintro (h | ⟨h1, _, h3⟩)
      · exact h
      · exact absurd ⟨id, h3, h1⟩ hr
    · exact .inl
  refine ⟨h.nodup, fun e he id => ?_, h.check, h.lengths, fun P => ?_, h.nonempty⟩
  · rw [hreg]; exact h.ids e he id
  · rw [h.order P, List.filter_append]
    simp [hr]

theorem find_mem_iff {α : Type} [DecidableEq α] (l l' : List α)
    (h : ∀ P : α → Bool, l.find? P = l'.find? P) (x : α) : x ∈ l ↔ x ∈ l' := by
  have := h (fun y => decide (y = x))
  constructor
  · intro hx
    cases he : l'.find? (fun y => decide (y = x)) with
    | none =>
      rw [he] at this
      have := List.find?_eq_none.mp this x hx
      simp at this
    | some y =>
      have h1 := List.find?_some he
      have h2 := List.mem_of_find?_eq_some he
      simp at h1
      rw [← h1]; exact h2
  · intro hx
    cases he : l.find? (fun y => decide (y = x)) with
    | none =>
      rw [he] at this
      have := List.find?_eq_none.mp this.symm x hx
      simp at this
    | some y =>
      have h1 := List.find?_some he
      have h2 := List.mem_of_find?_eq_some he
      simp at h1
      rw [← h1]; exact h2

theorem inv_add {regs : List CustomTimeUnit} {t : CustomTimeUnits} (h : TableInv regs t) (r : CustomTimeUnit) :
    TableInv (regs ++ [r]) (t.addCustomTimeUnit r) := by
  unfold CustomTimeUnits.addCustomTimeUnit
  by_cases h0 : r.identifiers.isEmpty = true
  · rw [if_pos h0]
    apply inv_unusable h
    rintro ⟨id, h1, _⟩
    rw [List.isEmpty_iff] at h0
    rw [h0] at h1; cases h1
  rw [if_neg h0]
  have hmem := find_mem_iff _ _ h.order
  cases he : CustomTimeUnits.extend r.baseUnit r.multiplier r.identifiers t.timeUnits with
  | none =>
    simp only
    rw [extend_none] at he
    unfold CustomTimeUnits.pushNew
    obtain ⟨p1, p2, p3⟩ := pushIds_spec r.identifiers (LookupData.new r.baseUnit r.multiplier, [])
      (by intro id hid; cases hid)
    simp only
    generalize CustomTimeUnits.pushIds r.identifiers (LookupData.new r.baseUnit r.multiplier, []) = e at *
    simp only [List.nil_append] at p2
    have p1' : entryPair e = pair r := p1
    by_cases hu : Usable r
    · have hne : e.2 ≠ [] := by rw [p2]; exact fun hc => (usable_filter r).1 hc hu
      rw [if_neg (by rw [List.isEmpty_iff]; exact hne)]
      obtain ⟨u1, u2, u3⟩ := updateLengths_spec { t with timeUnits := t.timeUnits ++ [e] } e.1.minLength e.1.maxLength
      have hno : ∀ id, ¬ RegisteredFor regs (pair r) id := by
        rintro id ⟨h1, q, hq, h2, h3⟩
        apply he
        rw [hmem]
        rw [show (r.baseUnit, r.multiplier) = pair q from h2.symm]
        apply List.mem_map_of_mem
        rw [List.mem_filter]
        exact ⟨hq, by simpa using ⟨id, h3, h1⟩⟩
      constructor
      · rw [u1, List.map_append, List.nodup_append]
        refine ⟨h.nodup, by simp, ?_⟩
        intro a ha b hb
        simp only [List.map_cons, List.map_nil, List.mem_singleton] at hb
        rw [hb, p1']
        intro hc
        rw [hc] at ha
        exact he ha
      · rw [u1]
        intro e' he' id
        rw [registered_append]
        rcases List.mem_append.mp he' with he' | he'
        · rw [h.ids e' he' id]
          constructor
          · exact .inl
          · rintro (hh | ⟨_, hh, _⟩)
            · exact hh
            · exfalso; apply he
              rw [show (r.baseUnit, r.multiplier) = entryPair e' from hh]
              exact List.mem_map_of_mem he'
        · rw [List.mem_singleton] at he'
          subst he'
          rw [p2, mem_filter_ids, p1']
          constructor
          · rintro ⟨h1, h2⟩; exact .inr ⟨h1, rfl, h2⟩
          · rintro (hh | ⟨h1, _, h2⟩)
            · exact absurd hh (hno id)
            · exact ⟨h1, h2⟩
      · rw [u1]
        intro e' he'
        rcases List.mem_append.mp he' with he' | he'
        · exact h.check e' he'
        · rw [List.mem_singleton] at he'; subst he'; exact p3
      · rw [u1, u2, u3]
        intro e' he'
        simp only
        rcases List.mem_append.mp he' with he' | he'
        · have := h.lengths e' he'; omega
        · rw [List.mem_singleton] at he'; subst he'; omega
      · rw [u1]
        intro P
        rw [List.map_append, List.filter_append, List.map_append, List.find?_append, List.find?_append, h.order P]
        congr 1
        simp [hu, p1']
      · rw [u1]
        intro e' he'
        rcases List.mem_append.mp he' with he' | he'
        · exact h.nonempty e' he'
        · rw [List.mem_singleton] at he'; subst he'; exact hne
    · have hz : e.2 = [] := by rw [p2]; exact (usable_filter r).2 hu
      rw [if_pos (by rw [List.isEmpty_iff]; exact hz)]
      exact inv_unusable h r hu
  | some x =>
    obtain ⟨l', a, b⟩ := x
    simp only
    obtain ⟨before, e, after, h1, h2, h3, h4, h5, h6⟩ := extend_some _ _ _ _ _ _ _ he
    have heM : e ∈ t.timeUnits := by rw [h1]; simp
    obtain ⟨p1, p2, p3⟩ := pushIds_spec r.identifiers e (h.check e heM)
    generalize CustomTimeUnits.pushIds r.identifiers e = e' at *
    have hp : entryPair e' = pair r := p1.trans h2
    obtain ⟨u1, u2, u3⟩ := updateLengths_spec { t with timeUnits := l' } a b
    have hmap : l'.map entryPair = t.timeUnits.map entryPair := by rw [h4, h1]; simp [p1]
    have hnd := h.nodup
    rw [h1, List.map_append, List.map_cons, List.nodup_append] at hnd
    obtain ⟨_, n2, n3⟩ := hnd
    rw [List.nodup_cons] at n2
    have hother : ∀ q, q ∈ before ∨ q ∈ after → entryPair q ≠ pair r := by
      rintro q (hq | hq) hc
      · exact h3 (by rw [show (r.baseUnit, r.multiplier) = entryPair q from hc.symm]; exact List.mem_map_of_mem hq)
      · exact n2.1 (by rw [h2, show (r.baseUnit, r.multiplier) = entryPair q from hc.symm]; exact List.mem_map_of_mem hq)
    have hcases : ∀ q, q ∈ l' → q = e' ∨ (q ∈ t.timeUnits ∧ entryPair q ≠ pair r) := by
      intro q hq
      rw [h4] at hq
      rcases List.mem_append.mp hq with hq | hq
      · exact .inr ⟨by rw [h1]; exact List.mem_append_left _ hq, hother q (.inl hq)⟩
      · rcases List.mem_cons.mp hq with hq | hq
        · exact .inl hq
        · exact .inr ⟨by rw [h1]; simp [hq], hother q (.inr hq)⟩
    constructor
    · rw [u1, hmap]; exact h.nodup
    · rw [u1]
      intro q hq id
      rw [registered_append]
      rcases hcases q hq with rfl | ⟨hq, hne⟩
      · rw [p2, List.mem_append, mem_filter_ids, h.ids e heM id, h2, hp]
        constructor
        · rintro (hh | ⟨h7, h8⟩)
          · exact .inl hh
          · exact .inr ⟨h7, rfl, h8⟩
        · rintro (hh | ⟨h7, _, h8⟩)
          · exact .inl hh
          · exact .inr ⟨h7, h8⟩
      · rw [h.ids q hq id]
        constructor
        · exact .inl
        · rintro (hh | ⟨_, hh, _⟩)
          · exact hh
          · exact absurd hh.symm hne
    · rw [u1]
      intro q hq
      rcases hcases q hq with rfl | ⟨hq, _⟩
      · exact p3
      · exact h.check q hq
    · rw [u1, u2, u3]
      intro q hq
      simp only
      rcases hcases q hq with rfl | ⟨hq, _⟩
      · omega
      · have := h.lengths q hq; omega
    · rw [u1, hmap]
      intro P
      rw [h.order P, List.filter_append]
      by_cases hu : Usable r
      · rw [show ([r].filter fun r => decide (Usable r)) = [r] by simp [hu], List.map_append]
        rw [List.map_cons, List.map_nil, find_append_mem]
        rw [← hmem]
        rw [show pair r = entryPair e from h2.symm]
        exact List.mem_map_of_mem heM
      · simp [hu]
    · rw [u1]
      intro q hq
      rcases hcases q hq with rfl | ⟨hq, _⟩
      · rw [p2]
        have := h.nonempty e heM
        simp [this]
      · exact h.nonempty q hq

theorem inv_new : TableInv [] CustomTimeUnits.new := by
  constructor <;> simp [CustomTimeUnits.new]

theorem inv_foldl (regs' : List CustomTimeUnit) : ∀ (regs : List CustomTimeUnit) (t : CustomTimeUnits),
    TableInv regs t → TableInv (regs ++ regs') (regs'.foldl CustomTimeUnits.addCustomTimeUnit t) := by
  induction regs' with
  | nil => intro regs t h; simpa using h
  | cons r rs ih =>
    intro regs t h
    rw [List.foldl_cons]
    have := ih _ _ (inv_add h r)
    simpa using this

theorem inv_table (regs : List CustomTimeUnit) : TableInv regs (CustomTimeUnits.withTimeUnits regs) := by
  have := inv_foldl regs [] _ inv_new
  rw [List.nil_append] at this
  exact this

theorem findSome_find {α β : Type} (l : List α) (f : α → β) (Q : α → Bool) (P : β → Bool)
    (h : ∀ a ∈ l, Q a = P (f a)) : l.findSome? (fun a => if Q a then some (f a) else none) = (l.map f).find? P := by
  induction l with
  | nil => rfl
  | cons a l ih =>
    rw [List.findSome?_cons, List.map_cons, List.find?_cons, h a (List.mem_cons_self ..)]
    cases hp : P (f a)
    · simp only [Bool.false_eq_true, if_false]
      exact ih (fun b hb => h b (List.mem_cons_of_mem _ hb))
    · rfl

/-- C36: an identifier resolves to the first of the registered pairs of unit and multiplier (in the order
of their registrations with an identifier which is not empty) that was registered for it; the
empty identifier never resolves. -/
theorem C36_get (regs : List CustomTimeUnit) (id : Bytes) :
    (CustomTimeUnits.withTimeUnits regs).like.get id =
      ((regs.filter (fun r => decide (Usable r))).map pair).find? (fun p => decide (RegisteredFor regs p id)) := by
  have h := inv_table regs
  generalize CustomTimeUnits.withTimeUnits regs = t at h
  show t.get id = _
  rw [← h.order]
  unfold CustomTimeUnits.get
  have hentry : ∀ e ∈ t.timeUnits, (e.1.check id && e.2.contains id) = decide (RegisteredFor regs (entryPair e) id) := by
    intro e he
    have h1 := h.ids e he id
    by_cases hm : id ∈ e.2
    · have h2 := h.check e he id hm
      have : e.1.check id = true := by unfold LookupData.check; simp [h2]
      rw [this, show e.2.contains id = true by simpa using hm]
      simp [h1.1 hm]
    · rw [show e.2.contains id = false by simpa using hm]
      rw [Bool.and_false]
      symm
      rw [decide_eq_false_iff_not]
      exact fun hc => hm (h1.2 hc)
  by_cases hl : id.length < t.minLength ∨ t.maxLength < id.length
  · rw [if_pos hl]
    symm
    rw [List.find?_eq_none]
    intro p hp
    rw [List.mem_map] at hp
    obtain ⟨e, he, rfl⟩ := hp
    simp only [decide_eq_true_eq]
    intro hc
    have h1 := (h.ids e he id).2 hc
    have h2 := h.check e he id h1
    have h3 := h.lengths e he
    omega
  · rw [if_neg hl]
    unfold CustomTimeUnits.findId
    exact findSome_find t.timeUnits entryPair (fun e => e.1.check id && e.2.contains id) _ hentry

/-- C36: an identifier resolves exactly if it is not empty and was registered. -/
theorem C36_resolves (regs : List CustomTimeUnit) (id : Bytes) :
    (∃ p, (CustomTimeUnits.withTimeUnits regs).like.get id = some p) ↔
      id ≠ [] ∧ ∃ r ∈ regs, id ∈ r.identifiers := by
  rw [C36_get]
  constructor
  · rintro ⟨p, hp⟩
    have h1 := List.find?_some hp
    simp only [decide_eq_true_eq] at h1
    obtain ⟨h2, r, hr, _, h3⟩ := h1
    exact ⟨h2, r, hr, h3⟩
  · rintro ⟨h1, r, hr, h2⟩
    rw [← Option.isSome_iff_exists, List.find?_isSome]
    refine ⟨pair r, ?_, ?_⟩
    · apply List.mem_map_of_mem
      rw [List.mem_filter]
      exact ⟨hr, by simpa using ⟨id, h2, h1⟩⟩
    · simp only [decide_eq_true_eq]
      exact ⟨h1, r, hr, rfl, h2⟩

/-- C36: it resolves to a pair registered for it. -/
theorem C36_sound (regs : List CustomTimeUnit) (id : Bytes) (u : TimeUnit) (m : Multiplier)
    (h : (CustomTimeUnits.withTimeUnits regs).like.get id = some (u, m)) :
    ∃ r ∈ regs, r.baseUnit = u ∧ r.multiplier = m ∧ id ∈ r.identifiers := by
  rw [C36_get] at h
  have h1 := List.find?_some h
  simp only [decide_eq_true_eq] at h1
  obtain ⟨_, r, hr, h2, h3⟩ := h1
  cases h2
  exact ⟨r, hr, rfl, rfl, h3⟩

/-- C36: if the identifier was registered for one pair only, this is it. -/
theorem C36_unique (regs : List CustomTimeUnit) (id : Bytes) (r : CustomTimeUnit) (hr : r ∈ regs)
    (hid : id ∈ r.identifiers) (hne : id ≠ [])
    (huniq : ∀ r' ∈ regs, id ∈ r'.identifiers → r'.baseUnit = r.baseUnit ∧ r'.multiplier = r.multiplier) :
    (CustomTimeUnits.withTimeUnits regs).like.get id = some (r.baseUnit, r.multiplier) := by
  obtain ⟨⟨u, m⟩, hp⟩ := (C36_resolves regs id).2 ⟨hne, r, hr, hid⟩
  obtain ⟨r', hr', h1, h2, h3⟩ := C36_sound regs id u m hp
  obtain ⟨h4, h5⟩ := huniq r' hr' h3
  rw [hp, ← h1, ← h2, h4, h5]

/-- C36: the table is empty exactly if no identifier resolves. -/
theorem C36_is_empty (regs : List CustomTimeUnit) :
    (CustomTimeUnits.withTimeUnits regs).like.isEmpty = true ↔
      ∀ r ∈ regs, ∀ id ∈ r.identifiers, id = [] := by
  have h := inv_table regs
  have hmem := find_mem_iff _ _ h.order
  show (CustomTimeUnits.withTimeUnits regs).timeUnits.isEmpty = true ↔ _
  rw [List.isEmpty_iff]
  constructor
  · intro he r hr id hid
    apply Classical.byContradiction
    intro hne
    have := (hmem (pair r)).2 (List.mem_map_of_mem (by
      rw [List.mem_filter]; exact ⟨hr, by simpa using ⟨id, hid, hne⟩⟩))
    rw [he] at this
    cases this
  · intro hall
    cases ht : (CustomTimeUnits.withTimeUnits regs).timeUnits with
    | nil => rfl
    | cons e l =>
      have := (hmem (entryPair e)).1 (by rw [ht]; simp)
      rw [List.mem_map] at this
      obtain ⟨r, hr, _⟩ := this
      rw [List.mem_filter] at hr
      obtain ⟨hr, hu⟩ := hr
      simp only [decide_eq_true_eq] at hu
      obtain ⟨id, hid, hne⟩ := hu
      exact absurd (hall r hr id hid) hne

/-- C36: keywords are looked up in the same way. -/
theorem C36_keywords (keywords : List TimeKeyword) :
    CustomTimeUnits.withKeywords keywords =
      CustomTimeUnits.withTimeUnits (keywords.map (·.timeUnit)) := by
  unfold CustomTimeUnits.withKeywords CustomTimeUnits.withTimeUnits
  rw [List.foldl_map]
  rfl

/-- two units share the identifier `b`: the first one gets it, although it was registered for `b` later -/
example :
    (CustomTimeUnits.withTimeUnits [⟨.day, ⟨1, 0⟩, [[], b! "aaa"]⟩, ⟨.hour, ⟨2, 0⟩, [b! "b"]⟩,
      ⟨.day, ⟨1, 0⟩, [b! "b"]⟩, ⟨.week, ⟨1, 0⟩, [[]]⟩]).like.get (b! "b") = some (.day, ⟨1, 0⟩) ∧
    (CustomTimeUnits.withTimeUnits [⟨.day, ⟨1, 0⟩, [[], b! "aaa"]⟩, ⟨.hour, ⟨2, 0⟩, [b! "b"]⟩,
      ⟨.day, ⟨1, 0⟩, [b! "b"]⟩, ⟨.week, ⟨1, 0⟩, [[]]⟩]).like.get [] = none := by decide

/-! ## C37 -/

/-- C37: a word resolves to the multiplier of the first registered numeral with this identifier. -/
theorem C37_get (numerals : List Numeral) (w : Bytes) (m : Multiplier) :
    numeralsGet numerals w = some m ↔
      ∃ before n after, numerals = before ++ n :: after ∧ w ∈ n.identifiers ∧ n.multiplier = m ∧
        ∀ n' ∈ before, w ∉ n'.identifiers := by
  have hone : ∀ n : Numeral, (n.identifiers.findSome? fun id => if id = w then some n.multiplier else none) =
      if w ∈ n.identifiers then some n.multiplier else none := by
    intro n
    induction n.identifiers with
    | nil => simp
    | cons x xs ih =>
      rw [List.findSome?_cons]
      by_cases hx : x = w
      · simp [hx]
      · rw [if_neg hx]
        simp only
        rw [ih]
        by_cases hw : w ∈ xs
        · rw [if_pos hw, if_pos (List.mem_cons_of_mem _ hw)]
        · rw [if_neg hw, if_neg (by rw [List.mem_cons, not_or]; exact ⟨fun h => hx h.symm, hw⟩)]
  unfold numeralsGet
  simp only [hone]
  induction numerals with
  | nil => simp
  | cons n ns ih =>
    rw [List.findSome?_cons]
    by_cases hw : w ∈ n.identifiers
    · rw [if_pos hw]
      constructor
      · intro h; cases h; exact ⟨[], n, ns, rfl, hw, rfl, by simp⟩
      · rintro ⟨before, n', after, h1, h2, h3, h4⟩
        cases before with
        | nil => cases h1; rw [h3]
        | cons b bs =>
          cases h1
          exact absurd hw (h4 n (by simp))
    · rw [if_neg hw]
      refine Iff.trans ih ?_
      constructor
      · rintro ⟨before, n', after, h1, h2, h3, h4⟩
        refine ⟨n :: before, n', after, by rw [h1]; rfl, h2, h3, ?_⟩
        intro x hx
        rcases List.mem_cons.mp hx with rfl | hx
        · exact hw
        · exact h4 x hx
      · rintro ⟨before, n', after, h1, h2, h3, h4⟩
        cases before with
        | nil => cases h1; exact absurd h2 hw
        | cons b bs =>
          cases h1
          exact ⟨bs, n', after, rfl, h2, h3, fun x hx => h4 x (List.mem_cons_of_mem _ hx)⟩

/-- C37: and to nothing if there is none. -/
theorem C37_none (numerals : List Numeral) (w : Bytes) :
    numeralsGet numerals w = none ↔ ∀ n ∈ numerals, w ∉ n.identifiers := by
  constructor
  · intro h n hn hw
    cases he : numeralsGet numerals w with
    | some m => rw [he] at h; cases h
    | none =>
      obtain ⟨before, after, heq⟩ := List.append_of_mem hn
      -- the first numeral with the word
      have : ∃ m, numeralsGet numerals w = some m := by
        clear he h
        subst heq
        induction before with
        | nil => exact ⟨n.multiplier, (C37_get _ _ _).2 ⟨[], n, after, rfl, hw, rfl, by simp⟩⟩
        | cons b bs ih =>
          obtain ⟨m, hm⟩ := ih (by simp)
          by_cases hb : w ∈ b.identifiers
          · exact ⟨b.multiplier, (C37_get _ _ _).2 ⟨[], b, bs ++ n :: after, rfl, hb, rfl, by simp⟩⟩
          · obtain ⟨before', n', after', h1, h2, h3, h4⟩ := (C37_get _ _ _).1 hm
            refine ⟨m, (C37_get _ _ _).2 ⟨b :: before', n', after', by rw [List.cons_append, h1]; rfl, h2, h3, ?_⟩⟩
            intro x hx
            rcases List.mem_cons.mp hx with rfl | hx
            · exact hb
            · exact h4 x hx
      obtain ⟨m, hm⟩ := this
      rw [he] at hm; cases hm
  · intro h
    cases he : numeralsGet numerals w with
    | none => rfl
    | some m =>
      obtain ⟨before, n, after, h1, h2, _⟩ := (C37_get _ _ _).1 he
      exact absurd h2 (h n (by rw [h1]; simp))

example : numeralsGet [⟨[b! "one", b! "next"], ⟨1, 0⟩⟩, ⟨[b! "two", b! "next"], ⟨2, 0⟩⟩] (b! "next") = some ⟨1, 0⟩ ∧
    numeralsGet [⟨[b! "one", b! "next"], ⟨1, 0⟩⟩, ⟨[b! "two", b! "next"], ⟨2, 0⟩⟩] (b! "two") = some ⟨2, 0⟩ := by decide

end Fundu.Props
