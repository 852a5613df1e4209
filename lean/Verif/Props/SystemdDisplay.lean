import Verif.Props.Display
import Verif.Props.SystemdSpans
import Verif.Props.Exact
import Verif.Props.Permuted
/-!
# Property C98: what fundu-systemd reads back

Durations written as seconds with nine decimal places, and the `Display` of durations.
-/
namespace Fundu.Props
open Fundu Fundu.Spec
open Fundu.Systemd (TimeSpanParser)

/-! ## Seconds with nine decimal places -/

theorem nine_value {W F : Bytes} (h9 : F.length = 9) :
    literalValue W F 0 * 10 ^ 18 = (((decimal W * 10 ^ 9 + decimal F) * 10 ^ 9 : Nat) : ℚ) := by
  unfold literalValue
  rw [h9]
  push_cast
  field_simp
  ring

theorem nine_nanos {W F : Bytes} (h9 : F.length = 9) : spanNanos W F 1000000000 = ((decimal W * 10 ^ 9 + decimal F : Nat) : Int) := by
  unfold spanNanos
  rw [nine_value h9, Int.floor_natCast]
  have : ((((decimal W * 10 ^ 9 + decimal F) * 10 ^ 9 : Nat) : Int) : ℚ) / 10 ^ 18 * (1000000000 : Nat) =
      ((decimal W * 10 ^ 9 + decimal F : Nat) : ℚ) := by
    push_cast
    field_simp
    norm_num
    ring
  rw [this, Int.floor_natCast]

theorem extend_unit {nanos' : Bool} {id : Bytes} {len : Nat} (h : UnitIn (documentedOf false) id len) : UnitIn (documentedOf nanos') id len := by
  cases nanos' with
  | false => exact h
  | true =>
    obtain ⟨ids, h1, h2⟩ := h
    exact ⟨ids, List.mem_cons_of_mem _ h1, h2⟩

/-- the text is the duration in seconds with nine decimal places -/
def WrittenSeconds (d : Duration) (s : Bytes) : Prop :=
  ∃ W F : Bytes, s = W ++ (46 :: F) ∧ W ≠ [] ∧ AllDigits W ∧ AllDigits F ∧ F.length = 9 ∧ decimal W = d.inner.secs ∧ decimal F = d.inner.nanos

/-- C98: fundu-systemd reads back every duration which is not negative and not greater than the maximum, if it is written as seconds
with nine decimal places and a unit of seconds, or without a unit if the default unit is seconds. -/
theorem C98_seconds (nanos' : Bool) (u : TimeUnit) (max : Duration) (hw : max.WF) (hm : max.isNegative = false) (d : Duration) (hd : d.WF)
    (hneg : d.isNegative = false) (hle : nanos d ≤ nanos max) (s gap id : Bytes) (hs : WrittenSeconds d s) (hgap : ∀ b ∈ gap, PosixSpace b)
    (hid : id ∈ [b! "seconds", b! "second", b! "sec", b! "s"] ∨ (id = [] ∧ gap = [] ∧ u = .second)) :
    parseMax nanos' (TimeSpanParser.withDefaultUnit u) (s ++ (gap ++ id)) max = .ok d := by
  obtain ⟨W, F, rfl, h1, h2, h3, h4, h5, h6⟩ := hs
  obtain ⟨i, len, hu⟩ : ∃ id len, (u, id, len) ∈ documentedUnits := by
    have h : ∃ p ∈ documentedUnits, p.1 = u := by cases u <;> decide
    obtain ⟨⟨v, id, len⟩, h, rfl⟩ := h
    exact ⟨id, len, h⟩
  have dig : ∀ b : UInt8, IsDigit b → ¬ PosixSpace b := by
    intro b h
    unfold IsDigit at h
    unfold PosixSpace
    rintro (rfl | rfl | rfl | rfl | rfl | rfl) <;> revert h <;> decide
  have hids : ∀ id ∈ [b! "seconds", b! "second", b! "sec", b! "s"], id ≠ [] ∧ (∀ b ∈ id, b.toNat < 128 ∧ ¬ (PosixSpace b ∨ NextDuration b) ∧ b ≠ 46 ∧
      ¬ (b = 101 ∧ id.head? = some b) ∧ b ≠ 69) := by decide
  obtain ⟨c, W', hW⟩ := List.exists_cons_of_ne_nil h1
  have hc : IsDigit c := h2 c (by rw [hW]; simp)
  have hF0 : F ≠ [] := by rintro rfl; cases h4
  have htrim : Trimmed (W ++ (46 :: F) ++ (gap ++ id)) (W ++ (46 :: F) ++ (gap ++ id)) := by
    refine ⟨[], [], by simp, by simp, by simp, ?_, ?_⟩
    · rw [hW]
      intro b hb
      cases hb
      exact dig _ hc
    · rcases hid with hid | ⟨rfl, rfl, -⟩
      · obtain ⟨g1, g2⟩ := hids id hid
        rw [← List.append_assoc, List.getLast?_append_of_ne_nil _ g1]
        exact fun b hb h => (g2 b (List.mem_of_getLast? hb)).2.1 (Or.inl h)
      · rw [List.append_nil, List.append_nil, List.getLast?_append_of_ne_nil _ (by simp), List.getLast?_cons]
        intro b hb
        rw [List.getLast?_eq_some_getLast hF0] at hb
        cases hb
        exact dig _ (h3 _ (List.getLast_mem hF0))
  have htext : IsText (W ++ (46 :: F) ++ (gap ++ id)) := by
    refine isText_ascii fun b hb => ?_
    rcases List.mem_append.1 hb with hb | hb
    · rcases List.mem_append.1 hb with hb | hb
      · exact digit_ascii (h2 b hb)
      · rcases List.mem_cons.1 hb with rfl | hb
        · decide
        · exact digit_ascii (h3 b hb)
    · rcases List.mem_append.1 hb with hb | hb
      · exact posixSpace_ascii (hgap b hb)
      · rcases hid with hid | ⟨rfl, -⟩
        · exact ((hids id hid).2 b hb).1
        · cases hb
  have hinf : W ++ (46 :: F) ++ (gap ++ id) ≠ b! "infinity" := by
    intro e
    have : (46 : UInt8) ∈ b! "infinity" := by rw [← e]; simp
    revert this; decide
  have hnd : ¬ StartsWith IsDigit (gap ++ id) ∧ ¬ StartsWith ExponentLetter (gap ++ id) := by
    cases gap with
    | nil =>
      rcases hid with hid | ⟨rfl, -⟩
      · obtain ⟨g1, g2⟩ := hids id hid
        obtain ⟨b, w, rfl⟩ := List.exists_cons_of_ne_nil g1
        rw [List.nil_append, startsWith_cons, startsWith_cons]
        obtain ⟨-, q1, -, q2, q3⟩ := g2 b (by simp)
        exact ⟨fun h => q1 (Or.inr (Or.inl h)), fun h => h.elim (fun h => q2 ⟨h, rfl⟩) q3⟩
      · exact ⟨not_startsWith_nil, not_startsWith_nil⟩
    | cons b gap =>
      have hb := hgap b (by simp)
      rw [List.cons_append, startsWith_cons, startsWith_cons]
      refine ⟨fun h => dig b h hb, ?_⟩
      rintro (rfl | rfl) <;> revert hb <;> decide
  have hnum : SpanNumber (W ++ (46 :: F) ++ (gap ++ id)) W F (gap ++ id) := by
    refine .point (r := F ++ (gap ++ id)) ⟨by simp, h2, ?_⟩ ⟨rfl, h3, hnd.1⟩ (Or.inl h1)
    rw [startsWith_cons]; decide
  have hspan : Span (documentedOf nanos') len (W ++ (46 :: F) ++ (gap ++ id)) W F 1000000000 [] := by
    rcases hid with hid | ⟨rfl, rfl, rfl⟩
    · obtain ⟨g1, g2⟩ := hids id hid
      have hns : ¬ StartsWith PosixSpace id := by
        obtain ⟨b, w, rfl⟩ := List.exists_cons_of_ne_nil g1
        rw [startsWith_cons]
        exact fun h => (g2 b (by simp)).2.1 (Or.inl h)
      refine .numberUnit hnum hnd.2 ⟨gap, rfl, hgap, hns⟩ ⟨id, split_self (fun b hb => (g2 b hb).2.1), ?_⟩ ⟨[], split_nil not_startsWith_nil⟩
      refine extend_unit ⟨_, ?_, hid⟩
      decide
    · have hl : len = 1000000000 := by
        have : ∀ p ∈ documentedUnits, p.1 = .second → p.2.2 = 1000000000 := by decide
        exact this _ hu rfl
      have := Span.number (table := documentedOf nanos') (default := len) hnum hnd.2 ⟨[], split_nil not_startsWith_nil⟩ (by
        rintro ⟨len', t, w, g1, ids, g2, g3⟩
        have e := g1.1
        rw [List.append_nil] at e
        obtain ⟨rfl, -⟩ := List.append_eq_nil_iff.1 e.symm
        have key : ∀ q ∈ documentedOf nanos', ([] : Bytes) ∉ q.1 := by cases nanos' <;> decide
        exact key _ g2 g3)
      rw [hl] at this ⊢
      exact this
  have hspans := TimeSpans.last (table := documentedOf nanos') (default := len) (neg := false) (.absent (by
    rw [hW, List.cons_append, List.cons_append, startsWith_cons]
    unfold IsDigit at hc
    rintro (rfl | rfl) <;> revert hc <;> decide)) hspan (fun h => by cases h)
  obtain ⟨e, k1, k2⟩ := (C92_value nanos' u i len hu _ _ htext htrim hinf max hw hm _).2 ⟨_, hspans, rfl⟩
  have hx : nanos e = nanos d := by
    rw [k2, nine_nanos h4, List.sum_cons, List.sum_nil, h5, h6, Int.add_zero]
    have : nanos d = ((d.inner.secs * 10 ^ 9 + d.inner.nanos : Nat) : Int) := by
      unfold nanos; rw [hneg]; simp
    omega
  rcases C38_bounded nanos' u _ htext max hw hm with ⟨d', q1, q2, q3, -⟩ | ⟨e', g⟩
  · rw [q1] at k1
    cases k1
    obtain rfl := nonneg_equal q2 hd q3 hneg hx
    exact q1
  · rw [g] at k1; cases k1

/-- C98: every duration can be written this way. -/
theorem C98_every (d : Duration) (hd : d.WF) : ∃ s, WrittenSeconds d s := by
  obtain ⟨W, h1, h2, h3⟩ := someDigits d.inner.secs
  obtain ⟨F, g1, g2, g3⟩ := nineDigits d.inner.nanos hd.2
  exact ⟨_, W, F, rfl, h2, h1, g1, g2, h3, g3⟩

/-! ## The parts of the display -/

/-- all units of the display with their numbers -/
def displayList (d : Duration) : List Part := [
  (d.inner.secs / 31557600, b! "y", 31557600 * 1000000000),
  (d.inner.secs % 31557600 / 2629800, b! "M", 2629800 * 1000000000),
  (d.inner.secs % 31557600 % 2629800 / 604800, b! "w", 604800 * 1000000000),
  (d.inner.secs % 31557600 % 2629800 % 604800 / 86400, b! "d", 86400 * 1000000000),
  (d.inner.secs % 31557600 % 2629800 % 604800 % 86400 / 3600, b! "h", 3600 * 1000000000),
  (d.inner.secs % 31557600 % 2629800 % 604800 % 86400 % 3600 / 60, b! "m", 60 * 1000000000),
  (d.inner.secs % 31557600 % 2629800 % 604800 % 86400 % 3600 % 60 / 1, b! "s", 1000000000),
  (d.inner.nanos / 1000000, b! "ms", 1000000),
  (d.inner.nanos % 1000000 / 1000, b! "Ms", 1000),
  (d.inner.nanos % 1000000 % 1000 / 1, b! "ns", 1)]

theorem displayStep_eq {unit : Nat} {id : Bytes} (hu : 0 < unit) (st : Nat × List Bytes) (len : Nat) :
    Duration.displayStep unit id st =
      (st.1 % unit, st.2 ++ (([(st.1 / unit, id, len)] : List Part).filter fun p => 0 < p.1).map Part.text) := by
  unfold Duration.displayStep
  by_cases h : unit ≤ st.1
  · have : 0 < st.1 / unit := Nat.div_pos h hu
    rw [if_pos h, List.filter_cons_of_pos (by simpa using this)]
    rfl
  · have h0 : st.1 / unit = 0 := Nat.div_eq_of_lt (by omega)
    rw [if_neg h, List.filter_cons_of_neg (by simp [h0]), Nat.mod_eq_of_lt (by omega)]
    simp

theorem displayParts_list (d : Duration) :
    d.displayParts = ((displayList d).filter fun p => 0 < p.1).map Part.text := by
  unfold Duration.displayParts
  simp only
  rw [displayStep_eq (by decide) _ 1, displayStep_eq (by decide) _ 1000, displayStep_eq (by decide) _ 1000000,
    displayStep_eq (by decide) _ 1000000000, displayStep_eq (by decide) _ (60 * 1000000000),
    displayStep_eq (by decide) _ (3600 * 1000000000), displayStep_eq (by decide) _ (86400 * 1000000000),
    displayStep_eq (by decide) _ (604800 * 1000000000), displayStep_eq (by decide) _ (2629800 * 1000000000),
    displayStep_eq (by decide) _ (31557600 * 1000000000)]
  dsimp only
  rw [List.nil_append]
  simp only [← List.map_append, ← List.filter_append]
  rfl

theorem sum_filter_parts (L : List Part) :
    ((L.filter fun p => 0 < p.1).map Part.value).sum = (L.map Part.value).sum := by
  induction L with
  | nil => rfl
  | cons p L ih =>
    by_cases h : 0 < p.1
    · rw [List.filter_cons_of_pos (by simpa using h), List.map_cons, List.map_cons, List.sum_cons, List.sum_cons, ih]
    · rw [List.filter_cons_of_neg (by simpa using h), List.map_cons, List.sum_cons, ih]
      have : Part.value p = 0 := by unfold Part.value; rw [show p.1 = 0 by omega, Nat.zero_mul]
      omega

theorem chain_step {a b G X n : Nat} (h : X = a % b * G + n) : a / b * (b * G) + X = a * G + n := by
  rw [h, ← Nat.add_assoc, ← Nat.mul_assoc, ← Nat.add_mul, Nat.mul_comm (a / b), Nat.div_add_mod]

theorem parts_sum (s n a b c e f g G u v : Nat) (i1 i2 i3 i4 i5 i6 i7 i8 i9 i10 : Bytes) :
    (([(s / a, i1, a * G), (s % a / b, i2, b * G), (s % a % b / c, i3, c * G), (s % a % b % c / e, i4, e * G),
      (s % a % b % c % e / f, i5, f * G), (s % a % b % c % e % f / g, i6, g * G), (s % a % b % c % e % f % g / 1, i7, G),
      (n / u, i8, u), (n % u / v, i9, v), (n % u % v / 1, i10, 1)] : List Part).map Part.value).sum = s * G + n := by
  have hn : n / u * u + (n % u / v * v + n % u % v) = n := by
    have h1 := Nat.div_add_mod n u
    have h2 := Nat.div_add_mod (n % u) v
    rw [Nat.mul_comm] at h1 h2
    rw [h2, h1]
  unfold Part.value
  simp only [List.map_cons, List.map_nil, List.sum_cons, List.sum_nil, Nat.div_one, Nat.mul_one, Nat.add_zero]
  rw [hn]
  exact chain_step (chain_step (chain_step (chain_step (chain_step (chain_step rfl)))))

theorem displayList_sum (d : Duration) : ((displayList d).map Part.value).sum = d.inner.secs * 1000000000 + d.inner.nanos :=
  parts_sum _ _ _ _ _ _ _ _ _ _ _ _ _ _ _ _ _ _ _ _ _

theorem unitIn_of {table : List (List Bytes × Nat)} {id : Bytes} {len : Nat} (h : ∃ q ∈ table, q.2 = len ∧ id ∈ q.1) :
    UnitIn table id len := by
  obtain ⟨⟨ids, _⟩, h1, rfl, h2⟩ := h
  exact ⟨ids, h1, h2⟩

/-- the words of the display, and those which fundu-systemd knows -/
theorem displayList_units (d : Duration) (p : Part) (h : p ∈ displayList d) :
    (p.2.1 = b! "Ms" ∧ p.1 = d.inner.nanos / 1000 % 1000) ∨ (p.2.1 = b! "ns" ∧ p.1 = d.inner.nanos % 1000) ∨
      UnitIn (documentedOf false) p.2.1 p.2.2 := by
  unfold displayList at h
  simp only [List.mem_cons, List.not_mem_nil, or_false] at h
  rcases h with rfl | rfl | rfl | rfl | rfl | rfl | rfl | rfl | rfl | rfl
  all_goals first
    | (right; right; dsimp only; exact unitIn_of (by decide +kernel))
    | (left; exact ⟨rfl, by dsimp only; omega⟩)
    | (right; left; exact ⟨rfl, by dsimp only; omega⟩)

/-! ## Reading a part -/

/-- a word as they are in the display -/
def PlainWord (id : Bytes) : Prop :=
  id ≠ [] ∧ (∀ b ∈ id, ¬ (PosixSpace b ∨ NextDuration b)) ∧ ∀ b ∈ id.head?, b ≠ 46 ∧ ¬ ExponentLetter b

theorem displayList_plain (d : Duration) (p : Part) (h : p ∈ displayList d) : PlainWord p.2.1 := by
  have key : ∀ id ∈ [b! "y", b! "M", b! "w", b! "d", b! "h", b! "m", b! "s", b! "ms", b! "Ms", b! "ns"],
      id ≠ [] ∧ (∀ b ∈ id, ¬ (PosixSpace b ∨ NextDuration b)) ∧ ∀ b ∈ id.head?, b ≠ 46 ∧ ¬ (b = 101 ∨ b = 69) := by decide
  apply key
  unfold displayList at h
  simp only [List.mem_cons, List.not_mem_nil, or_false] at h
  rcases h with rfl | rfl | rfl | rfl | rfl | rfl | rfl | rfl | rfl | rfl <;> dsimp only <;> decide

/-- what follows a part: nothing, or a space -/
def PartEnd (T rest : Bytes) : Prop := (T = [] ∧ rest = []) ∨ (T = 32 :: rest ∧ ¬ StartsWith PosixSpace rest)

theorem partEnd_spaces {T rest : Bytes} (h : PartEnd T rest) : Spaces T rest := by
  rcases h with ⟨rfl, rfl⟩ | ⟨rfl, h⟩
  · exact ⟨[], split_nil not_startsWith_nil⟩
  · exact ⟨[32], rfl, by intro b hb; rw [List.mem_singleton] at hb; rw [hb]; decide, h⟩

theorem part_read {id T rest : Bytes} (n : Nat) (hw : PlainWord id) (hT : PartEnd T rest) :
    SpanNumber (Duration.decDigits n ++ (id ++ T)) (Duration.decDigits n) [] (id ++ T) ∧ ¬ StartsWith ExponentLetter (id ++ T) ∧
      Spaces (id ++ T) (id ++ T) ∧ Split (fun b => ¬ (PosixSpace b ∨ NextDuration b)) (id ++ T) id T := by
  obtain ⟨h1, h2, h3⟩ := hw
  obtain ⟨b, id, rfl⟩ := List.exists_cons_of_ne_nil h1
  have hb := h2 b (by simp)
  have hb' := h3 b rfl
  obtain ⟨d1, d2, -⟩ := decDigits_spec n
  refine ⟨.whole ⟨rfl, d1, ?_⟩ d2 ?_, ?_, ⟨[], split_nil ?_⟩, rfl, h2, ?_⟩
  · rw [List.cons_append, startsWith_cons]; exact fun h => hb (Or.inr (Or.inl h))
  · rw [List.cons_append, startsWith_cons]; exact hb'.1
  · rw [List.cons_append, startsWith_cons]; exact hb'.2
  · rw [List.cons_append, startsWith_cons]; exact fun h => hb (Or.inl h)
  · rcases hT with ⟨rfl, rfl⟩ | ⟨rfl, h⟩
    · exact not_startsWith_nil
    · rw [startsWith_cons]; exact fun h => h (Or.inl (by decide))

theorem part_span {table : List (List Bytes × Nat)} {len default : Nat} {id T rest : Bytes} (n : Nat) (hw : PlainWord id)
    (hT : PartEnd T rest) (hu : UnitIn table id len) : Span table default (Duration.decDigits n ++ (id ++ T)) (Duration.decDigits n) [] len rest := by
  obtain ⟨h1, h2, h3, h4⟩ := part_read n hw hT
  exact .numberUnit h1 h2 h3 ⟨id, h4, hu⟩ (partEnd_spaces hT)

theorem part_number {table : List (List Bytes × Nat)} {default : Nat} {id T rest : Bytes} (n : Nat) (hw : PlainWord id)
    (hT : PartEnd T rest) (hu : ¬ ∃ len, UnitIn table id len) :
    Span table default (Duration.decDigits n ++ (id ++ T)) (Duration.decDigits n) [] default (id ++ T) ∧
      ¬ ∃ len t, SpanUnit table (id ++ T) len t := by
  obtain ⟨h1, h2, h3, h4⟩ := part_read n hw hT
  have hno : ¬ ∃ len t, SpanUnit table (id ++ T) len t := by
    rintro ⟨len, t, w, g1, g2⟩
    obtain ⟨rfl, rfl⟩ := split_unique g1 h4
    exact hu ⟨len, g2⟩
  exact ⟨.number h1 h2 h3 hno, hno⟩

theorem digits_start {n : Nat} {r : Bytes} : StartsWith IsDigit (Duration.decDigits n ++ r) := by
  obtain ⟨h1, h2, -⟩ := decDigits_spec n
  obtain ⟨b, l, e⟩ := List.exists_cons_of_ne_nil h2
  rw [e] at h1 ⊢
  exact ⟨b, l ++ r, rfl, h1 b (by simp)⟩

theorem digits_no_sign {n : Nat} {r : Bytes} : ¬ StartsWith SignByte (Duration.decDigits n ++ r) := by
  obtain ⟨b, l, e, h⟩ := digits_start (n := n) (r := r)
  rw [e, startsWith_cons]
  unfold IsDigit at h
  rintro (rfl | rfl) <;> revert h <;> decide

theorem digits_no_space {n : Nat} {r : Bytes} : ¬ StartsWith PosixSpace (Duration.decDigits n ++ r) := by
  obtain ⟨b, l, e, h⟩ := digits_start (n := n) (r := r)
  rw [e, startsWith_cons]
  unfold IsDigit at h
  unfold PosixSpace
  rintro (rfl | rfl | rfl | rfl | rfl | rfl) <;> revert h <;> decide

/-- a word which fundu-systemd does not know is the first mistake -/
theorem parts_mistake {table : List (List Bytes × Nat)} {default : Nat} (l : List Part) (hw : ∀ p ∈ l, PlainWord p.2.1)
    (h : ∃ p ∈ l, ¬ ∃ len, UnitIn table p.2.1 len) :
    ∃ f, SpansMistake table default (Duration.join (b! " ") (l.map Part.text)) f := by
  induction l with
  | nil => obtain ⟨p, hp, -⟩ := h; cases hp
  | cons p l ih =>
    have hend : ∃ T rest, Duration.join (b! " ") ((p :: l).map Part.text) = Duration.decDigits p.1 ++ (p.2.1 ++ T) ∧ PartEnd T rest ∧
        rest = Duration.join (b! " ") (l.map Part.text) ∧ (l ≠ [] → rest ≠ []) := by
      cases l with
      | nil => exact ⟨[], [], by simp [Duration.join, Part.text], Or.inl ⟨rfl, rfl⟩, rfl, fun h => absurd rfl h⟩
      | cons q l =>
        have hq : ∃ r, Duration.join (b! " ") ((q :: l).map Part.text) = Duration.decDigits q.1 ++ r := by
          cases l with
          | nil => exact ⟨q.2.1, rfl⟩
          | cons q' l =>
            refine ⟨q.2.1 ++ (b! " " ++ Duration.join (b! " ") ((q' :: l).map Part.text)), ?_⟩
            simp only [List.map_cons, Duration.join, Part.text, List.append_assoc]
        refine ⟨32 :: Duration.join (b! " ") ((q :: l).map Part.text), _, ?_, Or.inr ⟨rfl, ?_⟩, rfl, fun _ => ?_⟩
        · simp only [List.map_cons, Duration.join, Part.text, List.append_assoc, List.cons_append, List.nil_append]
        · obtain ⟨r, e⟩ := hq
          rw [e]; exact digits_no_space
        · obtain ⟨r, e⟩ := hq
          rw [e]
          obtain ⟨b, l, e, -⟩ := digits_start (n := q.1) (r := r)
          rw [e]; simp
    obtain ⟨T, rest, e, hT, hrest, hne⟩ := hend
    rw [e]
    by_cases hu : ∃ len, UnitIn table p.2.1 len
    · obtain ⟨len, hu'⟩ := hu
      have hl : ∃ q ∈ l, ¬ ∃ len, UnitIn table q.2.1 len := by
        obtain ⟨q, hq, hq'⟩ := h
        rcases List.mem_cons.1 hq with rfl | hq
        · exact absurd ⟨len, hu'⟩ hq'
        · exact ⟨q, hq, hq'⟩
      obtain ⟨f, hf⟩ := ih (fun q hq => hw q (by simp [hq])) hl
      refine ⟨f, .later (.absent digits_no_sign) (part_span p.1 (hw p (by simp)) hT hu') (fun h => by cases h) (hne ?_) (hrest ▸ hf)⟩
      rintro rfl
      obtain ⟨q, hq, -⟩ := hl
      cases hq
    · obtain ⟨h1, h2⟩ := part_number (default := default) p.1 (hw p (by simp)) hT hu
      obtain ⟨g1, g2, g3⟩ := hw p (by simp)
      obtain ⟨b, w, e'⟩ := List.exists_cons_of_ne_nil g1
      rw [e'] at h1 h2 g2 g3 ⊢
      have hb := g2 b (by simp)
      have hb' := g3 b rfl
      refine ⟨_, .later (.absent digits_no_sign) h1 (fun h => by cases h) (by simp) (.span (.absent ?_) (.noUnit (by simp) ?_ ?_ h2))⟩
      · rw [List.cons_append, startsWith_cons]; exact fun h => hb (Or.inr (Or.inr h))
      · rw [List.cons_append, startsWith_cons]; exact fun h => hb (Or.inr (Or.inl h))
      · rw [List.cons_append, startsWith_cons]; exact hb'.1

theorem not_negligible {n len : Nat} (hn : 0 < n) (hl : 0 < len) : ¬ Negligible (Duration.decDigits n) [] len := by
  unfold Negligible literalValue
  rw [(decDigits_spec n).2.2]
  have h1 : (1 : ℚ) ≤ (n : ℚ) := by exact_mod_cast hn
  have h2 : (1 : ℚ) ≤ ((min len (10 ^ 9) : Nat) : ℚ) := by
    have : 1 ≤ min len (10 ^ 9) := le_min hl (by norm_num)
    exact_mod_cast this
  generalize ((min len (10 ^ 9) : Nat) : ℚ) = y at *
  rw [not_lt]
  have h3 : (1 : ℚ) ≤ ((n : ℚ) + ((decimal ([] : Bytes) : ℕ) : ℚ) / 10 ^ ([] : Bytes).length) * 10 ^ (0 : ℤ) := by
    simpa [decimal] using (show 1 ≤ n from hn)
  have h4 : 1 * 1 ≤ (((n : ℚ) + ((decimal ([] : Bytes) : ℕ) : ℚ) / 10 ^ ([] : Bytes).length) * 10 ^ (0 : ℤ)) * y :=
    mul_le_mul h3 h2 (by norm_num) (by linarith)
  generalize (((n : ℚ) + ((decimal ([] : Bytes) : ℕ) : ℚ) / 10 ^ ([] : Bytes).length) * 10 ^ (0 : ℤ)) * y = z at *
  rw [div_le_div_iff₀ (by norm_num) (by norm_num)]
  nlinarith

/-- a negative part is the first mistake -/
theorem parts_negative {table : List (List Bytes × Nat)} {default : Nat} (hd : 0 < default) (ht : ∀ p ∈ table, 0 < p.2) (p : Part)
    (l : List Part) (hw : PlainWord p.2.1) (hp : 0 < p.1) :
    SpansMistake table default (b! "-" ++ Duration.join (b! " -") ((p :: l).map Part.text)) (.other .negativeNumber) := by
  have hend : ∃ T rest, Duration.join (b! " -") ((p :: l).map Part.text) = Duration.decDigits p.1 ++ (p.2.1 ++ T) ∧ PartEnd T rest := by
    cases l with
    | nil => exact ⟨[], [], by simp [Duration.join, Part.text], Or.inl ⟨rfl, rfl⟩⟩
    | cons q l =>
      refine ⟨32 :: 45 :: Duration.join (b! " -") ((q :: l).map Part.text), _, ?_, Or.inr ⟨rfl, ?_⟩⟩
      · simp only [List.map_cons, Duration.join, Part.text, List.append_assoc, List.cons_append, List.nil_append]
      · rw [startsWith_cons]; decide
  obtain ⟨T, rest, e, hT⟩ := hend
  rw [e]
  by_cases hu : ∃ len, UnitIn table p.2.1 len
  · obtain ⟨len, hu'⟩ := hu
    refine .negative .minus (part_span p.1 hw hT hu') (not_negligible hp ?_)
    obtain ⟨ids, h1, -⟩ := hu'
    exact ht _ h1
  · exact .negative .minus (part_number p.1 hw hT hu).1 (not_negligible hp hd)

/-! ## Reading the display -/

theorem join_systemd (nanos' : Bool) (l : List Part) (hne : l ≠ []) (h : ∀ p ∈ l, UnitIn (documentedOf nanos') p.2.1 p.2.2) :
    Spans (systemdFormat nanos') (Duration.join (b! " ") (l.map Part.text)) (l.map fun p => (false, (Part.value p : Int))) := by
  have one : ∀ p : Part, UnitIn (documentedOf nanos') p.2.1 p.2.2 → SpanText (systemdFormat nanos') (Part.text p) (Part.value p : Int) := by
    intro p hp
    obtain ⟨h1, h2, h3⟩ := decDigits_spec p.1
    have := SpanText.number (f := systemdFormat nanos') (gap := []) h1 h2 (by simp) (Or.inl rfl) hp
    rw [h3] at this
    have e : (Part.value p : Int) = (p.1 : Int) * (p.2.2 : Int) := by unfold Part.value; push_cast; rfl
    rw [e]
    exact this
  have hs : SignText [] false := Or.inl ⟨rfl, rfl⟩
  induction l with
  | nil => exact absurd rfl hne
  | cons p l ih =>
    cases l with
    | nil => exact Spans.last (sign := []) hs (one p (h p (by simp)))
    | cons q l =>
      have ih' := ih (by simp) (fun r hr => h r (by simp [hr]))
      have := Spans.more (gap := b! " ") hs (one p (h p (by simp)))
        (by intro b hb; rw [List.mem_singleton] at hb; rw [hb]; show PosixSpace 32; decide) (Or.inl (by simp)) ih'
      have e : Duration.join (b! " ") ((p :: q :: l).map Part.text) =
          [] ++ (Part.text p ++ (b! " " ++ Duration.join (b! " ") ((q :: l).map Part.text))) := by
        simp only [List.map_cons, Duration.join, List.append_assoc, List.nil_append]
      rw [e]
      exact this

theorem isZero_iff (d : Duration) : d.isZero = true ↔ d.inner.secs * 1000000000 + d.inner.nanos = 0 := by
  unfold Duration.isZero StdDuration.isZero
  constructor
  · intro h
    have : d.inner.secs = 0 ∧ d.inner.nanos = 0 := by simpa using h
    omega
  · intro h
    have : d.inner.secs = 0 ∧ d.inner.nanos = 0 := by omega
    simp [this.1, this.2]

/-- the displayed parts -/
def shownParts (d : Duration) : List Part := (displayList d).filter fun p => 0 < p.1

theorem shownParts_ne (d : Duration) (hz : ¬ d.isZero = true) : shownParts d ≠ [] := by
  intro e
  have h1 := sum_filter_parts (displayList d)
  rw [displayList_sum, show (displayList d).filter (fun p => 0 < p.1) = [] from e] at h1
  exact hz ((isZero_iff d).2 h1.symm)

theorem shownParts_mem {d : Duration} {p : Part} (h : p ∈ shownParts d) : p ∈ displayList d ∧ 0 < p.1 := by
  unfold shownParts at h
  rw [List.mem_filter] at h
  exact ⟨h.1, by simpa using h.2⟩

theorem display_ends {sep : Bytes} (hsep : ∀ b ∈ sep, b.toNat < 128) (l : List Part) (hne : l ≠ []) (hw : ∀ p ∈ l, PlainWord p.2.1)
    (ha : ∀ p ∈ l, ∀ b ∈ p.2.1, b.toNat < 128) :
    (∀ b ∈ Duration.join sep (l.map Part.text), b.toNat < 128) ∧ StartsWith IsDigit (Duration.join sep (l.map Part.text)) ∧
      ∀ b ∈ (Duration.join sep (l.map Part.text)).getLast?, ¬ PosixSpace b := by
  have text : ∀ p ∈ l, ∀ b ∈ Part.text p, b.toNat < 128 := by
    intro p hp b hb
    rcases List.mem_append.1 hb with hb | hb
    · exact digit_ascii ((decDigits_spec p.1).1 b hb)
    · exact ha p hp b hb
  have last : ∀ p ∈ l, ∀ b ∈ (Part.text p).getLast?, ¬ PosixSpace b := by
    intro p hp b hb
    obtain ⟨h1, h2, -⟩ := hw p hp
    unfold Part.text at hb
    rw [List.getLast?_append_of_ne_nil _ h1] at hb
    exact fun h => h2 b (List.mem_of_getLast? hb) (Or.inl h)
  clear hw ha
  induction l with
  | nil => exact absurd rfl hne
  | cons p l ih =>
    cases l with
    | nil => exact ⟨text p (by simp), digits_start, last p (by simp)⟩
    | cons q l =>
      obtain ⟨i1, i2, i3⟩ := ih (by simp) (fun r hr => text r (by simp [hr])) (fun r hr => last r (by simp [hr]))
      have e : Duration.join sep ((p :: q :: l).map Part.text) = Part.text p ++ (sep ++ Duration.join sep ((q :: l).map Part.text)) := by
        simp only [List.map_cons, Duration.join, List.append_assoc]
      rw [e]
      refine ⟨?_, ?_, ?_⟩
      · intro b hb
        rcases List.mem_append.1 hb with hb | hb
        · exact text p (by simp) b hb
        rcases List.mem_append.1 hb with hb | hb
        · exact hsep b hb
        · exact i1 b hb
      · unfold Part.text; rw [List.append_assoc]; exact digits_start
      · intro b hb
        have hn : Duration.join sep ((q :: l).map Part.text) ≠ [] := by
          obtain ⟨c, r, e, -⟩ := i2
          rw [e]; simp
        rw [← List.append_assoc, List.getLast?_append_of_ne_nil _ hn] at hb
        exact i3 b hb

theorem displayList_ascii (d : Duration) (p : Part) (h : p ∈ displayList d) : ∀ b ∈ p.2.1, b.toNat < 128 := by
  unfold displayList at h
  simp only [List.mem_cons, List.not_mem_nil, or_false] at h
  rcases h with rfl | rfl | rfl | rfl | rfl | rfl | rfl | rfl | rfl | rfl <;> dsimp only <;> decide

theorem display_trimmed (d : Duration) : IsText d.display ∧ Trimmed d.display d.display ∧ d.display ≠ b! "infinity" := by
  suffices h : (∀ b ∈ d.display, b.toNat < 128) ∧ StartsWith NextDuration d.display ∧ ∀ b ∈ d.display.getLast?, ¬ PosixSpace b by
    obtain ⟨h1, ⟨b, r, h2, h2'⟩, h3⟩ := h
    refine ⟨isText_ascii h1, ⟨[], [], by simp, by simp, by simp, ?_, h3⟩, ?_⟩
    · rw [h2]
      intro c hc
      cases hc
      rcases h2' with h | rfl | rfl
      · unfold IsDigit at h
        unfold PosixSpace
        rintro (rfl | rfl | rfl | rfl | rfl | rfl) <;> revert h <;> decide
      · decide
      · decide
    · rw [h2]
      intro e
      cases e
      revert h2'
      decide
  by_cases hz : d.isZero = true
  · have e : d.display = b! "0ns" := by unfold Duration.display; rw [if_pos hz]
    rw [e]
    exact ⟨by decide, ⟨48, b! "ns", rfl, by decide⟩, by decide⟩
  have hw : ∀ p ∈ shownParts d, PlainWord p.2.1 := fun p hp => displayList_plain d p (shownParts_mem hp).1
  have ha : ∀ p ∈ shownParts d, ∀ b ∈ p.2.1, b.toNat < 128 := fun p hp => displayList_ascii d p (shownParts_mem hp).1
  have hne := shownParts_ne d hz
  cases hneg : d.isNegative with
  | true =>
    have hd : d.display = b! "-" ++ Duration.join (b! " -") ((shownParts d).map Part.text) := by
      unfold Duration.display
      rw [if_neg hz, hneg, if_pos rfl, displayParts_list]
      rfl
    obtain ⟨i1, i2, i3⟩ := display_ends (sep := b! " -") (by decide) _ hne hw ha
    have hn : Duration.join (b! " -") ((shownParts d).map Part.text) ≠ [] := by
      obtain ⟨c, r, e, -⟩ := i2
      rw [e]; simp
    rw [hd]
    refine ⟨?_, ⟨45, _, rfl, by decide⟩, ?_⟩
    · intro b hb
      rcases List.mem_append.1 hb with hb | hb
      · exact (by decide : ∀ b ∈ b! "-", b.toNat < 128) b hb
      · exact i1 b hb
    · rw [List.getLast?_append_of_ne_nil _ hn]; exact i3
  | false =>
    have hd : d.display = Duration.join (b! " ") ((shownParts d).map Part.text) := by
      unfold Duration.display
      rw [if_neg hz, hneg, if_neg (by decide), displayParts_list]
      rfl
    obtain ⟨i1, ⟨c, r, e, hc⟩, i3⟩ := display_ends (sep := b! " ") (by decide) _ hne hw ha
    rw [hd]
    exact ⟨i1, ⟨c, r, e, Or.inl hc⟩, i3⟩

/-- C98: fundu-systemd reads back the `Display` of a duration which is not negative, or gives the maximum if that is less, if the
display has no microseconds and, without nanosecond units, no nanoseconds. -/
theorem C98_display (nanos' : Bool) (u : TimeUnit) (max : Duration) (hw : max.WF) (hm : max.isNegative = false) (d : Duration)
    (hneg : d.isNegative = false) (hz : d.isZero = false) (h1 : d.inner.nanos / 1000 % 1000 = 0) (h2 : nanos' = true ∨ d.inner.nanos % 1000 = 0) :
    ∃ e, parseMax nanos' (TimeSpanParser.withDefaultUnit u) d.display max = .ok e ∧ nanos e = min (nanos max) (nanos d) := by
  have hz' : ¬ d.isZero = true := by rw [hz]; decide
  have hu : ∀ p ∈ shownParts d, UnitIn (documentedOf nanos') p.2.1 p.2.2 := by
    intro p hp
    obtain ⟨g1, g2⟩ := shownParts_mem hp
    rcases displayList_units d p g1 with ⟨-, e⟩ | ⟨e1, e⟩ | h
    · omega
    · rcases h2 with rfl | h2
      · rw [e1]
        have : p.2.2 = 1 := by
          unfold displayList at g1
          simp only [List.mem_cons, List.not_mem_nil, or_false] at g1
          rcases g1 with rfl | rfl | rfl | rfl | rfl | rfl | rfl | rfl | rfl | rfl <;> first | rfl | exact absurd e1 (by dsimp only; decide)
        rw [this]
        exact unitIn_of (by decide)
      · omega
    · exact extend_unit h
  have hd : d.display = Duration.join (b! " ") ((shownParts d).map Part.text) := by
    unfold Duration.display
    rw [if_neg hz', hneg, if_neg (by decide), displayParts_list]
    rfl
  obtain ⟨t1, t2, -⟩ := display_trimmed d
  have hs := join_systemd nanos' _ (shownParts_ne d hz') hu
  rw [← hd] at hs
  obtain ⟨e, k1, k2⟩ := C58_spans nanos' u d.display d.display t1 t2 _ hs
    (by intro p hp; obtain ⟨q, -, rfl⟩ := List.mem_map.1 hp; rfl) max hw hm
  refine ⟨e, k1, ?_⟩
  rw [k2, List.map_map]
  have e1 : ((shownParts d).map (Prod.snd ∘ fun p => (false, (Part.value p : Int)))).sum = (((shownParts d).map Part.value).sum : Int) := by
    generalize shownParts d = L
    induction L with
    | nil => rfl
    | cons p L ih => rw [List.map_cons, List.sum_cons, ih, List.map_cons, List.sum_cons]; push_cast; rfl
  rw [e1, show (shownParts d).map Part.value = ((displayList d).filter fun p => 0 < p.1).map Part.value from rfl, sum_filter_parts,
    displayList_sum]
  unfold nanos
  rw [hneg]
  simp

/-- C98: and otherwise it rejects the `Display`. -/
theorem C98_display_rejected (nanos' : Bool) (u : TimeUnit) (max : Duration) (hm : max.isNegative = false) (d : Duration)
    (hz : d.isZero = false) (h : d.isNegative = true ∨ d.inner.nanos / 1000 % 1000 ≠ 0 ∨ (nanos' = false ∧ d.inner.nanos % 1000 ≠ 0)) :
    ∃ e, parseMax nanos' (TimeSpanParser.withDefaultUnit u) d.display max = fail e ∧ (d.isNegative = true → e = .negativeNumber) := by
  have hz' : ¬ d.isZero = true := by rw [hz]; decide
  obtain ⟨id, len, hu⟩ : ∃ id len, (u, id, len) ∈ documentedUnits := by
    have h : ∃ p ∈ documentedUnits, p.1 = u := by cases u <;> decide
    obtain ⟨⟨v, id, len⟩, h, rfl⟩ := h
    exact ⟨id, len, h⟩
  obtain ⟨t1, t2, t3⟩ := display_trimmed d
  have hplain : ∀ p ∈ shownParts d, PlainWord p.2.1 := fun p hp => displayList_plain d p (shownParts_mem hp).1
  cases hneg : d.isNegative with
  | true =>
    refine ⟨.negativeNumber, (C92_error nanos' u id len hu d.display d.display t1 t2 max hm _).2 ⟨t3, .other .negativeNumber, ?_, rfl⟩, fun _ => rfl⟩
    have hd : d.display = b! "-" ++ Duration.join (b! " -") ((shownParts d).map Part.text) := by
      unfold Duration.display
      rw [if_neg hz', hneg, if_pos rfl, displayParts_list]
      rfl
    obtain ⟨p, l, e⟩ := List.exists_cons_of_ne_nil (shownParts_ne d hz')
    rw [hd, e]
    have hp : p ∈ shownParts d := by rw [e]; simp
    exact parts_negative ((by decide : ∀ q ∈ documentedUnits, 0 < q.2.2) _ hu) (by cases nanos' <;> decide) p l (hplain p hp)
      (shownParts_mem hp).2
  | false =>
    have hd : d.display = Duration.join (b! " ") ((shownParts d).map Part.text) := by
      unfold Duration.display
      rw [if_neg hz', hneg, if_neg (by decide), displayParts_list]
      rfl
    have hbad : ∃ p ∈ shownParts d, ¬ ∃ len, UnitIn (documentedOf nanos') p.2.1 len := by
      rcases h with h | h | ⟨rfl, h⟩
      · rw [hneg] at h; cases h
      · refine ⟨(d.inner.nanos % 1000000 / 1000, b! "Ms", 1000), ?_, ?_⟩
        · unfold shownParts
          refine List.mem_filter.2 ⟨by unfold displayList; simp, ?_⟩
          have : 0 < d.inner.nanos % 1000000 / 1000 := by omega
          simpa using this
        · rintro ⟨len, ids, g1, g2⟩
          revert g2 g1
          have key : ∀ q ∈ documentedOf nanos', b! "Ms" ∉ q.1 := by cases nanos' <;> decide
          exact fun g1 g2 => key _ g1 g2
      · refine ⟨(d.inner.nanos % 1000000 % 1000 / 1, b! "ns", 1), ?_, ?_⟩
        · unfold shownParts
          refine List.mem_filter.2 ⟨by unfold displayList; simp, ?_⟩
          have : 0 < d.inner.nanos % 1000000 % 1000 / 1 := by omega
          exact decide_eq_true this
        · rintro ⟨len, ids, g1, g2⟩
          exact (by decide : ∀ q ∈ documentedOf false, b! "ns" ∉ q.1) _ g1 g2
    obtain ⟨f, hf⟩ := parts_mistake (table := documentedOf nanos') (default := len) _ hplain hbad
    rw [← hd] at hf
    exact ⟨_, (C92_error nanos' u id len hu d.display d.display t1 t2 max hm _).2 ⟨t3, f, hf, rfl⟩, fun h => by cases h⟩

/-- C98: the `Display` of zero is `0ns`, which only the functions with nanosecond units read. -/
theorem C98_display_zero (u : TimeUnit) (max : Duration) (hw : max.WF) (hm : max.isNegative = false) (d : Duration) (hz : d.isZero = true) :
    (∃ e, parseMax true (TimeSpanParser.withDefaultUnit u) d.display max = .ok e ∧ nanos e = 0) ∧
      ∃ e, parseMax false (TimeSpanParser.withDefaultUnit u) d.display max = fail e := by
  have e : d.display = b! "0ns" := by unfold Duration.display; rw [if_pos hz]
  obtain ⟨id, len, hu⟩ : ∃ id len, (u, id, len) ∈ documentedUnits := by
    have h : ∃ p ∈ documentedUnits, p.1 = u := by cases u <;> decide
    obtain ⟨⟨v, id, len⟩, h, rfl⟩ := h
    exact ⟨id, len, h⟩
  have ht : Trimmed (b! "0ns") (b! "0ns") := ⟨[], [], rfl, by decide, by decide, by decide, by decide⟩
  rw [e]
  constructor
  · have hs : Spans (systemdFormat true) (b! "0ns") [(false, (decimal (b! "0") : Int) * (1 : Nat))] :=
      Spans.last (sign := []) (Or.inl ⟨rfl, rfl⟩) (SpanText.number (W := b! "0") (gap := []) (by decide) (by decide) (by simp) (Or.inl rfl)
        (unitIn_of (by decide)))
    obtain ⟨e, h1, h2⟩ := C58_spans true u (b! "0ns") (b! "0ns") (isText_ascii (by decide)) ht _ hs (by decide) max hw hm
    refine ⟨e, h1, ?_⟩
    have : 0 ≤ nanos max := by
      unfold nanos; rw [hm]; simp only [Bool.false_eq_true, if_false]; omega
    rw [h2]
    have : (([(false, (decimal (b! "0") : Int) * (1 : Nat))] : List (Bool × Int)).map Prod.snd).sum = 0 := by decide
    rw [this]
    omega
  · obtain ⟨f, hf⟩ := parts_mistake (table := documentedOf false) (default := len) [(0, b! "ns", 1)]
      (by
        intro p hp
        rw [List.mem_singleton] at hp
        rw [hp]
        have : b! "ns" ≠ [] ∧ (∀ b ∈ b! "ns", ¬ (PosixSpace b ∨ NextDuration b)) ∧ ∀ b ∈ (b! "ns").head?, b ≠ 46 ∧ ¬ (b = 101 ∨ b = 69) := by
          decide
        exact this)
      ⟨_, List.mem_singleton.2 rfl, by
        rintro ⟨len, ids, g1, g2⟩
        exact (by decide : ∀ q ∈ documentedOf false, b! "ns" ∉ q.1) _ g1 g2⟩
    exact ⟨_, (C92_error false u id len hu (b! "0ns") (b! "0ns") (isText_ascii (by decide)) ht max hm _).2 ⟨by decide, f, hf, rfl⟩⟩

/-! ## Concrete cases -/

example : (⟨false, ⟨3661, 5000007⟩⟩ : Duration).display = b! "1h 1m 1s 5ms 7ns" ∧
    ∃ e, parseMax true TimeSpanParser.new (b! "1h 1m 1s 5ms 7ns") Systemd.SYSTEMD_MAX_NANOS_DURATION = .ok e ∧ nanos e = 3661005000007 := by
  have hd : (⟨false, ⟨3661, 5000007⟩⟩ : Duration).display = b! "1h 1m 1s 5ms 7ns" := by decide +kernel
  refine ⟨hd, ?_⟩
  have := C98_display true .second Systemd.SYSTEMD_MAX_NANOS_DURATION (by decide) rfl ⟨false, ⟨3661, 5000007⟩⟩ rfl rfl (by decide) (Or.inl rfl)
  rw [hd] at this
  exact this

/-- `1s 2Ms` cannot be read by fundu-systemd, whose microseconds are `us` and `usec` -/
example : (⟨false, ⟨1, 2000⟩⟩ : Duration).display = b! "1s 2Ms" ∧
    ∃ e, parseMax true TimeSpanParser.new (b! "1s 2Ms") Systemd.SYSTEMD_MAX_NANOS_DURATION = fail e := by
  have hd : (⟨false, ⟨1, 2000⟩⟩ : Duration).display = b! "1s 2Ms" := by decide +kernel
  refine ⟨hd, ?_⟩
  obtain ⟨e, h, -⟩ := C98_display_rejected true .second Systemd.SYSTEMD_MAX_NANOS_DURATION rfl ⟨false, ⟨1, 2000⟩⟩ rfl (Or.inr (Or.inl (by decide)))
  rw [hd] at h
  exact ⟨e, h⟩

example : parseMax false (TimeSpanParser.withDefaultUnit .hour) (b! "03661.000000002 sec") Systemd.SYSTEMD_MAX_MICRO_DURATION =
    .ok ⟨false, ⟨3661, 2⟩⟩ :=
  C98_seconds false .hour _ (by decide) rfl _ (by decide) rfl (by decide) (b! "03661.000000002") (b! " ") (b! "sec")
    ⟨b! "03661", b! "000000002", rfl, by decide, by decide, by decide, rfl, by decide, by decide⟩ (by decide) (Or.inl (by decide))

end Fundu.Props
