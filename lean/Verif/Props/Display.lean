import Verif.Props.Systemd
/-!
# Property C06: the display of a duration parses back to the same duration
-/
namespace Fundu.Props
open Fundu Fundu.Spec

theorem decDigitsAux_spec (fuel n : Nat) (acc : Bytes) (h : n < fuel) :
    ∃ D, Duration.decDigitsAux fuel n acc = D ++ acc ∧ AllDigits D ∧ D ≠ [] ∧ decimal D = n := by
  induction fuel generalizing n acc with
  | zero => omega
  | succ fuel ih =>
    have hb : (UInt8.ofNat (48 + n % 10)).toNat = 48 + n % 10 := by
      rw [UInt8.toNat_ofNat']; omega
    have hd : IsDigit (UInt8.ofNat (48 + n % 10)) := by
      unfold IsDigit; rw [hb]; omega
    unfold Duration.decDigitsAux
    by_cases h0 : n / 10 = 0
    · refine ⟨[UInt8.ofNat (48 + n % 10)], ?_, ?_, by simp, ?_⟩
      · simp only [if_pos h0]; rfl
      · intro b hb; rw [List.mem_singleton] at hb; rw [hb]; exact hd
      · simp only [decimal, hb, List.length_nil]; omega
    · simp only [if_neg h0]
      obtain ⟨D, h1, h2, h3, h4⟩ := ih (n / 10) (UInt8.ofNat (48 + n % 10) :: acc) (by omega)
      refine ⟨D ++ [UInt8.ofNat (48 + n % 10)], by rw [h1]; simp, ?_, by simp, ?_⟩
      · intro b hb
        rcases List.mem_append.1 hb with hb | hb
        · exact h2 b hb
        · rw [List.mem_singleton] at hb; rw [hb]; exact hd
      · rw [decimal_append, h4]
        simp only [decimal, hb, List.length_cons, List.length_nil]
        omega

theorem decDigits_spec (n : Nat) : AllDigits (Duration.decDigits n) ∧ Duration.decDigits n ≠ [] ∧
    decimal (Duration.decDigits n) = n := by
  obtain ⟨D, h1, h2, h3, h4⟩ := decDigitsAux_spec (n + 1) n [] (by omega)
  unfold Duration.decDigits
  rw [h1, List.append_nil]
  exact ⟨h2, h3, h4⟩

/-- a part of the display: number, identifier and length of the unit -/
abbrev Part := Nat × Bytes × Nat

/-- the text of a part -/
def Part.text (p : Part) : Bytes := Duration.decDigits p.1 ++ p.2.1

/-- the nanoseconds of a part -/
def Part.value (p : Part) : Nat := p.1 * p.2.2

/-- the parts pushed so far together with the value left (in units of `base` nanoseconds) are the total -/
def PartsOf (total base : Nat) (st : Nat × List Bytes) : Prop :=
  ∃ l : List Part, st.2 = l.map Part.text ∧ (∀ p ∈ l, ∃ u, (u, p.2.1, p.2.2) ∈ documentedUnits) ∧
    (l.map Part.value).sum + base * st.1 = total

theorem displayStep_parts {total base unit : Nat} {id : Bytes} {st : Nat × List Bytes} (h : PartsOf total base st)
    (hu : ∃ u, (u, id, base * unit) ∈ documentedUnits) : PartsOf total base (Duration.displayStep unit id st) := by
  obtain ⟨l, h1, h2, h3⟩ := h
  unfold Duration.displayStep
  by_cases hle : unit ≤ st.1
  · rw [if_pos hle]
    refine ⟨l ++ [(st.1 / unit, id, base * unit)], ?_, ?_, ?_⟩
    · show st.2 ++ _ = _
      rw [h1, List.map_append]; rfl
    · intro p hp
      rcases List.mem_append.1 hp with hp | hp
      · exact h2 p hp
      · rw [List.mem_singleton] at hp; rw [hp]; exact hu
    · rw [List.map_append, List.sum_append, List.map_singleton, List.sum_singleton]
      show _ + st.1 / unit * (base * unit) + base * (st.1 % unit) = total
      rw [← h3, Nat.add_assoc]
      congr 1
      have e := Nat.div_add_mod st.1 unit
      generalize st.1 / unit = q at *
      generalize st.1 % unit = r at *
      rw [← e]
      ring
  · rw [if_neg hle]
    exact ⟨l, h1, h2, h3⟩

theorem displayStep_one {id : Bytes} {st : Nat × List Bytes} : (Duration.displayStep 1 id st).1 = 0 := by
  unfold Duration.displayStep
  by_cases h : 1 ≤ st.1
  · rw [if_pos h]; exact Nat.mod_one _
  · rw [if_neg h]; omega

/-- the parts of the display add up to the absolute value of the duration -/
theorem displayParts_spec (d : Duration) : ∃ l : List Part, d.displayParts = l.map Part.text ∧
    (∀ p ∈ l, ∃ u, (u, p.2.1, p.2.2) ∈ documentedUnits) ∧
    (l.map Part.value).sum = d.inner.secs * 1000000000 + d.inner.nanos := by
  have start : PartsOf (1000000000 * d.inner.secs) 1000000000 (d.inner.secs, []) := ⟨[], rfl, by simp, by simp⟩
  have h := displayStep_parts (unit := 1) (id := b! "s") (displayStep_parts (unit := 60) (id := b! "m")
    (displayStep_parts (unit := 3600) (id := b! "h") (displayStep_parts (unit := 86400) (id := b! "d")
    (displayStep_parts (unit := 604800) (id := b! "w") (displayStep_parts (unit := 2629800) (id := b! "M")
    (displayStep_parts (unit := 31557600) (id := b! "y") start ⟨.year, by decide⟩) ⟨.month, by decide⟩)
    ⟨.week, by decide⟩) ⟨.day, by decide⟩) ⟨.hour, by decide⟩) ⟨.minute, by decide⟩) ⟨.second, by decide⟩
  obtain ⟨l, h1, h2, h3⟩ := h
  rw [displayStep_one, Nat.mul_zero, Nat.add_zero] at h3
  have start2 : PartsOf (1000000000 * d.inner.secs + d.inner.nanos) 1 (d.inner.nanos, l.map Part.text) :=
    ⟨l, rfl, h2, by rw [h3]; omega⟩
  have h' := displayStep_parts (unit := 1) (id := b! "ns") (displayStep_parts (unit := 1000) (id := b! "Ms")
    (displayStep_parts (unit := 1000000) (id := b! "ms") start2 ⟨.milliSecond, by decide⟩) ⟨.microSecond, by decide⟩)
    ⟨.nanoSecond, by decide⟩
  obtain ⟨l', g1, g2, g3⟩ := h'
  rw [displayStep_one, Nat.mul_zero, Nat.add_zero] at g3
  refine ⟨l', ?_, g2, by rw [g3, Nat.mul_comm]⟩
  rw [← g1]
  unfold Duration.displayParts
  rw [← h1]

/-- the parser of C06: all time units, multiple durations, negative durations -/
def displayParser : DurationParser := (DurationParser.withAllTimeUnits.parseMultiple true none).allowNegative true

/-- how durations are displayed -/
def displayFormat : SpanFormat where
  ids := fun id len => ∃ u, (u, id, len) ∈ documentedUnits
  space := fun b => isAsciiWhitespace b = true
  gaps := False
  bare := False
  fractions := True

theorem asciiWhitespace_cases {b : UInt8} (h : isAsciiWhitespace b = true) : b = 32 ∨ b = 9 ∨ b = 10 ∨ b = 12 ∨ b = 13 := by
  unfold isAsciiWhitespace at h
  simpa [or_assoc] using h

theorem all_units : DurationParser.withAllTimeUnits.timeUnits = (DurationParser.withTimeUnits TimeUnits.withAllTimeUnits.getTimeUnits).timeUnits := by
  decide +kernel

theorem display_get {u : TimeUnit} {id : Bytes} {len : Nat} (h : (u, id, len) ∈ documentedUnits) :
    displayParser.timeUnits.like.get id = some (u, ⟨1, 0⟩) := by
  show DurationParser.withAllTimeUnits.timeUnits.like.get id = _
  rw [all_units]
  exact (C34_get _ id _).2 ⟨u, by cases u <;> decide, (documented_id h).2.2.1, rfl⟩

theorem display_formatOk : FormatOk displayParser.config displayParser.timeUnits.like none displayFormat where
  inner _ := Iff.rfl
  outer _ := Iff.rfl
  spaces := by
    intro b h
    rcases asciiWhitespace_cases h with rfl | rfl | rfl | rfl | rfl <;> refine ⟨?_, by decide, by decide, by decide⟩ <;>
      rintro (h | h) <;> revert h <;> decide
  gaps h := h.elim
  bare h := h.elim
  fraction := fun _ => rfl
  nonempty := by decide +kernel
  ids := by
    rintro id len ⟨u, h⟩
    refine ⟨u, ⟨1, 0⟩, display_get h, ?_, documented_length h⟩
    cases u <;> decide
  idText := by
    rintro id len ⟨u, h⟩
    have : ∀ p ∈ documentedUnits, p.2.1 ≠ [] ∧
        (∀ b ∈ p.2.1, ¬ isAsciiWhitespace b = true ∧ ¬ (IsDigit b ∨ b = 43 ∨ b = 45)) ∧
        ∀ b ∈ p.2.1.head?, b ≠ 46 ∧ b ≠ 101 ∧ b ≠ 69 ∧ lower b ≠ 105 ∧ lower b ≠ 97 := by decide +kernel
    exact this _ h
  keywords h := h.elim

/-- the joined parts are a sequence of amounts -/
theorem join_spans {sign : Bytes} {neg : Bool} (hs : SignText sign neg) (l : List Part) (hne : l ≠ [])
    (h : ∀ p ∈ l, ∃ u, (u, p.2.1, p.2.2) ∈ documentedUnits) :
    Spans displayFormat (sign ++ Duration.join (b! " " ++ sign) (l.map Part.text))
      (l.map fun p => (neg, (Part.value p : Int))) := by
  have one : ∀ p : Part, (∃ u, (u, p.2.1, p.2.2) ∈ documentedUnits) → SpanText displayFormat (Part.text p) (Part.value p : Int) := by
    intro p hp
    obtain ⟨h1, h2, h3⟩ := decDigits_spec p.1
    have := SpanText.number (f := displayFormat) (gap := []) h1 h2 (by simp) (Or.inl rfl) hp
    rw [h3] at this
    have e : (Part.value p : Int) = (p.1 : Int) * (p.2.2 : Int) := by unfold Part.value; push_cast; rfl
    rw [e]
    exact this
  induction l with
  | nil => exact absurd rfl hne
  | cons p l ih =>
    cases l with
    | nil => exact .last hs (one p (h p (by simp)))
    | cons q l =>
      have ih' := ih (by simp) (fun r hr => h r (by simp [hr]))
      have := Spans.more (gap := b! " ") hs (one p (h p (by simp))) (by intro b hb; rw [List.mem_singleton] at hb; rw [hb]; rfl)
        (Or.inl (by simp)) ih'
      have e : sign ++ Duration.join (b! " " ++ sign) ((p :: q :: l).map Part.text) =
          sign ++ (Part.text p ++ (b! " " ++ (sign ++ Duration.join (b! " " ++ sign) ((q :: l).map Part.text)))) := by
        simp only [List.map_cons, Duration.join, List.append_assoc]
      rw [e]
      exact this

/-- the durations of amounts, for a parser which allows negative ones -/
theorem spans_values_signed {cfg : Config} (ha : cfg.allowNegative = true) {items : List (Bool × Item)} {l : List (Bool × Int)}
    (h : List.Forall₂ (fun i p => i.1 = p.1 ∧ ItemIs cfg i p.2) items l) (hn : ∀ p ∈ l, p.2 ≤ maxNanos) :
    ∃ ds, List.Forall₂ (fun i d => Accepted cfg i.1 i.2 d) items ds ∧ ds.map nanos = l.map signedAmount := by
  induction h with
  | nil => exact ⟨[], .nil, rfl⟩
  | cons h1 _ ih =>
    rename_i i p items l _
    obtain ⟨ds, k1, k2⟩ := ih (fun q hq => hn q (by simp [hq]))
    obtain ⟨h1, d, g1, g2, g3, g4⟩ := h1
    refine ⟨d :: ds, .cons ⟨g1, Or.inl ha⟩ k1, ?_⟩
    rw [List.map_cons, List.map_cons, k2, g2, h1, min_eq_right (hn p (by simp))]
    unfold signedAmount
    congr 1
    cases p.1 <;> simp

theorem sum_signed (neg : Bool) (l : List Nat) :
    (l.map fun x : Nat => signedAmount (neg, (x : Int))).sum = (if neg then -1 else 1) * (l.sum : Int) := by
  induction l with
  | nil => simp
  | cons x l ih =>
    rw [List.map_cons, List.sum_cons, ih, List.sum_cons]
    unfold signedAmount
    cases neg <;> simp <;> omega

theorem sum_take_le (l : List Nat) (k : Nat) : (l.take k).sum ≤ l.sum := by
  induction l generalizing k with
  | nil => simp
  | cons x l ih =>
    cases k with
    | zero => simp
    | succ k => rw [List.take_succ_cons, List.sum_cons, List.sum_cons]; have := ih k; omega

theorem mem_le_sum (l : List Nat) : ∀ x ∈ l, x ≤ l.sum := by
  induction l with
  | nil => simp
  | cons y l ih =>
    intro x hx
    rw [List.sum_cons]
    rcases List.mem_cons.1 hx with rfl | hx
    · omega
    · have := ih x hx; omega

theorem displayParser_text : CfgText displayParser.config :=
  ⟨defaultConfig_text.inner, defaultConfig_text.outer, by intro ws h; cases h⟩

theorem parts_text {sign : Bytes} {neg : Bool} (hs : SignText sign neg) (l : List Part)
    (h : ∀ p ∈ l, ∃ u, (u, p.2.1, p.2.2) ∈ documentedUnits) :
    ∀ b ∈ Duration.join (b! " " ++ sign) (l.map Part.text), b.toNat < 128 := by
  have one : ∀ p ∈ l, ∀ b ∈ Part.text p, b.toNat < 128 := by
    intro p hp b hb
    rcases List.mem_append.1 hb with hb | hb
    · exact digit_ascii ((decDigits_spec p.1).1 b hb)
    · obtain ⟨u, hu⟩ := h p hp
      exact (documented_id hu).1 b hb
  clear h
  induction l with
  | nil => intro b hb; cases hb
  | cons p l ih =>
    cases l with
    | nil => exact one p (by simp)
    | cons q l =>
      intro b hb
      simp only [List.map_cons, Duration.join, List.append_assoc] at hb
      rcases List.mem_append.1 hb with hb | hb
      · exact one p (by simp) b hb
      rcases List.mem_append.1 hb with hb | hb
      · rw [List.mem_singleton] at hb; rw [hb]; decide
      rcases List.mem_append.1 hb with hb | hb
      · exact signText_ascii hs b hb
      · exact ih (fun r hr => one r (by simp [hr])) b hb

/-- the text of a sign and parts is parsed to their sum -/
theorem parse_parts {sign : Bytes} {neg : Bool} (hs : SignText sign neg) (l : List Part) (hne : l ≠ [])
    (h : ∀ p ∈ l, ∃ u, (u, p.2.1, p.2.2) ∈ documentedUnits) (hmax : ((l.map Part.value).sum : Int) ≤ maxNanos) :
    ∃ d, displayParser.parse (sign ++ Duration.join (b! " " ++ sign) (l.map Part.text)) = .ok d ∧ d.WF ∧
      nanos d = (if neg then -1 else 1) * ((l.map Part.value).sum : Int) := by
  have htext : IsText (sign ++ Duration.join (b! " " ++ sign) (l.map Part.text)) := by
    refine isText_ascii fun b hb => ?_
    rcases List.mem_append.1 hb with hb | hb
    · exact signText_ascii hs b hb
    · exact parts_text hs l h b hb
  obtain ⟨items, g1, g2⟩ := spans_durations (numerals := none) display_formatOk rfl (join_spans hs l hne h)
  obtain ⟨ds, k1, k2⟩ := spans_values_signed (rfl : displayParser.config.allowNegative = true) g2 (by
    intro p hp
    obtain ⟨q, hq, rfl⟩ := List.mem_map.1 hp
    have := mem_le_sum (l.map Part.value) _ (List.mem_map.2 ⟨q, hq, rfl⟩)
    show (Part.value q : Int) ≤ maxNanos
    omega)
  have k3 : ds.map nanos = (l.map Part.value).map fun x : Nat => signedAmount (neg, (x : Int)) := by
    rw [k2, List.map_map, List.map_map]; rfl
  obtain ⟨d, q1, q2, q3⟩ := C29_exact displayParser.config displayParser.timeUnits.like none none _ htext
    displayParser_text rfl (Or.inr ⟨rfl, rfl⟩) ds ⟨items, g1, k1⟩ (by
      intro k _
      rw [k3, ← List.map_take, sum_signed]
      have := sum_take_le (l.map Part.value) k
      unfold Representable
      cases neg <;> simp only [Bool.false_eq_true, if_false, if_true] <;> constructor <;> omega)
  refine ⟨d, q1, q2, ?_⟩
  rw [q3, k3, sum_signed]

/-- C06: for every duration, parsing its display gives an equal duration. -/
theorem C06_display_parse (d : Duration) (h : d.WF) :
    ∃ d', displayParser.parse d.display = .ok d' ∧ d'.WF ∧ nanos d' = nanos d ∧ d'.eq d = true := by
  suffices hx : ∃ d', displayParser.parse d.display = .ok d' ∧ d'.WF ∧ nanos d' = nanos d by
    obtain ⟨d', h1, h2, h3⟩ := hx
    exact ⟨d', h1, h2, h3, (C01_eq_iff d' d h2 h).2 h3⟩
  have hn := nanos_eq d
  by_cases hz : d.isZero = true
  · unfold Duration.display
    rw [if_pos hz]
    refine ⟨⟨false, ⟨0, 0⟩⟩, by decide +kernel, by decide, ?_⟩
    have h1 : d.inner.secs = 0 ∧ d.inner.nanos = 0 := by
      unfold Duration.isZero StdDuration.isZero at hz
      simpa using hz
    unfold nanos
    rw [h1.1, h1.2]
    cases d.isNegative <;> rfl
  · obtain ⟨l, h1, h2, h3⟩ := displayParts_spec d
    have hpos : 0 < d.inner.secs * 1000000000 + d.inner.nanos := by
      unfold Duration.isZero StdDuration.isZero at hz
      rcases Nat.eq_zero_or_pos (d.inner.secs * 1000000000 + d.inner.nanos) with h0 | h0
      · exfalso
        apply hz
        have : d.inner.secs = 0 ∧ d.inner.nanos = 0 := by omega
        simp [this.1, this.2]
      · exact h0
    have hne : l ≠ [] := by
      rintro rfl
      simp at h3
      omega
    have hmax : ((l.map Part.value).sum : Int) ≤ maxNanos := by
      rw [h3]
      have := stdNanos_le d.inner h
      unfold stdNanos at this
      push_cast
      exact this
    unfold Duration.display
    rw [if_neg hz, h1]
    cases hneg : d.isNegative with
    | true =>
      simp only [if_true]
      obtain ⟨d', q1, q2, q3⟩ := parse_parts (sign := b! "-") (neg := true) (Or.inr (Or.inr ⟨rfl, rfl⟩)) l hne h2 hmax
      refine ⟨d', q1, q2, ?_⟩
      rw [q3, h3, nanos_eq, hneg]
      unfold stdNanos
      simp
    | false =>
      simp only [Bool.false_eq_true, if_false]
      obtain ⟨d', q1, q2, q3⟩ := parse_parts (sign := []) (neg := false) (Or.inl ⟨rfl, rfl⟩) l hne h2 hmax
      refine ⟨d', q1, q2, ?_⟩
      rw [q3, h3, nanos_eq, hneg]
      unfold stdNanos
      simp

example : (⟨true, ⟨31557600 + 3661, 1002003⟩⟩ : Duration).display = b! "-1y -1h -1m -1s -1ms -2Ms -3ns" ∧
    displayParser.parse (b! "-1y -1h -1m -1s -1ms -2Ms -3ns") = .ok ⟨true, ⟨31557600 + 3661, 1002003⟩⟩ := by decide +kernel

end Fundu.Props
