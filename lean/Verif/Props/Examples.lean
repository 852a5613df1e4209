import Verif.Model.Examples
import Verif.Props.Sentences
import Verif.Props.Display
import Verif.Props.Systemd
import Verif.Props.Exact
/-!
# Property C85: what the example programs print
-/
namespace Fundu.Props
open Fundu Fundu.Spec
open Fundu.Systemd (TimeSpanParser)

/-! ## texts of parts -/

/-- the parts pushed so far together with the value left (in units of `base` nanoseconds) are the total -/
def PartsWith (ids : Bytes → Nat → Prop) (total base : Nat) (st : Nat × List Bytes) : Prop :=
  ∃ l : List Part, st.2 = l.map Part.text ∧ (∀ p ∈ l, ids p.2.1 p.2.2) ∧ (l.map Part.value).sum + base * st.1 = total

theorem partsWith_push {ids : Bytes → Nat → Prop} {total base unit : Nat} {id : Bytes} {st : Nat × List Bytes}
    (h : PartsWith ids total base st) (hu : ids id (base * unit)) :
    PartsWith ids total base (st.1 % unit, st.2 ++ [Duration.decDigits (st.1 / unit) ++ id]) := by
  obtain ⟨l, h1, h2, h3⟩ := h
  refine ⟨l ++ [(st.1 / unit, id, base * unit)], ?_, ?_, ?_⟩
  · show st.2 ++ _ = _
    rw [h1, List.map_append]; rfl
  · intro p hp
    rcases List.mem_append.1 hp with hp | hp
    · exact h2 p hp
    · rw [List.mem_singleton] at hp; rw [hp]; exact hu
  · rw [List.map_append, List.sum_append, List.map_singleton, List.sum_singleton]
    show _ + st.1 / unit * (base * unit) + base * (st.1 % unit) = total
    rw [← h3, Nat.add_assoc]
    congr 1
    have e := Nat.div_add_mod st.1 unit
    generalize st.1 / unit = q at *
    generalize st.1 % unit = r at *
    rw [← e]
    ring

theorem partsWith_step {ids : Bytes → Nat → Prop} {total base unit : Nat} {id : Bytes} {st : Nat × List Bytes}
    (h : PartsWith ids total base st) (hu : ids id (base * unit)) :
    PartsWith ids total base (Duration.displayStep unit id st) := by
  unfold Duration.displayStep
  by_cases hle : unit ≤ st.1
  · rw [if_pos hle]; exact partsWith_push h hu
  · rw [if_neg hle]; exact h

/-- the joined parts are a sequence of amounts -/
theorem joined_spans {f : SpanFormat} (hsp : f.space 32) {sign : Bytes} {neg : Bool} (hs : SignText sign neg) (l : List Part) (hne : l ≠ [])
    (h : ∀ p ∈ l, f.ids p.2.1 p.2.2) :
    Spans f (sign ++ Duration.join (b! " " ++ sign) (l.map Part.text)) (l.map fun p => (neg, (Part.value p : Int))) := by
  have one : ∀ p : Part, f.ids p.2.1 p.2.2 → SpanText f (Part.text p) (Part.value p : Int) := by
    intro p hp
    obtain ⟨h1, h2, h3⟩ := decDigits_spec p.1
    have := SpanText.number (f := f) (gap := []) h1 h2 (by simp) (Or.inl rfl) hp
    rw [h3] at this
    have e : (Part.value p : Int) = (p.1 : Int) * (p.2.2 : Int) := by unfold Part.value; push_cast; rfl
    rw [e]
    exact this
  induction l with
  | nil => exact absurd rfl hne
  | cons p l ih =>
    cases l with
    | nil => exact .last hs (one p (h p (by simp)))
    | cons q l =>
      have ih' := ih (by simp) (fun r hr => h r (by simp [hr]))
      have := Spans.more (gap := b! " ") hs (one p (h p (by simp))) (by intro b hb; rw [List.mem_singleton] at hb; rw [hb]; exact hsp)
        (Or.inl (by simp)) ih'
      have e : sign ++ Duration.join (b! " " ++ sign) ((p :: q :: l).map Part.text) =
          sign ++ (Part.text p ++ (b! " " ++ (sign ++ Duration.join (b! " " ++ sign) ((q :: l).map Part.text)))) := by
        simp only [List.map_cons, Duration.join, List.append_assoc]
      rw [e]
      exact this

theorem joined_ascii {sign : Bytes} {neg : Bool} (hs : SignText sign neg) (l : List Part)
    (h : ∀ p ∈ l, ∀ b ∈ p.2.1, b.toNat < 128) :
    ∀ b ∈ Duration.join (b! " " ++ sign) (l.map Part.text), b.toNat < 128 := by
  have one : ∀ p ∈ l, ∀ b ∈ Part.text p, b.toNat < 128 := by
    intro p hp b hb
    rcases List.mem_append.1 hb with hb | hb
    · exact digit_ascii ((decDigits_spec p.1).1 b hb)
    · exact h p hp b hb
  clear h
  induction l with
  | nil => intro b hb; cases hb
  | cons p l ih =>
    cases l with
    | nil => exact one p (by simp)
    | cons q l =>
      intro b hb
      simp only [List.map_cons, Duration.join, List.append_assoc] at hb
      rcases List.mem_append.1 hb with hb | hb
      · exact one p (by simp) b hb
      rcases List.mem_append.1 hb with hb | hb
      · rw [List.mem_singleton] at hb; rw [hb]; decide
      rcases List.mem_append.1 hb with hb | hb
      · exact signText_ascii hs b hb
      · exact ih (fun r hr => one r (by simp [hr])) b hb

theorem joined_text {sign : Bytes} {neg : Bool} (hs : SignText sign neg) (l : List Part)
    (h : ∀ p ∈ l, ∀ b ∈ p.2.1, b.toNat < 128) : IsText (sign ++ Duration.join (b! " " ++ sign) (l.map Part.text)) := by
  refine isText_ascii fun b hb => ?_
  rcases List.mem_append.1 hb with hb | hb
  · exact signText_ascii hs b hb
  · exact joined_ascii hs l h b hb

/-- the text of a sign and parts is parsed to their sum, by any parser of several durations which can read the format -/
theorem parse_partList {cfg : Config} {units : TimeUnitsLike} {keywords : Option TimeUnitsLike} {numerals : Option NumbersLike}
    {f : SpanFormat} (hf : FormatOk cfg units keywords f) (hc : CfgText cfg) (hm : cfg.allowMultiple = true)
    (hconj : cfg.conjunctions = none) (hsp : f.space 32) {sign : Bytes} {neg : Bool} (hs : SignText sign neg)
    (l : List Part) (hne : l ≠ []) (h : ∀ p ∈ l, f.ids p.2.1 p.2.2) (h' : ∀ p ∈ l, ∀ b ∈ p.2.1, b.toNat < 128)
    (ha : cfg.allowNegative = true ∨ neg = false) (hmax : ((l.map Part.value).sum : Int) ≤ maxNanos) :
    ∃ d, parse cfg units keywords numerals (sign ++ Duration.join (b! " " ++ sign) (l.map Part.text)) = .ok d ∧ d.WF ∧
      nanos d = (if neg then -1 else 1) * ((l.map Part.value).sum : Int) := by
  obtain ⟨items, g1, g2⟩ := spans_durations (numerals := numerals) hf hconj (joined_spans hsp hs l hne h)
  have hle : ∀ p ∈ l.map (fun p => (neg, (Part.value p : Int))), p.2 ≤ maxNanos := by
    intro p hp
    obtain ⟨q, hq, rfl⟩ := List.mem_map.1 hp
    have := mem_le_sum (l.map Part.value) _ (List.mem_map.2 ⟨q, hq, rfl⟩)
    show (Part.value q : Int) ≤ maxNanos
    omega
  have key : ∃ ds, List.Forall₂ (fun i d => Accepted cfg i.1 i.2 d) items ds ∧
      ds.map nanos = (l.map Part.value).map fun x : Nat => signedAmount (neg, (x : Int)) := by
    rcases ha with ha | ha
    · obtain ⟨ds, k1, k2⟩ := spans_values_signed ha g2 hle
      refine ⟨ds, k1, ?_⟩
      rw [k2, List.map_map, List.map_map]; rfl
    · subst ha
      obtain ⟨ds, k1, k2, k3⟩ := spans_values g2 (by
        intro p hp
        obtain ⟨q, hq, rfl⟩ := List.mem_map.1 hp
        rfl)
      refine ⟨ds, k1, ?_⟩
      rw [k2, List.map_map, List.map_map, List.map_map]
      refine List.map_congr_left fun p hp => ?_
      exact min_eq_right (hle _ (List.mem_map.2 ⟨p, hp, rfl⟩))
  obtain ⟨ds, k1, k3⟩ := key
  obtain ⟨d, q1, q2, q3⟩ := C29_exact cfg units keywords numerals _ (joined_text hs l h')
    hc hm (Or.inl fun b hb => (hf.outer b).1 ((hf.inner b).2 hb)) ds ⟨items, g1, k1⟩ (by
      intro k _
      rw [k3, ← List.map_take, sum_signed]
      have := sum_take_le (l.map Part.value) k
      unfold Representable
      cases neg <;> simp only [Bool.false_eq_true, if_false, if_true] <;> constructor <;> omega)
  refine ⟨d, q1, q2, ?_⟩
  rw [q3, k3, sum_signed]

/-- a way of writing amounts with the units of a list, without white space between number and unit -/
def listFormat (space : UInt8 → Prop) (table : List (TimeUnit × Bytes)) : SpanFormat where
  ids id len := ∃ u sid, (u, id) ∈ table ∧ (u, sid, len) ∈ documentedUnits
  space := space
  gaps := False
  bare := False
  fractions := False

/-- a parser can read it if its white space consists of the given characters and it knows the units -/
theorem listFormat_ok {cfg : Config} {units : TimeUnitsLike} {keywords : Option TimeUnitsLike} {space : UInt8 → Prop}
    {table : List (TimeUnit × Bytes)} (hi : ∀ b, space b ↔ cfg.innerDelimiter b = true)
    (ho : ∀ b, space b ↔ cfg.outerDelimiter b = true) (hs : ∀ b, space b → PosixSpace b) (hne : units.isEmpty = false)
    (hget : ∀ p ∈ table, units.get p.2 = some (p.1, ⟨1, 0⟩))
    (hid : ∀ p ∈ table, p.2 ≠ [] ∧ (∀ b ∈ p.2, ¬ PosixSpace b ∧ ¬ (IsDigit b ∨ b = 43 ∨ b = 45)) ∧
      ∀ b ∈ p.2.head?, b ≠ 46 ∧ b ≠ 101 ∧ b ≠ 69 ∧ lower b ≠ 105 ∧ lower b ≠ 97) :
    FormatOk cfg units keywords (listFormat space table) where
  inner := hi
  outer := ho
  spaces b h := by
    obtain ⟨h1, h2, h3, h4, -⟩ := posixSpace_facts (hs b h)
    exact ⟨h1, h2, h3, h4⟩
  gaps h := h.elim
  bare h := h.elim
  fraction h := h.elim
  nonempty := hne
  ids := by
    rintro id len ⟨u, sid, h1, h2⟩
    refine ⟨u, ⟨1, 0⟩, hget _ h1, ?_, documented_length h2⟩
    cases u <;> decide
  idText := by
    rintro id len ⟨u, sid, h1, h2⟩
    obtain ⟨k1, k2, k3⟩ := hid _ h1
    exact ⟨k1, fun b hb => ⟨fun h => (k2 b hb).1 (hs b h), (k2 b hb).2⟩, k3⟩
  keywords h := h.elim

/-! ## systemd.rs -/

/-- the identifiers which are printed -/
def systemdPrinted : List (TimeUnit × Bytes) := [(.year, b! "y"), (.month, b! "month"), (.week, b! "w"), (.day, b! "d"), (.hour, b! "h"),
  (.minute, b! "min"), (.second, b! "s"), (.milliSecond, b! "ms"), (.microSecond, b! "us"), (.nanoSecond, b! "ns")]

theorem systemdHuman_parts (d : StdDuration) (ids : Bytes → Nat → Prop)
    (hids : ∀ u id sid len, (u, id) ∈ systemdPrinted → (u, sid, len) ∈ documentedUnits → ids id len) :
    ∃ l : List Part, Examples.Systemd.humanParts d = l.map Part.text ∧ (∀ p ∈ l, ids p.2.1 p.2.2) ∧
    (l.map Part.value).sum = d.secs * 1000000000 + d.nanos := by
  have start : PartsWith ids (1000000000 * d.secs) 1000000000 (d.secs, []) := ⟨[], rfl, by simp, by simp⟩
  have h := partsWith_step (unit := 1) (id := b! "s") (partsWith_step (unit := 60) (id := b! "min")
    (partsWith_step (unit := 3600) (id := b! "h") (partsWith_step (unit := 86400) (id := b! "d")
    (partsWith_step (unit := 604800) (id := b! "w") (partsWith_step (unit := 2629800) (id := b! "month")
    (partsWith_step (unit := 31557600) (id := b! "y") start (hids .year _ (b! "y") _ (by decide) (by decide)))
    (hids .month _ (b! "M") _ (by decide) (by decide))) (hids .week _ (b! "w") _ (by decide) (by decide)))
    (hids .day _ (b! "d") _ (by decide) (by decide))) (hids .hour _ (b! "h") _ (by decide) (by decide)))
    (hids .minute _ (b! "m") _ (by decide) (by decide))) (hids .second _ (b! "s") _ (by decide) (by decide))
  obtain ⟨l, h1, h2, h3⟩ := h
  rw [displayStep_one, Nat.mul_zero, Nat.add_zero] at h3
  have start2 : PartsWith ids (1000000000 * d.secs + d.nanos) 1 (d.nanos, l.map Part.text) :=
    ⟨l, rfl, h2, by rw [h3]; omega⟩
  have h' := partsWith_step (unit := 1) (id := b! "ns") (partsWith_step (unit := 1000) (id := b! "us")
    (partsWith_step (unit := 1000000) (id := b! "ms") start2 (hids .milliSecond _ (b! "ms") _ (by decide) (by decide)))
    (hids .microSecond _ (b! "Ms") _ (by decide) (by decide))) (hids .nanoSecond _ (b! "ns") _ (by decide) (by decide))
  obtain ⟨l', g1, g2, g3⟩ := h'
  rw [displayStep_one, Nat.mul_zero, Nat.add_zero] at g3
  refine ⟨l', ?_, g2, by rw [g3, Nat.mul_comm]⟩
  rw [← g1]
  unfold Examples.Systemd.humanParts
  rw [← h1]

/-- the white space of the example -/
theorem exampleSystemd_space (b : UInt8) : Examples.Systemd.delimiter b = true → PosixSpace b := by
  unfold Examples.Systemd.delimiter PosixSpace
  simp only [Bool.or_eq_true, decide_eq_true_eq]
  tauto

theorem exampleSystemd_format : FormatOk Examples.Systemd.parser.config Examples.Systemd.parser.timeUnits.like none
    (listFormat (fun b => Examples.Systemd.delimiter b = true) systemdPrinted) :=
  listFormat_ok (fun _ => Iff.rfl) (fun _ => Iff.rfl) exampleSystemd_space (by decide +kernel) (by decide +kernel) (by decide +kernel)

theorem exampleSystemd_text : CfgText Examples.Systemd.parser.config where
  inner b h := by
    have : PosixSpace b := exampleSystemd_space b h
    rcases this with rfl | rfl | rfl | rfl | rfl | rfl <;> decide
  outer b h := by
    have : PosixSpace b := exampleSystemd_space b h
    rcases this with rfl | rfl | rfl | rfl | rfl | rfl <;> decide
  conjunctions := by intro ws h; cases h

theorem exampleSystemd_parse (s : Bytes) : Examples.Systemd.parser.parse s =
    parse Examples.Systemd.parser.config Examples.Systemd.parser.timeUnits.like none none s := rfl

theorem systemdPrinted_ascii : ∀ p ∈ systemdPrinted, ∀ b ∈ p.2, b.toNat < 128 := by decide

theorem parts_nonempty {x : StdDuration} (hz : ¬ x.isZero = true) {l : List Part}
    (h : (l.map Part.value).sum = x.secs * 1000000000 + x.nanos) : l ≠ [] := by
  rintro rfl
  apply hz
  unfold StdDuration.isZero
  simp only [List.map_nil, List.sum_nil] at h
  have : x.secs = 0 ∧ x.nanos = 0 := by omega
  simp [this.1, this.2]

theorem parts_max {x : StdDuration} (hx : x.WF) {l : List Part} (h : (l.map Part.value).sum = x.secs * 1000000000 + x.nanos) :
    ((l.map Part.value).sum : Int) ≤ maxNanos := by
  rw [h]
  have := stdNanos_le x hx
  unfold stdNanos at this
  push_cast
  exact this

theorem systemdHuman_text (x : StdDuration) : IsText (Examples.Systemd.makeHuman x) := by
  unfold Examples.Systemd.makeHuman
  by_cases hz : x.isZero = true
  · rw [if_pos hz]; exact isText_ascii (by decide)
  · obtain ⟨l, h1, h2, -⟩ := systemdHuman_parts x
      (listFormat PosixSpace systemdPrinted).ids (fun u id sid len a b => ⟨u, sid, a, b⟩)
    rw [if_neg hz, h1]
    exact joined_text (sign := []) (neg := false) (Or.inl ⟨rfl, rfl⟩) l (by
        rintro p hp
        obtain ⟨u, sid, h, -⟩ := h2 p hp
        exact systemdPrinted_ascii _ h)

theorem constructed_of {r : CustomTimeUnit} (h : IsI64 r.multiplier.coefficient ∧ IsI16 r.multiplier.exponent ∧
    (r.baseUnit.multiplier.checkedMul r.multiplier).isSome = true) :
    CustomTimeUnit.new r.baseUnit r.identifiers (some r.multiplier) = .ok r ∧ Constructed r := by
  have e : CustomTimeUnit.new r.baseUnit r.identifiers (some r.multiplier) = .ok r := by
    show (if _ then _ else _) = _
    rw [if_pos h.2.2]
  exact ⟨e, Or.inl ⟨_, _, some r.multiplier, by rintro q ⟨⟩; exact ⟨h.1, h.2.1⟩, e⟩⟩

theorem exampleSystemd_constructed : ∀ r ∈ SYSTEMD_TIME_UNITS, Constructed r := by
  have : ∀ r ∈ SYSTEMD_TIME_UNITS, IsI64 r.multiplier.coefficient ∧ IsI16 r.multiplier.exponent ∧
    (r.baseUnit.multiplier.checkedMul r.multiplier).isSome = true := by decide +kernel
  exact fun r hr => (constructed_of (this r hr)).2

/-- C85: the text `Human` which the systemd example prints for a duration is parsed by the parser of the example to exactly this
duration. -/
theorem C85_systemd_human (x : StdDuration) (hx : x.WF) :
    Examples.Systemd.parser.parse (Examples.Systemd.makeHuman x) = .ok ⟨false, x⟩ := by
  by_cases hz : x.isZero = true
  · unfold StdDuration.isZero at hz
    simp only [Bool.and_eq_true, decide_eq_true_eq] at hz
    obtain ⟨s, n⟩ := x
    obtain ⟨rfl, rfl⟩ := hz
    decide +kernel
  · obtain ⟨l, h1, h2, h3⟩ := systemdHuman_parts x
      (listFormat (fun b => Examples.Systemd.delimiter b = true) systemdPrinted).ids (fun u id sid len a b => ⟨u, sid, a, b⟩)
    unfold Examples.Systemd.makeHuman
    rw [if_neg hz, h1]
    obtain ⟨d, g1, g2, g3⟩ := parse_partList (numerals := none) exampleSystemd_format exampleSystemd_text rfl rfl rfl
      (sign := []) (neg := false) (Or.inl ⟨rfl, rfl⟩) l (parts_nonempty hz h3) h2
      (by
        rintro p hp
        obtain ⟨u, sid, h, -⟩ := h2 p hp
        exact systemdPrinted_ascii _ h)
      (Or.inr rfl) (parts_max hx h3)
    rw [exampleSystemd_parse]
    refine g1.trans (congrArg _ (Duration.eq_of g2 hx ?_ ?_))
    · rw [(C22_nonnegative _ _ _ _ _ d rfl g1).1]
    · rw [g3, h3]
      unfold nanos
      simp
/-- C85, systemd.rs: for every text the program prints the duration `x` of the text in whole microseconds, rounded down, and as
`Human`, or the error of the parser. It does not panic. -/
theorem C85_systemd_main (input : Bytes) (hs : IsText input) :
    (∃ x : StdDuration, x.WF ∧ Examples.Systemd.parser.parse input = .ok ⟨false, x⟩ ∧
      Examples.Systemd.main input = .ok ⟨(stdNanos x / 1000).toNat, Examples.Systemd.makeHuman x⟩) ∨
    (∃ e, Examples.Systemd.parser.parse input = fail e ∧ Examples.Systemd.main input = fail e) := by
  rcases C23_no_panic Examples.Systemd.parser.config Examples.Systemd.parser.timeUnits.like none none input hs exampleSystemd_text
    (custom_fits exampleSystemd_constructed) (by intro k h; cases h) (by intro k h; cases h) with ⟨d, h1, h2⟩ | ⟨e, h⟩
  · left
    obtain ⟨hn, -⟩ := C22_nonnegative _ _ _ _ _ d rfl h1
    obtain ⟨neg, x⟩ := d
    obtain rfl : neg = false := hn
    refine ⟨x, h2, h1, ?_⟩
    rw [← exampleSystemd_parse] at h1
    unfold Examples.Systemd.main
    rw [h1]
    have e1 : Duration.toStd ⟨false, x⟩ = .ok x := by
      unfold Duration.toStd
      simp
    have e2 : Examples.Systemd.asMicros x = (stdNanos x / 1000).toNat := by
      unfold Examples.Systemd.asMicros stdNanos
      omega
    rw [ok_bind, e1, ← e2]
    rfl
  · right
    refine ⟨e, h, ?_⟩
    rw [← exampleSystemd_parse] at h
    unfold Examples.Systemd.main
    rw [h]
    rfl

/-- C85, systemd.rs: running the program again with the text `Human` it has printed prints the same lines. -/
theorem C85_systemd_again (input : Bytes) (hs : IsText input) (out : Examples.Systemd.Output)
    (h : Examples.Systemd.main input = .ok out) : Examples.Systemd.main out.human = .ok out := by
  rcases C85_systemd_main input hs with ⟨x, hx, -, h2⟩ | ⟨e, -, h2⟩
  · rw [h] at h2
    cases h2
    have ht : IsText (Examples.Systemd.makeHuman x) := systemdHuman_text x
    have hp := C85_systemd_human x hx
    rcases C85_systemd_main _ ht with ⟨y, -, h3, h4⟩ | ⟨e, h3, -⟩
    · rw [hp] at h3
      cases h3
      exact h4
    · rw [hp] at h3; cases h3
  · rw [h] at h2; cases h2

theorem join_ends {P Q : UInt8 → Prop} {sep : Bytes} (l : List Bytes)
    (h : ∀ t ∈ l, t ≠ [] ∧ (∀ b, t.head? = some b → P b) ∧ ∀ b, t.getLast? = some b → Q b) :
    (∀ b, (Duration.join sep l).head? = some b → P b) ∧ ∀ b, (Duration.join sep l).getLast? = some b → Q b := by
  induction l with
  | nil => exact ⟨(by intro b h; cases h), (by intro b h; cases h)⟩
  | cons t l ih =>
    cases l with
    | nil => exact (h t (by simp)).2
    | cons u l =>
      obtain ⟨k1, k2, k3⟩ := h t (by simp)
      obtain ⟨i1, i2⟩ := ih (fun r hr => h r (by simp [hr]))
      have hne : Duration.join sep (u :: l) ≠ [] := by
        have hu := (h u (by simp)).1
        cases l with
        | nil => exact hu
        | cons v l => unfold Duration.join; simp [hu]
      constructor
      · intro b hb
        apply k2 b
        obtain ⟨a, t', rfl⟩ := List.exists_cons_of_ne_nil k1
        simpa [Duration.join] using hb
      · intro b hb
        apply i2 b
        rw [Duration.join, List.getLast?_append_of_ne_nil _ hne] at hb
        exact hb

theorem digit_not_space {b : UInt8} (h : IsDigit b) : ¬ PosixSpace b := by
  rintro (rfl | rfl | rfl | rfl | rfl | rfl) <;> revert h <;> decide

theorem systemdHuman_trimmed (x : StdDuration) : Trimmed (Examples.Systemd.makeHuman x) (Examples.Systemd.makeHuman x) ∧
    Examples.Systemd.makeHuman x ≠ b! "infinity" := by
  suffices h : (∀ b, (Examples.Systemd.makeHuman x).head? = some b → IsDigit b) ∧
      ∀ b, (Examples.Systemd.makeHuman x).getLast? = some b → ¬ PosixSpace b by
    refine ⟨⟨[], [], by simp, by simp, by simp, fun b hb => digit_not_space (h.1 b hb), h.2⟩, fun e => ?_⟩
    have := h.1 105 (by rw [e]; rfl)
    revert this
    decide
  unfold Examples.Systemd.makeHuman
  by_cases hz : x.isZero = true
  · rw [if_pos hz]
    constructor
    · rintro b ⟨⟩; decide
    · rintro b ⟨⟩; decide
  · obtain ⟨l, h1, h2, -⟩ := systemdHuman_parts x
      (listFormat PosixSpace systemdPrinted).ids (fun u id sid len a b => ⟨u, sid, a, b⟩)
    rw [if_neg hz, h1]
    refine join_ends _ fun t ht => ?_
    obtain ⟨p, hp, rfl⟩ := List.mem_map.1 ht
    obtain ⟨u, sid, h, -⟩ := h2 p hp
    obtain ⟨d1, d2, -⟩ := decDigits_spec p.1
    have hid : ∀ q ∈ systemdPrinted, q.2 ≠ [] ∧ ∀ b ∈ q.2.getLast?, ¬ PosixSpace b := by decide +kernel
    obtain ⟨i1, i2⟩ := hid _ h
    refine ⟨by unfold Part.text; simp [d2], fun b hb => ?_, fun b hb => ?_⟩
    · refine d1 b (List.mem_of_mem_head? (l := Duration.decDigits p.1) ?_)
      unfold Part.text at hb
      rwa [List.head?_append_of_ne_nil _ d2] at hb
    · unfold Part.text at hb
      rw [List.getLast?_append_of_ne_nil _ i1] at hb
      exact i2 b hb

theorem systemdCrate_format (u : TimeUnit) : FormatOk (TimeSpanParser.withDefaultUnit u).config (tableOf true) none
    (listFormat PosixSpace systemdPrinted) :=
  listFormat_ok (fun b => (systemd_delimiter b).symm) (fun b => (systemd_delimiter b).symm) (fun _ h => h) rfl (by decide +kernel)
    (by decide +kernel)

/-- C85: `parse_nanos` of fundu-systemd parses the text `Human` to exactly the duration it was printed for, or to the maximum if
the duration is greater, whatever the default unit is. -/
theorem C85_systemd_crate (x : StdDuration) (hx : x.WF) (u : TimeUnit) (max : Duration) (hw : max.WF) (hm : max.isNegative = false) :
    ∃ d, Fundu.Systemd.parseNanos (Examples.Systemd.makeHuman x) (some u) (some max) = .ok d ∧ nanos d = min (nanos max) (stdNanos x) := by
  have hpre : Fundu.Systemd.parseNanos (Examples.Systemd.makeHuman x) (some u) (some max) =
      parseMax true (TimeSpanParser.withDefaultUnit u) (Examples.Systemd.makeHuman x) max := (C40_functions _ u max).2.2.2
  rw [hpre]
  obtain ⟨m, h1, -, h3⟩ := parseMax_eq true (TimeSpanParser.withDefaultUnit u) (Examples.Systemd.makeHuman x) max hm (systemdHuman_text x)
  rw [h3]
  obtain ⟨k1, k2⟩ := systemdHuman_trimmed x
  obtain rfl := trimmed_unique h1 k1
  rw [if_neg k2]
  suffices hp : ∃ d, parse (TimeSpanParser.withDefaultUnit u).config (tableOf true) none none (Examples.Systemd.makeHuman x) = .ok d ∧ d.WF ∧
      nanos d = stdNanos x by
    obtain ⟨d, g1, g2, g3⟩ := hp
    rw [g1]
    refine ⟨_, rfl, ?_⟩
    rw [(minDuration_nanos g2 hw).1, g3, min_comm]
  by_cases hz : x.isZero = true
  · unfold StdDuration.isZero at hz
    simp only [Bool.and_eq_true, decide_eq_true_eq] at hz
    obtain ⟨s, n⟩ := x
    obtain ⟨rfl, rfl⟩ := hz
    refine ⟨⟨false, ⟨0, 0⟩⟩, ?_, by decide, rfl⟩
    cases u <;> decide +kernel
  · obtain ⟨l, h1, h2, h3⟩ := systemdHuman_parts x
      (listFormat PosixSpace systemdPrinted).ids (fun u id sid len a b => ⟨u, sid, a, b⟩)
    unfold Examples.Systemd.makeHuman
    rw [if_neg hz, h1]
    obtain ⟨d, g1, g2, g3⟩ := parse_partList (numerals := none) (systemdCrate_format u) (systemd_cfgText u) rfl rfl (Or.inl rfl)
      (sign := []) (neg := false) (Or.inl ⟨rfl, rfl⟩) l (parts_nonempty hz h3) h2
      (by
        rintro p hp
        obtain ⟨u, sid, h, -⟩ := h2 p hp
        exact systemdPrinted_ascii _ h)
      (Or.inr rfl) (parts_max hx h3)
    refine ⟨d, g1, g2, ?_⟩
    rw [g3, h3]
    unfold stdNanos
    simp

/-! ## gnu.rs -/

/-- the identifiers which are printed -/
def gnuPrinted : List (TimeUnit × Bytes) := [(.year, b! "year"), (.year, b! "years"), (.month, b! "month"), (.month, b! "months"),
  (.week, b! "week"), (.week, b! "weeks"), (.day, b! "day"), (.day, b! "days"), (.hour, b! "hour"), (.hour, b! "hours"),
  (.minute, b! "min"), (.minute, b! "mins"), (.second, b! "sec"), (.second, b! "secs")]

theorem gnuPrinted_ascii : ∀ p ∈ gnuPrinted, ∀ b ∈ p.2, b.toNat < 128 := by decide

theorem gnuStep_parts {ids : Bytes → Nat → Prop} {total base unit : Nat} {id : Bytes} {st : Nat × List Bytes}
    (h : PartsWith ids total base st) (h1 : ids id (base * unit)) (h2 : ids (id ++ b! "s") (base * unit)) :
    PartsWith ids total base (Examples.Gnu.step unit id st) := by
  unfold Examples.Gnu.step
  by_cases hle : unit ≤ st.1
  · rw [if_pos hle]
    refine partsWith_push h ?_
    unfold Examples.Gnu.makePlural
    by_cases h' : 1 < st.1 / unit
    · rw [if_pos h']; exact h2
    · rw [if_neg h']; exact h1
  · rw [if_neg hle]; exact h

theorem gnuStep_one {id : Bytes} {st : Nat × List Bytes} : (Examples.Gnu.step 1 id st).1 = 0 := by
  unfold Examples.Gnu.step
  by_cases h : 1 ≤ st.1
  · rw [if_pos h]; exact Nat.mod_one _
  · rw [if_neg h]; omega

theorem gnuHuman_parts (secs : Nat) (ids : Bytes → Nat → Prop)
    (hids : ∀ u id sid len, (u, id) ∈ gnuPrinted → (u, sid, len) ∈ documentedUnits → ids id len) :
    ∃ l : List Part, Examples.Gnu.humanParts secs = l.map Part.text ∧ (∀ p ∈ l, ids p.2.1 p.2.2) ∧
    (l.map Part.value).sum = 1000000000 * secs := by
  have start : PartsWith ids (1000000000 * secs) 1000000000 (secs, []) := ⟨[], rfl, by simp, by simp⟩
  have h := gnuStep_parts (unit := 1) (id := b! "sec") (gnuStep_parts (unit := 60) (id := b! "min")
    (gnuStep_parts (unit := 3600) (id := b! "hour") (gnuStep_parts (unit := 86400) (id := b! "day")
    (gnuStep_parts (unit := 604800) (id := b! "week") (gnuStep_parts (unit := 2629800) (id := b! "month")
    (gnuStep_parts (unit := 31557600) (id := b! "year") start
    (hids .year _ (b! "y") _ (by decide) (by decide)) (hids .year _ (b! "y") _ (by decide) (by decide)))
    (hids .month _ (b! "M") _ (by decide) (by decide)) (hids .month _ (b! "M") _ (by decide) (by decide)))
    (hids .week _ (b! "w") _ (by decide) (by decide)) (hids .week _ (b! "w") _ (by decide) (by decide)))
    (hids .day _ (b! "d") _ (by decide) (by decide)) (hids .day _ (b! "d") _ (by decide) (by decide)))
    (hids .hour _ (b! "h") _ (by decide) (by decide)) (hids .hour _ (b! "h") _ (by decide) (by decide)))
    (hids .minute _ (b! "m") _ (by decide) (by decide)) (hids .minute _ (b! "m") _ (by decide) (by decide)))
    (hids .second _ (b! "s") _ (by decide) (by decide)) (hids .second _ (b! "s") _ (by decide) (by decide))
  obtain ⟨l, h1, h2, h3⟩ := h
  rw [gnuStep_one, Nat.mul_zero, Nat.add_zero] at h3
  refine ⟨l, ?_, h2, h3⟩
  rw [← h1]
  rfl

theorem exampleGnu_space (b : UInt8) : Examples.Gnu.DELIMITER b = true → PosixSpace b := by
  unfold Examples.Gnu.DELIMITER PosixSpace
  simp only [Bool.or_eq_true, decide_eq_true_eq]
  tauto

/-- the keywords as the parser is given them -/
def exampleGnuKeywords : Option TimeUnitsLike := some (CustomTimeUnits.withKeywords Examples.Gnu.GNU_KEYWORDS).like

theorem exampleGnu_format : FormatOk Examples.Gnu.parser.config Examples.Gnu.parser.timeUnits.like exampleGnuKeywords
    (listFormat (fun b => Examples.Gnu.DELIMITER b = true) gnuPrinted) :=
  listFormat_ok (fun _ => Iff.rfl) (fun _ => Iff.rfl) exampleGnu_space (by decide +kernel) (by decide +kernel) (by decide +kernel)

theorem exampleGnu_text : CfgText Examples.Gnu.parser.config where
  inner b h := by
    have : PosixSpace b := exampleGnu_space b h
    rcases this with rfl | rfl | rfl | rfl | rfl | rfl <;> decide
  outer b h := by
    have : PosixSpace b := exampleGnu_space b h
    rcases this with rfl | rfl | rfl | rfl | rfl | rfl <;> decide
  conjunctions := by intro ws h; cases h

theorem exampleGnu_parse (s : Bytes) : Examples.Gnu.parser.parse s =
    parse Examples.Gnu.parser.config Examples.Gnu.parser.timeUnits.like exampleGnuKeywords none s := by
  have e : Examples.Gnu.parser.keywords = CustomTimeUnits.withKeywords Examples.Gnu.GNU_KEYWORDS := by decide +kernel
  have e' : (CustomTimeUnits.withKeywords Examples.Gnu.GNU_KEYWORDS).isEmpty = false := by decide +kernel
  have e2 : Examples.Gnu.parser.numerals = [] := rfl
  unfold CustomDurationParser.parse
  rw [e, e', e2]
  rfl

/-- C85: the constructors of the units and keywords of the examples do not panic, and give the values of the model. -/
theorem C85_units : (∀ r ∈ Examples.Gnu.GNU_TIME_UNITS ++ Examples.Custom.CUSTOM_TIME_UNITS,
      CustomTimeUnit.new r.baseUnit r.identifiers (some r.multiplier) = .ok r) ∧
    ∀ k ∈ Examples.Gnu.GNU_KEYWORDS, TimeKeyword.new k.timeUnit.baseUnit k.timeUnit.identifiers (some k.timeUnit.multiplier) = .ok k := by
  have h1 : ∀ r ∈ Examples.Gnu.GNU_TIME_UNITS ++ Examples.Custom.CUSTOM_TIME_UNITS, IsI64 r.multiplier.coefficient ∧
    IsI16 r.multiplier.exponent ∧ (r.baseUnit.multiplier.checkedMul r.multiplier).isSome = true := by decide +kernel
  have h2 : ∀ k ∈ Examples.Gnu.GNU_KEYWORDS, IsI64 k.timeUnit.multiplier.coefficient ∧
    IsI16 k.timeUnit.multiplier.exponent ∧ (k.timeUnit.baseUnit.multiplier.checkedMul k.timeUnit.multiplier).isSome = true := by
    decide +kernel
  refine ⟨fun r hr => (constructed_of (h1 r hr)).1, fun k hk => ?_⟩
  unfold TimeKeyword.new
  rw [(constructed_of (h2 k hk)).1]
  rfl

theorem constructed_of_new {r : CustomTimeUnit} (hi : IsI64 r.multiplier.coefficient ∧ IsI16 r.multiplier.exponent)
    (h : CustomTimeUnit.new r.baseUnit r.identifiers (some r.multiplier) = .ok r) : Constructed r :=
  Or.inl ⟨_, _, some r.multiplier, by rintro q ⟨⟩; exact hi, h⟩

theorem abs_std (d : Duration) : d.abs.saturatingToStd = .ok d.inner := by
  unfold Duration.abs Duration.fromStd Duration.saturatingToStd Duration.toStd
  simp

theorem gnuHuman_eq (d : Duration) (h : d.isZero = false) :
    Examples.Gnu.makeHuman d = .ok (Examples.Gnu.joinParts d.isNegative (Examples.Gnu.humanParts d.inner.secs)) := by
  unfold Examples.Gnu.makeHuman
  rw [if_neg (by rw [h]; decide), abs_std]
  rfl

theorem isZero_nanos (d : Duration) : d.isZero = true ↔ nanos d = 0 := by
  unfold Duration.isZero StdDuration.isZero nanos
  rw [Bool.and_eq_true, decide_eq_true_eq, decide_eq_true_eq]
  split <;> omega

/-- C85, gnu.rs: the text `Human` for a duration of at least a second in either direction is parsed by the parser of the example to
this duration without the fraction of the second. The text for zero is parsed to zero. -/
theorem C85_gnu_human (d : Duration) (hw : d.WF) :
    (d.inner.secs ≠ 0 → ∃ t, Examples.Gnu.makeHuman d = .ok t ∧ Examples.Gnu.parser.parse t = .ok ⟨d.isNegative, ⟨d.inner.secs, 0⟩⟩) ∧
    (nanos d = 0 → ∃ t, Examples.Gnu.makeHuman d = .ok t ∧ Examples.Gnu.parser.parse t = .ok ⟨false, ⟨0, 0⟩⟩) := by
  constructor
  · intro h0
    have hz : d.isZero = false := by
      unfold Duration.isZero StdDuration.isZero
      simp [h0]
    refine ⟨_, gnuHuman_eq d hz, ?_⟩
    obtain ⟨l, h1, h2, h3⟩ := gnuHuman_parts d.inner.secs
      (listFormat (fun b => Examples.Gnu.DELIMITER b = true) gnuPrinted).ids (fun u id sid len a b => ⟨u, sid, a, b⟩)
    have hne : l ≠ [] := by
      rintro rfl
      simp only [List.map_nil, List.sum_nil] at h3
      omega
    have hx : Duration.WF ⟨d.isNegative, ⟨d.inner.secs, 0⟩⟩ := ⟨hw.1, by show 0 < 1000000000; omega⟩
    have hmax : ((l.map Part.value).sum : Int) ≤ maxNanos := by
      rw [h3]
      have := (nanos_representable _ hx).2
      have h' := (nanos_representable _ hx).1
      unfold nanos at this h'
      simp only at this h'
      split at this <;> rename_i hs <;> simp only [hs, if_true, Bool.false_eq_true, if_false] at h' <;> omega
    have hsign : SignText (if d.isNegative then b! "-" else []) d.isNegative := by
      cases d.isNegative
      · exact Or.inl ⟨rfl, rfl⟩
      · exact Or.inr (Or.inr ⟨rfl, rfl⟩)
    obtain ⟨d', g1, g2, g3⟩ := parse_partList (numerals := none) exampleGnu_format exampleGnu_text rfl rfl rfl
      hsign l hne h2
      (by
        rintro p hp
        obtain ⟨u, sid, h, -⟩ := h2 p hp
        exact gnuPrinted_ascii _ h)
      (Or.inl rfl) hmax
    have e : Examples.Gnu.joinParts d.isNegative (l.map Part.text) =
        (if d.isNegative then b! "-" else []) ++ Duration.join (b! " " ++ (if d.isNegative then b! "-" else [])) (l.map Part.text) := by
      unfold Examples.Gnu.joinParts
      cases d.isNegative <;> rfl
    rw [exampleGnu_parse, h1, e]
    refine g1.trans (congrArg _ ?_)
    rw [h3] at g3
    have e2 : nanos d' = nanos ⟨d.isNegative, ⟨d.inner.secs, 0⟩⟩ := by
      rw [g3]
      unfold nanos
      cases d.isNegative <;> simp <;> omega
    refine Duration.eq_of g2 hx ?_ e2
    have k1 : nanos d' < 0 ↔ d.isNegative = true := by
      rw [g3]
      cases d.isNegative <;> simp <;> omega
    show _ ↔ d.isNegative = true
    rw [← k1]
    have k2 : nanos d' ≠ 0 := by
      rw [g3]
      cases d.isNegative <;> simp <;> omega
    revert k2
    clear * -
    unfold nanos
    cases d'.isNegative <;> simp <;> omega
  · intro h0
    exact ⟨_, by unfold Examples.Gnu.makeHuman; rw [if_pos ((isZero_nanos d).2 h0)], by decide +kernel⟩

theorem exampleGnu_constructed : (∀ r ∈ Examples.Gnu.GNU_TIME_UNITS, Constructed r) ∧
    ∀ k ∈ Examples.Gnu.GNU_KEYWORDS.map TimeKeyword.toCustomTimeUnit, Constructed k := by
  have h1 : ∀ r ∈ Examples.Gnu.GNU_TIME_UNITS, IsI64 r.multiplier.coefficient ∧
    IsI16 r.multiplier.exponent ∧ (r.baseUnit.multiplier.checkedMul r.multiplier).isSome = true := by decide +kernel
  have h2 : ∀ k ∈ Examples.Gnu.GNU_KEYWORDS.map TimeKeyword.toCustomTimeUnit, IsI64 k.multiplier.coefficient ∧
    IsI16 k.multiplier.exponent ∧ (k.baseUnit.multiplier.checkedMul k.multiplier).isSome = true := by
    decide +kernel
  exact ⟨fun r hr => (constructed_of (h1 r hr)).2, fun k hk => (constructed_of (h2 k hk)).2⟩

theorem exampleGnu_no_panic (input : Bytes) (hs : IsText input) :
    (∃ d, Examples.Gnu.parser.parse input = .ok d ∧ d.WF) ∨ ∃ e, Examples.Gnu.parser.parse input = fail e := by
  rw [exampleGnu_parse]
  refine C23_no_panic _ _ _ _ input hs exampleGnu_text (custom_fits exampleGnu_constructed.1) ?_ (by intro k h; cases h)
  rintro k ⟨⟩
  have e : CustomTimeUnits.withKeywords Examples.Gnu.GNU_KEYWORDS =
      CustomTimeUnits.withTimeUnits (Examples.Gnu.GNU_KEYWORDS.map TimeKeyword.toCustomTimeUnit) := by decide +kernel
  rw [e]
  exact custom_fits exampleGnu_constructed.2

/-- C85, gnu.rs: for every text the program prints the whole seconds of the duration `d` of the text, with a minus sign if it
is marked as negative, or the error of the parser. It does not panic. -/
theorem C85_gnu_main (input : Bytes) (hs : IsText input) :
    (∃ d W human, Examples.Gnu.parser.parse input = .ok d ∧ d.WF ∧ Examples.Gnu.makeHuman d = .ok human ∧
      AllDigits W ∧ W ≠ [] ∧ (decimal W : Int) = |nanos d| / 1000000000 ∧
      Examples.Gnu.main input = .ok ⟨if d.isNegative then b! "-" ++ W else W, human⟩) ∨
    (∃ e, Examples.Gnu.parser.parse input = fail e ∧ Examples.Gnu.main input = fail e) := by
  rcases exampleGnu_no_panic input hs with ⟨d, h1, h2⟩ | ⟨e, h⟩
  · left
    obtain ⟨k1, k2, k3⟩ := decDigits_spec d.inner.secs
    have hh : ∃ human, Examples.Gnu.makeHuman d = .ok human := by
      cases hz : d.isZero
      · exact ⟨_, gnuHuman_eq d hz⟩
      · exact ⟨b! "0sec", by unfold Examples.Gnu.makeHuman; rw [if_pos hz]⟩
    obtain ⟨human, hh⟩ := hh
    refine ⟨d, Duration.decDigits d.inner.secs, human, h1, h2, hh, k1, k2, ?_, ?_⟩
    · rw [k3]
      have hlt : d.inner.nanos < 1000000000 := h2.2
      unfold nanos
      cases d.isNegative
      · simp only [Bool.false_eq_true, if_false]
        rw [abs_of_nonneg (by omega)]
        omega
      · simp only [if_true]
        rw [abs_neg, abs_of_nonneg (by omega)]
        omega
    · unfold Examples.Gnu.main
      rw [h1, ok_bind, abs_std, hh]
      rfl
  · right
    refine ⟨e, h, ?_⟩
    unfold Examples.Gnu.main
    rw [h]
    rfl

/-- C85, gnu.rs: if the duration is at least a second in either direction, running the program again with the text `Human` it has
printed prints the same lines. -/
theorem C85_gnu_again (input : Bytes) (d : Duration) (hw : d.WF) (h0 : 1000000000 ≤ |nanos d|)
    (hd : Examples.Gnu.parser.parse input = .ok d) :
    ∃ out, Examples.Gnu.main input = .ok out ∧ Examples.Gnu.main out.human = .ok out := by
  have hsecs : d.inner.secs ≠ 0 := by
    intro h
    have hlt : d.inner.nanos < 1000000000 := hw.2
    unfold nanos at h0
    rw [h] at h0
    clear hd
    revert h0
    cases d.isNegative <;> intro h0
    · simp only [Bool.false_eq_true, if_false] at h0
      rw [abs_of_nonneg (by omega)] at h0
      omega
    · simp only [if_true] at h0
      rw [abs_neg, abs_of_nonneg (by omega)] at h0
      omega
  have hz : ∀ n, Duration.isZero ⟨d.isNegative, ⟨d.inner.secs, n⟩⟩ = false := by
    intro n
    unfold Duration.isZero StdDuration.isZero
    simp [hsecs]
  obtain ⟨t, h1, h2⟩ := (C85_gnu_human d hw).1 hsecs
  have h3 : Examples.Gnu.makeHuman ⟨d.isNegative, ⟨d.inner.secs, 0⟩⟩ = .ok t := by
    rw [← h1, gnuHuman_eq _ (hz 0), gnuHuman_eq d (hz d.inner.nanos)]
  refine ⟨⟨Examples.Gnu.seconds d.isNegative d.inner.secs, t⟩, ?_, ?_⟩
  · unfold Examples.Gnu.main
    rw [hd, ok_bind, abs_std, h1]
    rfl
  · show Examples.Gnu.main t = _
    unfold Examples.Gnu.main
    rw [h2, ok_bind, abs_std, h3]
    rfl

/-- C85, gnu.rs: the condition is needed (finding F24): the sum of this text sticks to the maximum in the middle and ends with
0.999999999 seconds, for which the program prints nothing after `Human`. -/
theorem C85_gnu_nothing : Examples.Gnu.parser.parse (b! "18446744073709551615sec 1sec -18446744073709551615sec") =
      .ok ⟨false, ⟨0, 999999999⟩⟩ ∧
    Examples.Gnu.main (b! "18446744073709551615sec 1sec -18446744073709551615sec") = .ok ⟨b! "0", []⟩ := by
  refine ⟨by decide +kernel, by decide +kernel⟩

/-! ## custom.rs -/

theorem decDigitsAux_length (fuel n k : Nat) (acc : Bytes) (h : n < 10 ^ (k + 1)) :
    (Duration.decDigitsAux fuel n acc).length ≤ k + 1 + acc.length := by
  induction fuel generalizing n k acc with
  | zero => unfold Duration.decDigitsAux; omega
  | succ fuel ih =>
    unfold Duration.decDigitsAux
    by_cases h0 : n / 10 = 0
    · simp only [h0, if_true, List.length_cons]; omega
    · simp only [h0, if_false]
      cases k with
      | zero => omega
      | succ k =>
        have := ih (n / 10) k (UInt8.ofNat (48 + n % 10) :: acc) (by rw [pow_succ] at h; omega)
        simp only [List.length_cons] at this
        omega

theorem decDigits_length {n k : Nat} (h : n < 10 ^ (k + 1)) : (Duration.decDigits n).length ≤ k + 1 := by
  have := decDigitsAux_length (n + 1) n k [] h
  unfold Duration.decDigits
  simpa using this

theorem decimal_zeros (n : Nat) : decimal (List.replicate n 48) = 0 := by
  induction n with
  | zero => rfl
  | succ n ih =>
    rw [List.replicate_succ, show (48 : UInt8) :: List.replicate n 48 = [48] ++ List.replicate n 48 from rfl, decimal_append, ih]
    simp [decimal]

/-- C85, custom.rs: the second column is 31 characters wide; without the spaces in front it is the duration in seconds with nine
decimal places, so that `parse_duration` gives back exactly the duration. -/
theorem C85_custom_column (x : StdDuration) (hx : x.WF) :
    (Examples.Custom.column x).length = 31 ∧ ∃ pad t, Examples.Custom.column x = pad ++ t ∧ (∀ b ∈ pad, b = 32) ∧ Written ⟨false, x⟩ t ∧
      parseDuration t = .ok x := by
  obtain ⟨k1, k2, k3⟩ := decDigits_spec x.secs
  obtain ⟨g1, g2, g3⟩ := decDigits_spec x.nanos
  have l1 : (Duration.decDigits x.secs).length ≤ 20 :=
    decDigits_length (lt_of_le_of_lt hx.1 (by decide))
  have l2 : (Duration.decDigits x.nanos).length ≤ 9 := decDigits_length hx.2
  have hz : ∀ b ∈ List.replicate (9 - (Duration.decDigits x.nanos).length) (48 : UInt8), IsDigit b := by
    intro b hb
    rw [List.eq_of_mem_replicate hb]
    decide
  have hw : Written ⟨false, x⟩ (Duration.decDigits x.secs ++ (46 :: Examples.Custom.zeroPadded 9 x.nanos)) := by
    refine ⟨[], Duration.decDigits x.secs, Examples.Custom.zeroPadded 9 x.nanos, rfl, Or.inl ⟨rfl, rfl⟩, k1, k2, ?_, ?_, k3, ?_⟩
    · intro b hb
      rcases List.mem_append.1 hb with hb | hb
      · exact hz b hb
      · exact g1 b hb
    · unfold Examples.Custom.zeroPadded
      rw [List.length_append, List.length_replicate]
      omega
    · unfold Examples.Custom.zeroPadded
      rw [decimal_append, decimal_zeros, Nat.zero_mul, Nat.zero_add, g3]
  refine ⟨?_, List.replicate (21 - (Duration.decDigits x.secs).length) 32, _, ?_, ?_, hw, C76_parse_duration x hx _ hw⟩
  · unfold Examples.Custom.column Examples.Custom.spacePadded Examples.Custom.zeroPadded
    simp only [List.length_append, List.length_replicate]
    have : (b! ".").length = 1 := rfl
    omega
  · unfold Examples.Custom.column Examples.Custom.spacePadded
    simp only [List.append_assoc]
    rfl
  · intro b hb
    exact List.eq_of_mem_replicate hb

theorem exampleCustom_text : CfgText Examples.Custom.parser.config where
  inner b h := by
    have : b = 9 ∨ b = 10 ∨ b = 13 ∨ b = 32 := by
      have h' : Examples.Custom.delimiter b = true := h
      unfold Examples.Custom.delimiter at h'
      simpa only [Bool.or_eq_true, decide_eq_true_eq, or_assoc] using h'
    rcases this with rfl | rfl | rfl | rfl <;> decide
  outer := defaultConfig_text.outer
  conjunctions := by intro ws h; cases h

theorem exampleCustom_constructed : ∀ r ∈ Examples.Custom.CUSTOM_TIME_UNITS, Constructed r := by
  have h1 : ∀ r ∈ Examples.Custom.CUSTOM_TIME_UNITS, IsI64 r.multiplier.coefficient ∧
    IsI16 r.multiplier.exponent ∧ (r.baseUnit.multiplier.checkedMul r.multiplier).isSome = true := by decide +kernel
  exact fun r hr => (constructed_of (h1 r hr)).2

/-- C85, custom.rs: for every text the program prints the column for its duration, or the error of the parser. It does not
panic. -/
theorem C85_custom_main (input : Bytes) (hs : IsText input) :
    (∃ x : StdDuration, x.WF ∧ Examples.Custom.parser.parse input = .ok ⟨false, x⟩ ∧
      Examples.Custom.main input = .ok (Examples.Custom.column x)) ∨
    (∃ e, Examples.Custom.parser.parse input = fail e ∧ Examples.Custom.main input = fail e) := by
  rcases C23_no_panic Examples.Custom.parser.config Examples.Custom.parser.timeUnits.like none none input hs exampleCustom_text
    (custom_fits exampleCustom_constructed) (by intro k h; cases h) (by intro k h; cases h) with ⟨d, h1, h2⟩ | ⟨e, h⟩
  · left
    obtain ⟨hn, -⟩ := C22_nonnegative _ _ _ _ _ d rfl h1
    obtain ⟨neg, x⟩ := d
    obtain rfl : neg = false := hn
    refine ⟨x, h2, h1, ?_⟩
    have h1' : Examples.Custom.parser.parse input = .ok ⟨false, x⟩ := h1
    unfold Examples.Custom.main
    rw [h1']
    have e1 : Duration.toStd ⟨false, x⟩ = .ok x := by
      unfold Duration.toStd
      simp
    rw [ok_bind, e1]
    rfl
  · right
    refine ⟨e, h, ?_⟩
    have h' : Examples.Custom.parser.parse input = fail e := h
    unfold Examples.Custom.main
    rw [h']
    rfl

/-- some of the arguments in the documentation of the program. The documentation prints 34398382.959360000 for `1.09y` and
3352039.944768000 for `1.42mon`, which are not the products with the lengths of the units of the program (finding F25). -/
example : Examples.Custom.main (b! "10") = .ok (b! "                    0.000000010") ∧
    Examples.Custom.main (b! "1.09y") = .ok (b! "             34398383.238400000") ∧
    Examples.Custom.main (b! "1.42mon") = .ok (b! "              3352039.944200000") ∧
    Examples.Custom.main (b! "1     fortnight") = .ok (b! "              1209600.000000000") ∧
    Examples.Custom.main (b! "-1.2") = fail .negativeNumber ∧
    Examples.Custom.main (b! "1 µs") = .ok (b! "                    0.000001000") := by
  refine ⟨?_, ?_, ?_, ?_, ?_, ?_⟩ <;> decide +kernel

/-- the example of the function `make_human` in systemd.rs, and texts of the other program -/
example : Examples.Systemd.makeHuman ⟨3155760000 + 2 * 3600 + 46 * 60 + 40, 123456⟩ = b! "100y 2h 46min 40s 123us 456ns" ∧
    Examples.Gnu.makeHuman ⟨true, ⟨3155760000 + 2 * 3600 + 60 + 40, 0⟩⟩ = .ok (b! "-100years -2hours -1min -40secs") ∧
    Examples.Gnu.main (b! "2 fortnights ago yesterday") = .ok ⟨b! "-2505600", b! "-4weeks -1day"⟩ := by
  refine ⟨?_, ?_, ?_⟩ <;> decide +kernel

/-! ## convert.rs -/

/-- C85, convert.rs: for every text the program prints the duration of the text and all conversions - the saturating ones are clamped to
the ranges of the types - or the error of the parser. It does not panic. -/
theorem C85_convert_main (input : Bytes) (hs : IsText input) :
    (∃ d out, Examples.Convert.parser.parse input = .ok d ∧ d.WF ∧ Examples.Convert.main input = .ok out ∧
      out.display = d.display ∧ out.std = d.toStd ∧ stdNanos out.saturatingStd = max 0 (nanos d) ∧
      d.toChrono = .ok out.chrono ∧ chronoNanos out.saturatingChrono =
        max (-((2 ^ 63 - 1) * 10 ^ 6)) (min ((2 ^ 63 - 1) * 10 ^ 6) (nanos d)) ∧
      d.toTime = .ok out.time ∧ timeNanos out.saturatingTime =
        max (-(2 ^ 63 * 10 ^ 9 + 999999999)) (min ((2 ^ 63 - 1) * 10 ^ 9 + 999999999) (nanos d))) ∨
    (∃ e, Examples.Convert.parser.parse input = fail e ∧ Examples.Convert.main input = fail e) := by
  have hc : CfgText Examples.Convert.parser.config :=
    ⟨defaultConfig_text.inner, defaultConfig_text.outer, by intro ws h; cases h⟩
  have hu : TableFits Examples.Convert.parser.timeUnits.like := by
    have e : Examples.Convert.parser.timeUnits =
      (DurationParser.withTimeUnits TimeUnits.withAllTimeUnits.getTimeUnits).timeUnits := by decide +kernel
    rw [e]
    exact standard_fits _
  rcases C23_no_panic Examples.Convert.parser.config Examples.Convert.parser.timeUnits.like none none input hs hc hu
    (by intro k h; cases h) (by intro k h; cases h) with ⟨d, h1, h2⟩ | ⟨e, h⟩
  · left
    obtain ⟨s, hs1, -, hs2⟩ := C07_saturating_to_std d h2
    obtain ⟨c, hc1, -⟩ := C09_to_chrono d h2
    obtain ⟨c', hc2, -, hc3⟩ := C09_saturating_to_chrono d h2
    obtain ⟨t, ht1, -⟩ := C08_to_time d h2
    obtain ⟨t', ht2, -, ht3⟩ := C08_saturating_to_time d h2
    refine ⟨d, ⟨d.display, d.toStd, s, c, c', t, t'⟩, h1, h2, ?_, rfl, rfl, hs2, hc1, hc3, ht1, ht3⟩
    have h1' : Examples.Convert.parser.parse input = .ok d := h1
    unfold Examples.Convert.main
    rw [h1', ok_bind, hs1, hc1, hc2, ht1, ht2]
    rfl
  · right
    refine ⟨e, h, ?_⟩
    have h' : Examples.Convert.parser.parse input = fail e := h
    unfold Examples.Convert.main
    rw [h']
    rfl

end Fundu.Props
