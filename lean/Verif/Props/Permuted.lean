import Verif.Props.Concat
import Verif.Props.SumSign
import Verif.Props.GnuConcat
import Verif.Spec.Permuted
import Verif.Spec.Literal
/-!
# Property C97: the order of the durations in a text

The specification is `Verif/Spec/Permuted.lean`.
-/
namespace Fundu.Props
open Fundu Fundu.Spec

section
variable {cfg : Config} {units : TimeUnitsLike} {keywords : Option TimeUnitsLike} {numerals : Option NumbersLike}

theorem joined_ne {space : UInt8 → Prop} {l : List Bytes} {s : Bytes} (h : Joined space l s) : l ≠ [] := by
  cases h <;> simp

theorem joined_isText {space : UInt8 → Prop} (hsp : ∀ b, space b → b.toNat < 128) {l : List Bytes} {s : Bytes} (h : Joined space l s)
    (ht : ∀ t ∈ l, IsText t) : IsText s := by
  induction h with
  | one => exact ht _ (by simp)
  | snoc _ h2 _ ih =>
    exact text_joined (ih fun t h => ht t (by simp [h])) (text_joined (isText_ascii fun b hb => hsp b (h2 b hb)) (ht _ (by simp)))

/-- the durations of joined texts -/
theorem joined_denotes (ho : Orderly cfg units keywords numerals) (hp : PlainConjunctions cfg) (D : Bytes → List Duration)
    {l : List Bytes} {s : Bytes} (h : Joined (cfg.outerDelimiter · = true) l s) (hf : ∀ t ∈ l, CanFollow cfg units t)
    (hD : ∀ t ∈ l, DenotesMultiple cfg units keywords numerals t (D t)) :
    DenotesMultiple cfg units keywords numerals s (l.flatMap D) := by
  induction h with
  | one => rw [List.flatMap_cons, List.flatMap_nil, List.append_nil]; exact hD _ (by simp)
  | snoc h1 h2 h3 ih =>
    rw [List.flatMap_append, List.flatMap_cons, List.flatMap_nil, List.append_nil]
    exact C68_durations cfg units keywords numerals _ _ _ _ _ ho hp h2 h3 (hf _ (by simp))
      (ih (fun t h => hf t (by simp [h])) fun t h => hD t (by simp [h])) (hD _ (by simp))

theorem choose_durations {l : List Bytes} (h : ∀ t ∈ l, ∃ ds, DenotesMultiple cfg units keywords numerals t ds) :
    ∃ D : Bytes → List Duration, ∀ t ∈ l, DenotesMultiple cfg units keywords numerals t (D t) := by
  classical
  refine ⟨fun t => if ht : t ∈ l then Classical.choose (h t ht) else [], fun t ht => ?_⟩
  simp only [dif_pos ht]
  exact Classical.choose_spec (h t ht)

theorem nonneg_equal {d e : Duration} (hd : d.WF) (he : e.WF) (h1 : d.isNegative = false) (h2 : e.isNegative = false)
    (h : nanos d = nanos e) : d = e := by
  obtain ⟨n, ⟨s, k⟩⟩ := d
  obtain ⟨n', ⟨s', k'⟩⟩ := e
  dsimp only at h1 h2
  subst h1 h2
  unfold nanos at h
  simp only [Bool.false_eq_true, if_false] at h
  have g1 : k < 1000000000 := hd.2
  have g2 : k' < 1000000000 := he.2
  have : s = s' := by omega
  have : k = k' := by omega
  subst_vars
  rfl

end

section
variable (cfg : Config) (units : TimeUnitsLike) (keywords : Option TimeUnitsLike) (numerals : Option NumbersLike)

/-- C97: If negative durations are not allowed, accepted texts which can be written one after the other have the same result in
any order and with any white space between them: the sum, or the maximum. -/
theorem C97_order (l l' : List Bytes) (s s' : Bytes) (hc : CfgText cfg) (hm : cfg.allowMultiple = true)
    (hd : (∀ b, cfg.innerDelimiter b = true → cfg.outerDelimiter b = true) ∨ (keywords = none ∧ numerals = none))
    (ho : Orderly cfg units keywords numerals) (hp : PlainConjunctions cfg) (hn : cfg.allowNegative = false)
    (hl : ∀ t ∈ l, IsText t ∧ CanFollow cfg units t ∧ ∃ d, parse cfg units keywords numerals t = .ok d)
    (hperm : l.Perm l') (hs : Joined (cfg.outerDelimiter · = true) l s) (hs' : Joined (cfg.outerDelimiter · = true) l' s') :
    ∃ e, parse cfg units keywords numerals s = .ok e ∧ parse cfg units keywords numerals s' = .ok e := by
  obtain ⟨D, hD⟩ := choose_durations (cfg := cfg) (units := units) (keywords := keywords) (numerals := numerals) (l := l) fun t ht => by
    obtain ⟨h1, -, d, h3⟩ := hl t ht
    obtain ⟨-, ds, h, -⟩ := C29_saturating_sum cfg units keywords numerals t h1 hc hm hd d h3
    exact ⟨ds, h⟩
  have k1 := joined_denotes ho hp D hs (fun t ht => (hl t ht).2.1) hD
  have k2 := joined_denotes ho hp D hs' (fun t ht => (hl t (hperm.mem_iff.2 ht)).2.1) fun t ht => hD t (hperm.mem_iff.2 ht)
  have t1 := joined_isText (fun b hb => hc.outer b hb) hs fun t ht => (hl t ht).1
  have t2 := joined_isText (fun b hb => hc.outer b hb) hs' fun t ht => (hl t (hperm.mem_iff.2 ht)).1
  obtain ⟨e, e1, e2, e3⟩ := (C27_multiple cfg units keywords numerals s _ t1 hc hm hd).2 ⟨_, k1, rfl⟩
  obtain ⟨e', e1', e2', e3'⟩ := (C27_multiple cfg units keywords numerals s' _ t2 hc hm hd).2 ⟨_, k2, rfl⟩
  have hsum : ((l.flatMap D).map nanos).sum = ((l'.flatMap D).map nanos).sum := ((hperm.flatMap_right D).map nanos).sum_eq
  have g1 := foldl_nonneg _ 0 (by decide) (by decide) (denotes_nonneg hn k1)
  have g2 := foldl_nonneg _ 0 (by decide) (by decide) (denotes_nonneg hn k2)
  unfold saturatingSum at e3 e3'
  rw [g1] at e3
  rw [g2, ← hsum] at e3'
  have : e = e' := nonneg_equal e2 e2' (C22_nonnegative _ _ _ _ _ _ hn e1).1 (C22_nonnegative _ _ _ _ _ _ hn e1').1 (e3.trans e3'.symm)
  subst this
  exact ⟨e, e1, e1'⟩

theorem take_sum_bound (l : List Int) (k : Nat) : |(l.take k).sum| ≤ (l.map fun x => |x|).sum := by
  induction l generalizing k with
  | nil => simp
  | cons x l ih =>
    cases k with
    | zero =>
      simp only [List.take_zero, List.sum_nil, abs_zero]
      exact sum_nonneg' (by simp)
    | succ k =>
      rw [List.take_succ_cons, List.sum_cons, List.map_cons, List.sum_cons]
      have := ih k
      have := abs_add_le x (l.take k).sum
      omega

/-- C97, also with negative durations: the order does not matter if the absolute values of all durations in the texts add up
to at most the maximum, whatever their signs are. -/
theorem C97_order_signed (l l' : List Bytes) (D : Bytes → List Duration) (s s' : Bytes) (hc : CfgText cfg) (hm : cfg.allowMultiple = true)
    (hd : (∀ b, cfg.innerDelimiter b = true → cfg.outerDelimiter b = true) ∨ (keywords = none ∧ numerals = none))
    (ho : Orderly cfg units keywords numerals) (hp : PlainConjunctions cfg)
    (hl : ∀ t ∈ l, IsText t ∧ CanFollow cfg units t ∧ DenotesMultiple cfg units keywords numerals t (D t))
    (hr : ((l.flatMap D).map fun d => |nanos d|).sum ≤ maxNanos)
    (hperm : l.Perm l') (hs : Joined (cfg.outerDelimiter · = true) l s) (hs' : Joined (cfg.outerDelimiter · = true) l' s') :
    ∃ e, parse cfg units keywords numerals s = .ok e ∧ parse cfg units keywords numerals s' = .ok e ∧ e.WF ∧
      nanos e = ((l.flatMap D).map nanos).sum := by
  have k1 := joined_denotes ho hp D hs (fun t ht => (hl t ht).2.1) fun t ht => (hl t ht).2.2
  have k2 := joined_denotes ho hp D hs' (fun t ht => (hl t (hperm.mem_iff.2 ht)).2.1) fun t ht => (hl t (hperm.mem_iff.2 ht)).2.2
  have t1 := joined_isText (fun b hb => hc.outer b hb) hs fun t ht => (hl t ht).1
  have t2 := joined_isText (fun b hb => hc.outer b hb) hs' fun t ht => (hl t (hperm.mem_iff.2 ht)).1
  have hsum : ((l.flatMap D).map nanos).sum = ((l'.flatMap D).map nanos).sum := ((hperm.flatMap_right D).map nanos).sum_eq
  have habs : ((l.flatMap D).map fun d => |nanos d|).sum = ((l'.flatMap D).map fun d => |nanos d|).sum :=
    ((hperm.flatMap_right D).map _).sum_eq
  have key : ∀ L : List Duration, (L.map fun d => |nanos d|).sum ≤ maxNanos → ∀ k, k ≤ L.length →
      Representable (((L.map nanos).take k).sum) := by
    intro L hL k _
    have h1 := take_sum_bound (L.map nanos) k
    rw [List.map_map] at h1
    have h2 : (L.map ((fun x => |x|) ∘ nanos)).sum = (L.map fun d => |nanos d|).sum := rfl
    rw [h2] at h1
    have := abs_le.1 (h1.trans hL)
    unfold Representable
    omega
  have g1 := C29_exact cfg units keywords numerals s t1 hc hm hd _ k1 (key _ hr)
  have g2 := C29_exact cfg units keywords numerals s' t2 hc hm hd _ k2 (key _ (habs ▸ hr))
  obtain ⟨e, e1, e2, e3⟩ := g1
  obtain ⟨e', e1', e2', e3'⟩ := g2
  have k := (C99_exact cfg units keywords numerals s' e t2 hc hm hd).2 ⟨_, k2, e2, ?_, C99_sign cfg units keywords numerals s e t1 hc hm hd e1⟩
  · exact ⟨e, e1, k, e2, e3⟩
  · obtain ⟨-, ds, q1, q2⟩ := C29_saturating_sum cfg units keywords numerals s' t2 hc hm hd e' e1'
    rw [durations_unique q1 k2] at q2
    rw [e3, hsum, ← e3', q2]

end

/-! ## fundu-systemd -/

theorem number_not_infinity {t m m' : Bytes} (h : Trimmed t m) (b : UInt8) (hb : b ∈ t) (hn : NextDuration b ∨ b = 46)
    (h' : Trimmed t m') : m' ≠ b! "infinity" := by
  obtain rfl := trimmed_unique h h'
  obtain ⟨pre, post, rfl, h1, h2, -⟩ := h
  have key : ∀ b : UInt8, PosixSpace b → ¬ (NextDuration b ∨ b = 46) := by
    intro b hs hn
    rcases hn with (hn | rfl | rfl) | rfl
    · have := (isPosixSpace_iff b).2 hs
      exact absurd hs (by
        unfold PosixSpace
        unfold IsDigit at hn
        rintro (h | h | h | h | h | h) <;> subst h <;> revert hn <;> decide)
    · exact absurd hs (by decide)
    · exact absurd hs (by decide)
    · exact absurd hs (by decide)
  rintro rfl
  rcases List.mem_append.1 hb with hb | hb
  · exact key b (h1 b hb) hn
  rcases List.mem_append.1 hb with hb | hb
  · exact (by decide : ∀ b ∈ b! "infinity", ¬ (NextDuration b ∨ b = 46)) b hb hn
  · exact key b (h2 b hb) hn

theorem joined_systemd (nanos' : Bool) (u : TimeUnit) (max : Duration) (hw : max.WF) (hm : max.isNegative = false) (V : Bytes → Int)
    {l : List Bytes} {s : Bytes} (h : Joined PosixSpace l s)
    (hl : ∀ t ∈ l, IsText t ∧ (∃ m, Trimmed t m ∧ StartsWith (fun b => NextDuration b ∨ b = 46) m) ∧
      ∃ d, parseMax nanos' (Systemd.TimeSpanParser.withDefaultUnit u) t max = .ok d ∧ V t = nanos d) :
    IsText s ∧ (∃ b ∈ s, NextDuration b ∨ b = 46) ∧
      ∃ e, parseMax nanos' (Systemd.TimeSpanParser.withDefaultUnit u) s max = .ok e ∧ nanos e = min (nanos max) (l.map V).sum := by
  have hin : ∀ {t m : Bytes}, Trimmed t m → StartsWith (fun b => NextDuration b ∨ b = 46) m → ∃ b ∈ t, NextDuration b ∨ b = 46 := by
    rintro t m ⟨pre, post, rfl, -⟩ ⟨b, r, rfl, hb⟩
    exact ⟨b, by simp, hb⟩
  induction h with
  | one =>
    obtain ⟨h1, ⟨m, h2, h3⟩, d, h4, h5⟩ := hl _ (List.mem_singleton.2 rfl)
    refine ⟨h1, hin h2 h3, d, h4, ?_⟩
    rw [List.map_cons, List.map_nil, List.sum_cons, List.sum_nil, Int.add_zero, h5]
    rcases C38_bounded nanos' u _ h1 max hw hm with ⟨d', g1, -, -, -, g2⟩ | ⟨e, g⟩
    · rw [g1] at h4; cases h4; omega
    · rw [g] at h4; cases h4
  | @snoc l s gap t h1 h2 h3 ih =>
    obtain ⟨i1, ⟨b, i2, i3⟩, e, i4, i5⟩ := ih fun t h => hl t (by simp [h])
    obtain ⟨g1, ⟨m, g2, g3⟩, d, g4, g5⟩ := hl t (List.mem_append.2 (Or.inr (List.mem_singleton.2 rfl)))
    obtain ⟨ms, hms, -⟩ := parseMax_eq nanos' (Systemd.TimeSpanParser.withDefaultUnit u) s max hm i1
    obtain ⟨b', hb', hb''⟩ := hin g2 g3
    obtain ⟨e', k1, k2⟩ := C68_systemd nanos' u s gap t ms m max e d i1 g1 h2 h3 hw hm hms (number_not_infinity hms b i2 i3 hms) g2
      (number_not_infinity g2 b' hb' hb'' g2) g3 i4 g4
    refine ⟨text_joined i1 (text_joined (isText_ascii fun b hb => posixSpace_ascii (h2 b hb)) g1), ⟨b, by simp [i2], i3⟩, e', k1, ?_⟩
    rw [k2, i5, List.map_append, List.sum_append, List.map_cons, List.map_nil, List.sum_cons, List.sum_nil, Int.add_zero, g5]
    have : 0 ≤ nanos d := by
      rcases C38_bounded nanos' u _ g1 max hw hm with ⟨d', q1, -, -, q2, -⟩ | ⟨e, g⟩
      · rw [q1] at g4; cases g4; exact q2
      · rw [g] at g4; cases g4
    omega

/-- C97 for fundu-systemd: accepted texts which start with a number have the same result in any order and with any white space
between them, for every default time unit and every maximum. -/
theorem C97_systemd (nanos' : Bool) (u : TimeUnit) (max : Duration) (hw : max.WF) (hm : max.isNegative = false)
    (l l' : List Bytes) (s s' : Bytes)
    (hl : ∀ t ∈ l, IsText t ∧ (∃ m, Trimmed t m ∧ StartsWith (fun b => NextDuration b ∨ b = 46) m) ∧
      ∃ d, parseMax nanos' (Systemd.TimeSpanParser.withDefaultUnit u) t max = .ok d)
    (hperm : l.Perm l') (hs : Joined PosixSpace l s) (hs' : Joined PosixSpace l' s') :
    ∃ e, parseMax nanos' (Systemd.TimeSpanParser.withDefaultUnit u) s max = .ok e ∧
      parseMax nanos' (Systemd.TimeSpanParser.withDefaultUnit u) s' max = .ok e := by
  have hV : ∃ V : Bytes → Int, ∀ t ∈ l, ∃ d, parseMax nanos' (Systemd.TimeSpanParser.withDefaultUnit u) t max = .ok d ∧ V t = nanos d := by
    refine ⟨fun t => match parseMax nanos' (Systemd.TimeSpanParser.withDefaultUnit u) t max with | .ok d => nanos d | .error _ => 0,
      fun t ht => ?_⟩
    obtain ⟨d, hd⟩ := (hl t ht).2.2
    exact ⟨d, hd, by simp only [hd]⟩
  obtain ⟨V, hV⟩ := hV
  obtain ⟨a1, -, e, a2, a3⟩ := joined_systemd nanos' u max hw hm V hs fun t ht => ⟨(hl t ht).1, (hl t ht).2.1, hV t ht⟩
  obtain ⟨b1, -, e', b2, b3⟩ := joined_systemd nanos' u max hw hm V hs' fun t ht =>
    ⟨(hl t (hperm.mem_iff.2 ht)).1, (hl t (hperm.mem_iff.2 ht)).2.1, hV t (hperm.mem_iff.2 ht)⟩
  have hx : nanos e = nanos e' := by rw [a3, b3, (hperm.map V).sum_eq]
  have key : ∀ {s e}, IsText s → parseMax nanos' (Systemd.TimeSpanParser.withDefaultUnit u) s max = .ok e → e.WF ∧ e.isNegative = false := by
    intro s e h1 h2
    rcases C38_bounded nanos' u _ h1 max hw hm with ⟨d', q1, q2, q3, -⟩ | ⟨e, g⟩
    · rw [q1] at h2; cases h2; exact ⟨q2, q3⟩
    · rw [g] at h2; cases h2
  obtain rfl := nonneg_equal (key a1 a2).1 (key b1 b2).1 (key a1 a2).2 (key b1 b2).2 hx
  exact ⟨e, a2, b2⟩

/-! ## Relative times -/

theorem joined_relative (D : Bytes → List GnuPart) {l : List Bytes} {s : Bytes} (h : Joined PosixSpace l s)
    (hD : ∀ t ∈ l, ∃ m, Trimmed t m ∧ RelativeTime m (D t) ∧ ¬ ∃ len r, GnuWordAt gnuUnits m len r) :
    ∃ m, Trimmed s m ∧ RelativeTime m (l.flatMap D) := by
  induction h with
  | one =>
    rw [List.flatMap_cons, List.flatMap_nil, List.append_nil]
    obtain ⟨m, h1, h2, -⟩ := hD _ (List.mem_singleton.2 rfl)
    exact ⟨m, h1, h2⟩
  | snoc h1 h2 h3 ih =>
    rw [List.flatMap_append, List.flatMap_cons, List.flatMap_nil, List.append_nil]
    obtain ⟨m, g1, g2⟩ := ih fun t h => hD t (by simp [h])
    obtain ⟨m', g3, g4, g5⟩ := hD _ (List.mem_append.2 (Or.inr (List.mem_singleton.2 rfl)))
    exact C82_parts _ _ _ _ _ _ _ g1 g2 g3 g4 h2 h3 g5

/-- C97: `parse_fuzzy` gives the same result for relative times in any order and with any white space between them if none
starts with a time unit and the absolute values of the years, the months and the durations add up to at most the largest ones. -/
theorem C97_gnu (l l' : List Bytes) (D : Bytes → List GnuPart) (s s' : Bytes)
    (hl : ∀ t ∈ l, IsText t ∧ ∃ m, Trimmed t m ∧ RelativeTime m (D t) ∧ ¬ ∃ len r, GnuWordAt gnuUnits m len r)
    (hy : ((l.flatMap D).map fun p => |p.total.years|).sum < 2 ^ 63)
    (hmo : ((l.flatMap D).map fun p => |p.total.months|).sum < 2 ^ 63)
    (hn : ((l.flatMap D).map fun p => |p.total.nanoseconds|).sum ≤ maxNanos)
    (hperm : l.Perm l') (hs : Joined PosixSpace l s) (hs' : Joined PosixSpace l' s') :
    ∃ y mo d d', Gnu.parseFuzzy s = .ok (y, mo, d) ∧ Gnu.parseFuzzy s' = .ok (y, mo, d') ∧ d.WF ∧ d'.WF ∧
      y = ((l.flatMap D).map (·.total.years)).sum ∧ mo = ((l.flatMap D).map (·.total.months)).sum ∧
      nanos d = ((l.flatMap D).map (·.total.nanoseconds)).sum ∧ nanos d' = nanos d := by
  have hl' : ∀ t ∈ l', IsText t ∧ ∃ m, Trimmed t m ∧ RelativeTime m (D t) ∧ ¬ ∃ len r, GnuWordAt gnuUnits m len r :=
    fun t ht => hl t (hperm.mem_iff.2 ht)
  have hP := hperm.flatMap_right D
  have key : ∀ (L : List GnuPart), (L.map fun p => |p.total.years|).sum < 2 ^ 63 → (L.map fun p => |p.total.months|).sum < 2 ^ 63 →
      (L.map fun p => |p.total.nanoseconds|).sum ≤ maxNanos → ∀ k, k ≤ L.length → (exactTotal (L.take k)).InRange := by
    intro L h1 h2 h3 k _
    have b : ∀ f : GnuPart → Int, |((L.take k).map f).sum| ≤ (L.map fun p => |f p|).sum := by
      intro f
      have := take_sum_bound (L.map f) k
      rw [List.map_map, ← List.map_take] at this
      exact this
    have b1 := abs_le.1 (b (·.total.years))
    have b2 := abs_le.1 (b (·.total.months))
    have b3 := abs_le.1 (b (·.total.nanoseconds))
    refine ⟨⟨?_, ?_⟩, ⟨?_, ?_⟩, ⟨?_, ?_⟩⟩
    · show (-2 ^ 63 : Int) ≤ ((L.take k).map (·.total.years)).sum
      omega
    · show ((L.take k).map (·.total.years)).sum ≤ (2 ^ 63 - 1 : Int)
      omega
    · show (-2 ^ 63 : Int) ≤ ((L.take k).map (·.total.months)).sum
      omega
    · show ((L.take k).map (·.total.months)).sum ≤ (2 ^ 63 - 1 : Int)
      omega
    · show -maxNanos ≤ ((L.take k).map (·.total.nanoseconds)).sum
      omega
    · show ((L.take k).map (·.total.nanoseconds)).sum ≤ maxNanos
      omega
  obtain ⟨m, g1, g2⟩ := joined_relative D hs fun t ht => (hl t ht).2
  obtain ⟨m', g1', g2'⟩ := joined_relative D hs' fun t ht => (hl' t ht).2
  have t1 := joined_isText (fun b hb => posixSpace_ascii hb) hs fun t ht => (hl t ht).1
  have t2 := joined_isText (fun b hb => posixSpace_ascii hb) hs' fun t ht => (hl' t ht).1
  obtain ⟨d, k1, k2, k3⟩ := C82_exact s m _ t1 g1 g2 (key _ hy hmo hn)
  obtain ⟨d', k1', k2', k3'⟩ := C82_exact s' m' _ t2 g1' g2'
    (key _ ((hP.map fun p : GnuPart => |p.total.years|).sum_eq ▸ hy) ((hP.map fun p : GnuPart => |p.total.months|).sum_eq ▸ hmo)
      ((hP.map fun p : GnuPart => |p.total.nanoseconds|).sum_eq ▸ hn))
  refine ⟨_, _, d, d', k1, ?_, k2, k2', rfl, rfl, k3, ?_⟩
  · rw [k1', (hP.map fun p : GnuPart => p.total.years).sum_eq, (hP.map fun p : GnuPart => p.total.months).sum_eq]
  · rw [k3, k3', (hP.map fun p : GnuPart => p.total.nanoseconds).sum_eq]

/-! ## Concrete cases -/

/-- C97, the conditions are necessary: with saturation and negative durations the order matters. -/
theorem C97_order_matters : ∃ a b, (joinParser.allowNegative true).parse (b! "18446744073709551615s 1s -1s") = .ok a ∧
    (joinParser.allowNegative true).parse (b! "18446744073709551615s -1s 1s") = .ok b ∧ nanos a ≠ nanos b :=
  ⟨⟨false, ⟨18446744073709551614, 999999999⟩⟩, ⟨false, ⟨18446744073709551615, 0⟩⟩, by decide +kernel, by decide +kernel, by decide⟩

theorem joinParser_follow {b : UInt8} {t : Bytes} (h : b ≠ 32 ∧ b ≠ 9 ∧ b ≠ 10 ∧ b ≠ 12 ∧ b ≠ 13) (hd : IsDigit b) :
    CanFollow joinParser.config joinParser.timeUnits.like (b :: t) :=
  C68_numbers_follow _ _ _ _ _ joinParser_orderly ⟨b, t, rfl, by left; left; exact hd⟩
    (by
      rw [startsWith_cons]
      have : isAsciiWhitespace b = false := by
        obtain ⟨h1, h2, h3, h4, h5⟩ := h
        unfold isAsciiWhitespace
        simp [h1, h2, h3, h4, h5]
      rintro (h | h) <;> exact absurd (h.symm.trans this) (by decide))
    (by intro w h; cases h)

example : ∃ e, joinParser.parse (b! "1h 2m 0.5s\t 3d") = .ok e ∧ joinParser.parse (b! "3d  1h 2m 0.5s") = .ok e := by
  have hmem : ∀ t ∈ [b! "1h 2m", b! "0.5s", b! "3d"], IsText t ∧ CanFollow joinParser.config joinParser.timeUnits.like t ∧
      ∃ d, Fundu.parse joinParser.config joinParser.timeUnits.like none none t = .ok d := by
    intro t ht
    rcases List.mem_cons.1 ht with rfl | ht
    · exact ⟨isText_ascii (by decide), joinParser_follow (b := 49) (by decide) (by decide), ⟨false, ⟨3720, 0⟩⟩, by decide +kernel⟩
    rcases List.mem_cons.1 ht with rfl | ht
    · exact ⟨isText_ascii (by decide), joinParser_follow (b := 48) (by decide) (by decide), ⟨false, ⟨0, 500000000⟩⟩, by decide +kernel⟩
    rcases List.mem_cons.1 ht with rfl | ht
    · exact ⟨isText_ascii (by decide), joinParser_follow (b := 51) (by decide) (by decide), ⟨false, ⟨259200, 0⟩⟩, by decide +kernel⟩
    · cases ht
  exact C97_order joinParser.config joinParser.timeUnits.like none none _ [b! "3d", b! "1h 2m", b! "0.5s"] _ _
    ⟨defaultConfig_text.inner, defaultConfig_text.outer, by intro ws h; cases h⟩ rfl (Or.inl fun _ h => h) joinParser_orderly
    (by intro w h; cases h) rfl hmem (by decide)
    (.snoc (l := [b! "1h 2m", b! "0.5s"]) (s := b! "1h 2m 0.5s") (gap := b! "\t ")
      (.snoc (l := [b! "1h 2m"]) (gap := b! " ") .one (by decide) (by decide)) (by decide) (by decide))
    (.snoc (l := [b! "3d", b! "1h 2m"]) (s := b! "3d  1h 2m") (gap := b! " ")
      (.snoc (l := [b! "3d"]) (gap := b! "  ") .one (by decide) (by decide)) (by decide) (by decide))

example : ∃ y mo d d', Gnu.parseFuzzy (b! "-3 days +yesterday  2years") = .ok (y, mo, d) ∧
    Gnu.parseFuzzy (b! "2years -3 days\t+yesterday") = .ok (y, mo, d') ∧ d.WF ∧ d'.WF ∧ y = 2 ∧ mo = 0 ∧
    nanos d = -345600000000000 ∧ nanos d' = nanos d := by
  have hnil : IsSpaces [] := by intro b hb; cases hb
  have hsp : IsSpaces (b! " ") := by unfold IsSpaces; decide
  have s1 : Sentence (b! "-3 days") [.exact (-259200000000000)] :=
    .last (sg := b! "-") (.minus hnil) (.count (W := b! "3") (sp := b! " ") (len := .seconds 86400) (by decide) (by decide) hsp
      (.unit ⟨[b! "days", b! "day"], by decide, b! "days", by decide, rfl⟩))
  have s2 : Sentence (b! "+yesterday") [.exact (-86400000000000)] :=
    .last (sg := b! "+") (.plus hnil) (.keyword (len := .seconds (-86400)) ⟨[b! "yesterday"], by decide, b! "yesterday", by decide, rfl⟩)
  have s3 : Sentence (b! "2years") [.years 2] :=
    .last (sg := []) .none (.count (W := b! "2") (sp := []) (len := .years) (by decide) (by decide) hnil
      (.unit ⟨[b! "years", b! "year"], by decide, b! "years", by decide, rfl⟩))
  have hrel : ∀ {t l}, Sentence t l → Trimmed t t ∧ RelativeTime t l := by
    intro t l h
    have := Gnu.sentence_trimmed h hnil hnil
    rw [List.nil_append, List.append_nil] at this
    exact ⟨this, (Gnu.sentence_relative h).1⟩
  have hmem : ∀ t ∈ [b! "-3 days", b! "+yesterday", b! "2years"], IsText t ∧ ∃ m, Trimmed t m ∧
      RelativeTime m ((fun t => if t = b! "-3 days" then [.exact (-259200000000000)] else if t = b! "+yesterday" then
        [.exact (-86400000000000)] else [.years 2]) t) ∧ ¬ ∃ len r, GnuWordAt gnuUnits m len r := by
    intro t ht
    rcases List.mem_cons.1 ht with rfl | ht
    · exact ⟨isText_ascii (by decide), _, (hrel s1).1, (hrel s1).2, not_unit_start ⟨45, b! "3 days", rfl, Or.inr (Or.inr rfl)⟩⟩
    rcases List.mem_cons.1 ht with rfl | ht
    · exact ⟨isText_ascii (by decide), _, (hrel s2).1, (hrel s2).2, not_unit_start ⟨43, b! "yesterday", rfl, Or.inr (Or.inl rfl)⟩⟩
    rcases List.mem_cons.1 ht with rfl | ht
    · exact ⟨isText_ascii (by decide), _, (hrel s3).1, (hrel s3).2, not_unit_start ⟨50, b! "years", rfl, Or.inl (by decide)⟩⟩
    · cases ht
  exact C97_gnu _ [b! "2years", b! "-3 days", b! "+yesterday"] _ _ _ hmem (by decide) (by decide) (by decide) (by decide)
    (.snoc (l := [b! "-3 days", b! "+yesterday"]) (s := b! "-3 days +yesterday") (gap := b! "  ")
      (.snoc (l := [b! "-3 days"]) (gap := b! " ") .one hsp (by decide)) (by decide) (by decide))
    (.snoc (l := [b! "2years", b! "-3 days"]) (s := b! "2years -3 days") (gap := b! "\t")
      (.snoc (l := [b! "2years"]) (gap := b! " ") .one hsp (by decide)) (by decide) (by decide))

example : ∃ e, parseMax false Systemd.TimeSpanParser.new (b! "5 1h 2min  3") Systemd.SYSTEMD_MAX_MICRO_DURATION = .ok e ∧
    parseMax false Systemd.TimeSpanParser.new (b! "3\n5 1h 2min") Systemd.SYSTEMD_MAX_MICRO_DURATION = .ok e :=
  C97_systemd false .second _ (by decide) rfl [b! "5 1h 2min", b! "3"] [b! "3", b! "5 1h 2min"] _ _
    (by
      intro t ht
      rcases List.mem_cons.1 ht with rfl | ht
      · exact ⟨isText_ascii (by decide), ⟨b! "5 1h 2min", ⟨[], [], rfl, by decide, by decide, by decide, by decide⟩, 53, _, rfl,
          Or.inl (Or.inl (by decide))⟩, ⟨false, ⟨3725, 0⟩⟩, by decide +kernel⟩
      · rcases List.mem_cons.1 ht with rfl | ht
        · exact ⟨isText_ascii (by decide), ⟨b! "3", ⟨[], [], rfl, by decide, by decide, by decide, by decide⟩, 51, _, rfl,
            Or.inl (Or.inl (by decide))⟩, ⟨false, ⟨3, 0⟩⟩, by decide +kernel⟩
        · cases ht)
    (by decide) (.snoc (l := [b! "5 1h 2min"]) (gap := b! "  ") .one (by decide) (by decide))
    (.snoc (l := [b! "3"]) (gap := b! "\n") .one (by decide) (by decide))

end Fundu.Props
