import Verif.Proofs.SafeParse
import Verif.Proofs.Text
import Verif.Spec.Settings
/-!
# Properties C11, C13, C22-C26: scanning digits; panics, termination, error positions, negative results
-/
namespace Fundu.Props
open Fundu Fundu.Spec

/-! ## C11, C13 -/

/-- C11: the test on a whole 8 byte word accepts 8 bytes iff each of them is an ASCII digit; with fewer
than 8 bytes left nothing is read. -/
theorem C11_eight_at_once (pre s : Bytes) (buffer : Option (Nat × Bytes × Option UInt8)) :
    ∃ r, Cursor.parse8 ⟨pre ++ s, pre.length, buffer⟩ = .ok r ∧
      (r.isSome = true ↔ ∃ D post, s = D ++ post ∧ D.length = 8 ∧ AllDigits D) := by
  have hp : (⟨pre ++ s, pre.length, buffer⟩ : Cursor).pos ≤ (⟨pre ++ s, pre.length, buffer⟩ : Cursor).input.length := by
    simp
  have hrest : (⟨pre ++ s, pre.length, buffer⟩ : Cursor).rest = s := by simp [Cursor.rest]
  rw [Cursor.parse8_eq _ hp, hrest]
  refine ⟨_, rfl, ?_⟩
  by_cases h : 8 ≤ s.length ∧ AllDigits (s.take 8)
  · rw [if_pos h]
    refine ⟨fun _ => ⟨s.take 8, s.drop 8, (List.take_append_drop _ _).symm, ?_, h.2⟩, fun _ => rfl⟩
    rw [List.length_take]; omega
  · rw [if_neg h]
    refine ⟨(fun h => by cases h), ?_⟩
    rintro ⟨D, post, rfl, h1, h2⟩
    refine absurd ⟨by rw [List.length_append]; omega, ?_⟩ h
    rw [← h1, List.take_left]; exact h2

theorem takeWhile_run {p : UInt8 → Bool} {D post : Bytes} (hD : ∀ b ∈ D, p b = true)
    (hpost : ∀ b, post.head? = some b → p b = false) : (D ++ post).takeWhile p = D := by
  rw [List.takeWhile_append_of_pos hD]
  cases post with
  | nil => simp
  | cons a l => rw [List.takeWhile_cons, hpost a rfl]; simp

theorem digits_run {pre D post : Bytes} {buffer : Option (Nat × Bytes × Option UInt8)} (hD : AllDigits D)
    (hpost : ∀ b, post.head? = some b → ¬ IsDigit b) :
    (⟨pre ++ D ++ post, pre.length, buffer⟩ : Cursor).digits = D := by
  have hrest : (⟨pre ++ D ++ post, pre.length, buffer⟩ : Cursor).rest = D ++ post := by simp [Cursor.rest]
  rw [Cursor.digits, hrest]
  refine takeWhile_run (fun b hb => (isDigit_iff b).mpr (hD b hb)) (fun b hb => ?_)
  have := hpost b hb
  rw [← isDigit_iff] at this
  simpa using this

theorem cur_run {pre D post : Bytes} {buffer : Option (Nat × Bytes × Option UInt8)} (hD : AllDigits D)
    (hne : D ≠ []) : ∃ b, (⟨pre ++ D ++ post, pre.length, buffer⟩ : Cursor).cur = some b ∧ isDigit b = true := by
  cases D with
  | nil => exact absurd rfl hne
  | cons a l => exact ⟨a, by simp [Cursor.cur], (isDigit_iff a).mpr (hD a (by simp))⟩

/-- C11: scanning digits (8 at once, then one at a time) consumes exactly the maximal run `D` of ASCII
digits, whatever follows. -/
theorem C11_scan_digits (pre D post : Bytes) (buffer : Option (Nat × Bytes × Option UInt8)) (hD : AllDigits D)
    (hne : D ≠ []) (hpost : ∀ b, post.head? = some b → ¬ IsDigit b) :
    Cursor.parseDigits ⟨pre ++ D ++ post, pre.length, buffer⟩ =
      .ok (⟨pre.length, pre.length + D.length⟩, ⟨pre ++ D ++ post, pre.length + D.length, buffer⟩) := by
  obtain ⟨b, hb, hd⟩ := cur_run (pre := pre) (post := post) (buffer := buffer) hD hne
  rw [Cursor.parseDigits_eq _ (by simp) b hb hd, digits_run hD hpost]
  rfl

/-- C13: scanning the whole part of a number consumes the maximal run of digits too, and the range it
returns is that run without its leading zeros. -/
theorem C13_strip_zeros (pre Z D post : Bytes) (buffer : Option (Nat × Bytes × Option UInt8))
    (hZ : ∀ b ∈ Z, b = 48) (hD : AllDigits D) (h0 : D.head? ≠ some 48) (hne : Z ++ D ≠ [])
    (hpost : ∀ b, post.head? = some b → ¬ IsDigit b) :
    Cursor.parseDigitsStripZeros ⟨pre ++ (Z ++ D) ++ post, pre.length, buffer⟩ =
      .ok (⟨pre.length + Z.length, pre.length + Z.length + D.length⟩,
        ⟨pre ++ (Z ++ D) ++ post, pre.length + Z.length + D.length, buffer⟩) := by
  have hZD : AllDigits (Z ++ D) := by
    intro b hb
    rcases List.mem_append.mp hb with hb | hb
    · rw [hZ b hb]; decide
    · exact hD b hb
  obtain ⟨b, hb, hd⟩ := cur_run (pre := pre) (post := post) (buffer := buffer) hZD hne
  have hz : Cursor.zeros (Z ++ D) = Z.length := by
    rw [Cursor.zeros, takeWhile_run (fun b hb => by simpa using hZ b hb) (fun b hb => ?_)]
    simp only [decide_eq_false_iff_not]
    rintro rfl
    exact h0 hb
  rw [Cursor.parseDigitsStripZeros_eq _ (by simp) b hb hd, digits_run hZD hpost, hz]
  simp [Cursor.advanceBy, Nat.add_assoc]

/-- nine digits, two of them leading zeros, followed by a byte above 0x80 -/
example : AllDigits (b! "1234567") ∧ (∀ b ∈ b! "00", b = 48) ∧ (b! "1234567").head? ≠ some 48 ∧
    ∀ b, [(0xb5 : UInt8)].head? = some b → ¬ IsDigit b := by
  refine ⟨by decide, by decide, by decide, ?_⟩
  intro b hb
  cases hb
  decide

/-! ## Settings for the examples below -/

/-- seconds, micro seconds with a non-ASCII identifier and a user defined unit -/
def exampleUnits : TimeUnitsLike where
  isEmpty := false
  get := fun id =>
    if id = b! "s" then some (.second, ⟨1, 0⟩)
    else if id = b! "µs" then some (.microSecond, ⟨1, 0⟩)
    else if id = b! "century" then some (.year, ⟨100, 0⟩) else none

/-- a keyword with a negative multiplier -/
def exampleKeywords : TimeUnitsLike where
  isEmpty := false
  get := fun id => if id = b! "yesterday" then some (.day, ⟨-1, 0⟩) else none

/-- one numeral -/
def exampleNumerals : NumbersLike := fun id => if id = b! "two" then some ⟨2, 0⟩ else none

/-- multiple durations with conjunctions, delimiters, `ago`, but no negative durations -/
def exampleConfig : Config :=
  { allowMultiple := true, conjunctions := some [b! "and"], allowAgo := true, numberIsOptional := true,
    allowSignDelimiter := true }

theorem exampleConfig_text : CfgText exampleConfig := by
  have hw : AsciiDelimiter isAsciiWhitespace := by
    intro b hb
    simp only [isAsciiWhitespace, Bool.or_eq_true, decide_eq_true_eq] at hb
    rcases hb with (((rfl | rfl) | rfl) | rfl) | rfl <;> decide
  refine ⟨hw, hw, ?_⟩
  intro ws h w hw
  cases h
  simp only [List.mem_singleton] at hw
  subst hw
  exact ⟨['a', 'n', 'd'], by decide⟩

theorem exampleUnits_fits : TableFits exampleUnits := by
  intro id u m h
  simp only [exampleUnits] at h
  split at h
  · cases h; decide
  · split at h
    · cases h; decide
    · split at h
      · cases h; decide
      · cases h

theorem exampleKeywords_fits : TableFits exampleKeywords := by
  intro id u m h
  simp only [exampleKeywords] at h
  split at h
  · cases h; decide
  · cases h

theorem exampleNumerals_fit : NumeralsFit exampleNumerals exampleUnits := by
  intro id q hq id' u m h
  simp only [exampleNumerals] at hq
  split at hq
  · cases hq
    simp only [exampleUnits] at h
    split at h
    · cases h; refine ⟨by decide, ?_⟩; rintro c (rfl | rfl) <;> decide
    · split at h
      · cases h; refine ⟨by decide, ?_⟩; rintro c (rfl | rfl) <;> decide
      · split at h
        · cases h; refine ⟨by decide, ?_⟩; rintro c (rfl | rfl) <;> decide
        · cases h
  · cases hq

theorem exampleInput_text : IsText (b! "two s and 1.5µs +0.1century") :=
  ⟨"two s and 1.5µs +0.1century".toList, by decide +kernel⟩

/-! ## C22 -/

theorem accumulate_nonneg {d p s : Duration} (hd : d.isNegative = false) (hp : p.isNegative = false)
    (h : accumulate d p = .ok s) : s.isNegative = false := by
  unfold accumulate at h
  by_cases h1 : p.isZero = true
  · rw [if_pos h1] at h; cases h; exact hd
  · rw [if_neg h1] at h
    by_cases h2 : d.isZero = true
    · rw [if_pos h2] at h; cases h; exact hp
    · rw [if_neg h2] at h
      simp only [Duration.saturatingAdd, Duration.checkedAdd, hd, hp] at h
      cases hc : d.inner.checkedAdd p.inner with
      | none =>
        rw [hc] at h
        cases h; rfl
      | some x =>
        rw [hc] at h
        cases h; rfl

theorem parseRepr_nonneg {cfg : Config} (hn : cfg.allowNegative = false) {r : DurationRepr} {d : Duration}
    (h : parseRepr cfg r = .ok d) : d.isNegative = false := by
  unfold parseRepr at h
  cases hp : liftP r.parse with
  | error e => rw [hp] at h; cases h
  | ok p =>
    rw [hp, ok_bind] at h
    by_cases hr : rejectNegative cfg p = true
    · rw [if_pos hr] at h; cases h
    · rw [if_neg hr] at h
      cases h
      simpa [rejectNegative, hn] using hr

theorem bind_ok {α β} {x : R α} {f : α → R β} {b : β} (h : (x >>= f) = .ok b) : ∃ a, x = .ok a ∧ f a = .ok b := by
  cases x with
  | ok a => exact ⟨a, rfl, h⟩
  | error e => cases h

theorem parseMultipleLoop_nonneg {env : Env} (hn : env.cfg.allowNegative = false) (fuel : Nat) (d : Duration)
    (c : Cursor) (hd : d.isNegative = false) {r : Duration} (h : parseMultipleLoop env fuel d c = .ok r) :
    r.isNegative = false := by
  induction fuel generalizing d c with
  | zero => cases h
  | succ fuel ih =>
    unfold parseMultipleLoop at h
    obtain ⟨⟨repr, next⟩, -, h⟩ := bind_ok h
    obtain ⟨p, hp, h⟩ := bind_ok h
    obtain ⟨s, hs, h⟩ := bind_ok h
    have hs' := accumulate_nonneg hd (parseRepr_nonneg hn hp) hs
    cases next with
    | none => cases h; exact hs'
    | some c' => exact ih s c' hs' h

/-- C22: with `allow_negative` off, every duration returned is non-negative, for all inputs, settings and
tables. -/
theorem C22_nonnegative (cfg : Config) (units : TimeUnitsLike) (keywords : Option TimeUnitsLike)
    (numerals : Option NumbersLike) (s : Bytes) (d : Duration) (hn : cfg.allowNegative = false)
    (h : parse cfg units keywords numerals s = .ok d) : d.isNegative = false ∧ 0 ≤ nanos d := by
  have hd : d.isNegative = false := by
    unfold parse parseWith at h
    simp only at h
    by_cases hm : cfg.allowMultiple = true
    · rw [if_pos hm] at h
      exact parseMultipleLoop_nonneg hn _ _ _ rfl h
    · rw [if_neg hm] at h
      obtain ⟨⟨repr, next⟩, -, h⟩ := bind_ok h
      exact parseRepr_nonneg hn h
  refine ⟨hd, ?_⟩
  rw [nanos, if_neg (by simp [hd])]
  omega

/-- negative durations are not allowed, `0.1century` is 3155760000 s / 10 -/
example : exampleConfig.allowNegative = false ∧
    parse exampleConfig exampleUnits (some exampleKeywords) (some exampleNumerals)
      (b! "two s and 1.5µs +0.1century") = .ok ⟨false, 315576002, 1500⟩ ∧
    parse exampleConfig exampleUnits (some exampleKeywords) (some exampleNumerals) (b! "2s yesterday") =
      fail .negativeNumber := by decide +kernel

/-! ## C23-C26 -/

theorem cfgOk_of_text {cfg : Config} (h : CfgText cfg) : CfgOk cfg where
  inner := h.inner
  outer := h.outer
  conjunctions := by
    intro w hw
    cases hc : cfg.conjunctions with
    | none => rw [hc] at hw; cases hw
    | some ws =>
      rw [hc] at hw
      exact (isText_iff w).mp (h.conjunctions ws hc w hw)

theorem envOk_of_text {cfg : Config} (h : CfgText cfg) (units : TimeUnitsLike) (keywords : Option TimeUnitsLike)
    (numerals : Option NumbersLike) :
    EnvOk { cfg := cfg, units := units, keywords := keywords, numerals := numerals } where
  cfg := cfgOk_of_text h
  scan := fun _ _ _ hd hc => Cursor.bufferedAdvanceTo_safe hd hc

theorem checkedMul_of_fits {a b : Multiplier} (h : Fits a b) :
    a.checkedMul b = some ⟨a.coefficient * b.coefficient, a.exponent + b.exponent⟩ := by
  unfold Multiplier.checkedMul checkedI64 checkedI16
  rw [if_pos h.1, if_pos h.2]

theorem tableOk_of_fits {t : TimeUnitsLike} (h : TableFits t) : TableOk t := by
  intro id u m hg
  obtain ⟨h1, h2, h3⟩ := h id u m hg
  exact ⟨⟨h1, h2⟩, by rw [checkedMul_of_fits h3]; rfl⟩

theorem numeralsOk_of_fit {n : NumbersLike} {t : TimeUnitsLike} (ht : TableFits t) (h : NumeralsFit n t) :
    NumeralsOk n t := by
  intro id q hq id' u m hg
  obtain ⟨h1, h2⟩ := h id q hq id' u m hg
  refine ⟨_, checkedMul_of_fits h1, ?_, ?_⟩
  · rw [checkedMul_of_fits (h2 m.coefficient (Or.inl rfl))]; rfl
  · rw [checkedMul_isSome]
    obtain ⟨hm, -, -⟩ := ht id' u m hg
    obtain ⟨h3, h3'⟩ := h2 (-m.coefficient) (Or.inr rfl)
    refine ⟨?_, h3'⟩
    simp only at h3 ⊢
    unfold Multiplier.saturatingNeg saturatingNegI64
    split
    · rename_i he
      obtain ⟨h4, -⟩ := h2 m.coefficient (Or.inl rfl)
      simp only at h4 ⊢
      rw [he] at h3 h4
      generalize q.coefficient * u.multiplier.coefficient = x at *
      rw [isI64_iff] at *
      unfold I64_MIN I64_MAX at *
      omega
    · exact h3

/-- C23: for every text, all settings with ASCII delimiters and all tables whose products fit, the parser
returns a duration or an error: it does not panic, no safety contract of the unsafe code is violated, and the
duration is well formed. -/
theorem C23_no_panic (cfg : Config) (units : TimeUnitsLike) (keywords : Option TimeUnitsLike)
    (numerals : Option NumbersLike) (s : Bytes) (hs : IsText s) (hc : CfgText cfg) (hu : TableFits units)
    (hk : ∀ k, keywords = some k → TableFits k) (hn : ∀ n, numerals = some n → NumeralsFit n units) :
    (∃ d, parse cfg units keywords numerals s = .ok d ∧ d.WF) ∨
      (∃ e, parse cfg units keywords numerals s = fail e) := by
  by_cases hne : s = []
  · subst hne
    exact Or.inr ⟨_, parseWith_empty _⟩
  · have := parseWith_safe (envOk_of_text hc units keywords numerals) ((isText_iff s).mp hs) hne
    have ht : TablesOk { cfg := cfg, units := units, keywords := keywords, numerals := numerals } :=
      ⟨tableOk_of_fits hu, fun k hk' => tableOk_of_fits (hk k hk'),
        fun n hn' => numeralsOk_of_fit hu (hn n hn')⟩
    rcases this with h | h
    · unfold parse
      revert h
      cases hp : parseWith { cfg := cfg, units := units, keywords := keywords, numerals := numerals } s with
      | ok d => exact fun h => Or.inl ⟨d, rfl, h⟩
      | error e =>
        cases e with
        | err e => exact fun _ => Or.inr ⟨e, rfl⟩
        | panic p => exact fun h => h.elim
    · exact absurd ht h.1

/-- C23: without the assumption on the tables, the only other outcome is the panic of the multiplication of
two multipliers. -/
theorem C23_only_multiplication_panics (cfg : Config) (units : TimeUnitsLike) (keywords : Option TimeUnitsLike)
    (numerals : Option NumbersLike) (s : Bytes) (hs : IsText s) (hc : CfgText cfg) :
    (∃ d, parse cfg units keywords numerals s = .ok d ∧ d.WF) ∨
      (∃ e, parse cfg units keywords numerals s = fail e) ∨
      parse cfg units keywords numerals s = panic .unwrap := by
  by_cases hne : s = []
  · subst hne
    exact Or.inr (Or.inl ⟨_, parseWith_empty _⟩)
  · have := parseWith_safe (envOk_of_text hc units keywords numerals) ((isText_iff s).mp hs) hne
    rcases this with h | h
    · unfold parse
      revert h
      cases hp : parseWith { cfg := cfg, units := units, keywords := keywords, numerals := numerals } s with
      | ok d => exact fun h => Or.inl ⟨d, rfl, h⟩
      | error e =>
        cases e with
        | err e => exact fun _ => Or.inr (Or.inl ⟨e, rfl⟩)
        | panic p => exact fun h => h.elim
    · exact Or.inr (Or.inr h.2)

/-- the hypotheses of C23-C26 hold for the example, an input with a non-ASCII character -/
example : ∃ d, parse exampleConfig exampleUnits (some exampleKeywords) (some exampleNumerals)
    (b! "two s and 1.5µs +0.1century") = .ok d ∧ d.WF := by
  rcases C23_no_panic exampleConfig exampleUnits (some exampleKeywords) (some exampleNumerals) _
    exampleInput_text exampleConfig_text exampleUnits_fits (by intro k h; cases h; exact exampleKeywords_fits)
    (by intro n h; cases h; exact exampleNumerals_fit) with h | ⟨e, h⟩
  · exact h
  · exact ⟨⟨false, 315576002, 1500⟩, by decide +kernel, by decide⟩

/-- the assumption on the tables is necessary: a user defined unit whose product with its base unit does not fit
panics -/
example : parse {} { isEmpty := false, get := fun _ => some (.year, ⟨9223372036854775807, 0⟩) } none none (b! "1a")
    = panic .unwrap := by decide +kernel

/-- the assumption on the delimiters is necessary: with a delimiter which is a part of a character,
`from_utf8_unchecked` is called with an incomplete character -/
example : parse { allowMultiple := true, outerDelimiter := fun b => b = 0xb5 } exampleUnits none none (b! "1µs")
    = panic .utf8 := by decide +kernel

/-- C24: the loop over multiple durations runs at most `len(s) + 1` times (it is never out of fuel). -/
theorem C24_terminates (cfg : Config) (units : TimeUnitsLike) (keywords : Option TimeUnitsLike)
    (numerals : Option NumbersLike) (s : Bytes) (hs : IsText s) (hc : CfgText cfg) :
    parse cfg units keywords numerals s ≠ panic .fuel := by
  rcases C23_only_multiplication_panics cfg units keywords numerals s hs hc with ⟨d, h, -⟩ | ⟨e, h⟩ | h
  · rw [h]; intro h; cases h
  · rw [h]; intro h; cases h
  · rw [h]; intro h; cases h

/-- the cursors with which the rounds of the loop over multiple durations start -/
inductive RoundStart (env : Env) (s : Bytes) : Cursor → Prop
  | first : RoundStart env s (Cursor.new s)
  | next {c c' : Cursor} {r : DurationRepr} : RoundStart env s c →
      templateParse .multiple env c = .ok (r, some c') → RoundStart env s c'

theorem templateParse_progress {env : Env} {s : Bytes} (hc : CfgText env.cfg)
    (hscan : env.scan = Cursor.bufferedAdvanceTo) {c c' : Cursor} {r : DurationRepr} (hi : Inv s c)
    (h : templateParse .multiple env c = .ok (r, some c')) : c.pos < c'.pos ∧ c'.pos < s.length ∧ Inv s c' := by
  have he : EnvOk env := ⟨cfgOk_of_text hc, by
    rw [hscan]; exact fun _ _ _ hd hc => Cursor.bufferedAdvanceTo_safe hd hc⟩
  cases hcur : c.cur with
  | none => unfold templateParse at h; rw [hcur] at h; cases h
  | some b =>
    have := (templateParse_safe he .multiple hi (by rw [hcur]; rfl)).of_ok h
    obtain ⟨h1, h2, h3⟩ := this.2 c' rfl
    refine ⟨h2, ?_, h1⟩
    obtain ⟨b, hb⟩ := Option.isSome_iff_exists.mp h3
    have := Cursor.pos_lt_of_cur hb
    rwa [h1.input] at this

/-- C24: each round of the loop which does not end it consumes at least one byte and ends before the end of
the input. -/
theorem C24_progress (env : Env) (s : Bytes) (hs : IsText s) (hc : CfgText env.cfg)
    (hscan : env.scan = Cursor.bufferedAdvanceTo) (c c' : Cursor) (r : DurationRepr) (hi : RoundStart env s c)
    (h : templateParse .multiple env c = .ok (r, some c')) : c.pos < c'.pos ∧ c'.pos < s.length := by
  have hinv : Inv s c := by
    clear h
    induction hi with
    | first => exact Inv.new ((isText_iff s).mp hs)
    | next h1 h2 ih => exact (templateParse_progress hc hscan ih h2).2.2
  have := templateParse_progress hc hscan hinv h
  exact ⟨this.1, this.2.1⟩

/-- a round which does not end the loop -/
example : (templateParse .multiple { cfg := exampleConfig, units := exampleUnits }
    (Cursor.new (b! "1s and 2µs"))).map (fun o => o.2.map Cursor.pos) = .ok (some 7) := by decide +kernel

/-- C25: the positions in errors are at most the length of the input. -/
theorem C25_error_positions (cfg : Config) (units : TimeUnitsLike) (keywords : Option TimeUnitsLike)
    (numerals : Option NumbersLike) (s : Bytes) (hs : IsText s) (hc : CfgText cfg) (p : Nat) (reason : Reason)
    (h : parse cfg units keywords numerals s = fail (.syntax p reason) ∨
      parse cfg units keywords numerals s = fail (.timeUnit p reason)) : p ≤ s.length := by
  by_cases hne : s = []
  · subst hne
    unfold parse at h
    rw [parseWith_empty] at h
    rcases h with h | h <;> cases h
  · have := parseWith_safe (envOk_of_text hc units keywords numerals) ((isText_iff s).mp hs) hne
    unfold parse at h
    rcases this with h' | ⟨-, h'⟩
    · rcases h with h | h <;> rw [h] at h' <;> exact h'
    · rcases h with h | h <;> rw [h] at h' <;> cases h'

/-- an error with a position in the middle of the input -/
example : parse exampleConfig exampleUnits (some exampleKeywords) (some exampleNumerals) (b! "1s +µ")
    = fail (.invalidInput (.text (b! "µ"))) ∧
    parse {} exampleUnits none none (b! "1.5x") = fail (.timeUnit 3 (.invalidTimeUnit (b! "x"))) ∧
    parse {} exampleUnits none none (b! "-") = fail (.syntax 1 .signWithoutNumber) := by decide +kernel

/-- C26: the empty input, and no other, is the error `Empty`. -/
theorem C26_empty (cfg : Config) (units : TimeUnitsLike) (keywords : Option TimeUnitsLike)
    (numerals : Option NumbersLike) (s : Bytes) (hs : IsText s) (hc : CfgText cfg) :
    parse cfg units keywords numerals s = fail .empty ↔ s = [] := by
  constructor
  · intro h
    by_contra hne
    have := parseWith_safe (envOk_of_text hc units keywords numerals) ((isText_iff s).mp hs) hne
    unfold parse at h
    rcases this with h' | ⟨-, h'⟩
    · rw [h] at h'; exact h'
    · rw [h] at h'; cases h'
  · rintro rfl; exact parseWith_empty _

end Fundu.Props
