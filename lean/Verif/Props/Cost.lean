import Verif.Proofs.CostQuadratic
import Verif.Proofs.GnuErrors
import Verif.Model.Systemd
/-!
# Property C103: parsing takes a number of steps which is linear in the length of the input

`Model/Cost.lean` is the model of the parser with a count of steps, `Cost.parse … = ⟨cost, res⟩`.
-/
namespace Fundu.Props
open Fundu

/-- each byte which may separate a number from its time unit may also separate two durations -/
def InnerIsOuter (cfg : Config) : Prop := ∀ b, cfg.innerDelimiter b = true → cfg.outerDelimiter b = true

/-- the steps for each byte: a number which depends on nothing but the conjunctions which are configured -/
def stepsPerByte (cfg : Config) : Nat := 122 + 8 * ((cfg.conjunctions.getD []).map (fun word => word.length + 1)).sum

/-- C103: the counting parser is the parser. -/
theorem C103_same (cfg : Config) (units : TimeUnitsLike) (keywords : Option TimeUnitsLike) (numerals : Option NumbersLike) (s : Bytes) :
    (Cost.parse cfg units keywords numerals s).res = parse cfg units keywords numerals s :=
  Cost.parseWith_res rfl s

theorem partCost_eq (cfg : Config) : 28 + Cost.durationCost cfg = stepsPerByte cfg := by
  unfold Cost.durationCost Cost.partCost Cost.connCost Cost.wordsCost stepsPerByte
  omega

theorem linear_of (cfg : Config) (n : Nat) : 28 * n + Cost.durationCost cfg * (n + 1) ≤ stepsPerByte cfg * (n + 1) := by
  rw [← partCost_eq, Nat.add_mul]
  omega

/-- C103: a single duration, with any configuration. -/
theorem C103_single (cfg : Config) (units : TimeUnitsLike) (keywords : Option TimeUnitsLike) (numerals : Option NumbersLike) (s : Bytes)
    (hm : cfg.allowMultiple = false) :
    (Cost.parse cfg units keywords numerals s).cost ≤ 24 * s.length + 86 := by
  unfold Cost.parse Cost.parseWith
  rw [if_neg (by show ¬ cfg.allowMultiple = true; rw [hm]; exact Bool.false_ne_true)]
  exact Cost.parseSingle_cost _ s

/-- C103: whether the input is accepted or not, whatever the tables contain, and with any number of durations. -/
theorem C103_linear (cfg : Config) (units : TimeUnitsLike) (keywords : Option TimeUnitsLike) (numerals : Option NumbersLike) (s : Bytes)
    (h : cfg.allowMultiple = false ∨ InnerIsOuter cfg) :
    (Cost.parse cfg units keywords numerals s).cost ≤ stepsPerByte cfg * (s.length + 1) := by
  cases hm : cfg.allowMultiple with
  | false =>
    refine Nat.le_trans (C103_single cfg units keywords numerals s hm) ?_
    refine Nat.le_trans ?_ (linear_of cfg s.length)
    have : 86 ≤ Cost.durationCost cfg * (s.length + 1) := by
      refine Nat.le_trans ?_ (Nat.le_mul_of_pos_right _ (Nat.succ_pos _))
      unfold Cost.durationCost Cost.partCost Cost.connCost
      omega
    omega
  | true =>
    have H : InnerIsOuter cfg := by
      rcases h with h | h
      · rw [hm] at h; cases h
      · exact h
    unfold Cost.parse Cost.parseWith
    rw [if_pos hm]
    exact Nat.le_trans (Cost.parseMultiple_cost (env := { cfg := cfg, units := units, keywords := keywords, numerals := numerals }) H s) (linear_of cfg s.length)

/-! ## The parsers of the crates -/

/-- C103: the systemd parser after trimming, with both of its tables and any default time unit. -/
theorem C103_systemd (unit : TimeUnit) (units : TimeUnitsLike) (s : Bytes) :
    (Cost.parse (Systemd.TimeSpanParser.withDefaultUnit unit).config units none none s).cost ≤ 122 * (s.length + 1) :=
  C103_linear _ units none none s (Or.inr fun _ h => h)

/-- C103: the counting loop of the gnu parser is its loop. -/
theorem C103_gnu_same (fuel : Nat) (t : Gnu.Totals) (c : Cursor) :
    (Cost.fuzzyLoop (Gnu.env Gnu.CONFIG) fuel t c).res = Gnu.fuzzyLoop (Gnu.env Gnu.CONFIG) fuel t c :=
  Cost.fuzzyLoop_res rfl fuel t c

/-- C103: the gnu parser after trimming, up to the arithmetic with dates. -/
theorem C103_gnu (t : Gnu.Totals) (s : Bytes) :
    (Cost.fuzzyLoop (Gnu.env Gnu.CONFIG) (s.length + 1) t (Cursor.new s)).cost ≤ 122 * (s.length + 1) := by
  have := Cost.fuzzyLoop_cost (env := Gnu.env Gnu.CONFIG) (fun _ h => h) (s.length + 1) t (Cost.wf_new _ s)
  have e : Cost.left (Cursor.new s) = s.length := rfl
  rw [e] at this
  have h2 := linear_of (Gnu.env Gnu.CONFIG).cfg s.length
  have e2 : stepsPerByte (Gnu.env Gnu.CONFIG).cfg = 122 := rfl
  rw [e2] at h2
  omega

/-- C103: the condition is necessary. With the inner delimiters `s` and `,` and the outer delimiter `,` there is no constant at all: each `s` is
a time unit which is followed by an inner delimiter, and the search for `ago` skips all the rest of the text each time. -/
theorem C103_condition :
    ∃ (cfg : Config) (units : TimeUnitsLike) (keywords : Option TimeUnitsLike), cfg.allowMultiple = true ∧ ¬ InnerIsOuter cfg ∧
      ∀ K : Nat, ∃ s : Bytes, K * (s.length + 1) < (Cost.parse cfg units keywords none s).cost := by
  refine ⟨Cost.strangeDelimiters, Systemd.TIME_UNITS, some Gnu.TIME_KEYWORDS, rfl, fun h => ?_, fun K => ⟨Cost.strangeText (2 * K + 5), ?_⟩⟩
  · have : (Cost.strangeDelimiters).outerDelimiter 115 = true := h 115 rfl
    cases this
  · have h := Cost.strange_cost (2 * K + 5)
    have hl := Cost.strangeText_length (2 * K + 5)
    rw [hl]
    have e : (2 * K + 5) * (2 * K + 5) = K * (2 * (2 * K + 5) + 1 + 1) + (8 * K + 25) := by ring
    rw [e] at h
    have : (Cost.parse Cost.strangeDelimiters Systemd.TIME_UNITS (some Gnu.TIME_KEYWORDS) none (Cost.strangeText (2 * K + 5))).cost =
      (Cost.parseWith Cost.strangeEnv (Cost.strangeText (2 * K + 5))).cost := rfl
    omega

/-! ## Examples -/

/-- and a text of twice the length takes more than three times as many steps: `n * n + 18 * n + 15` for `n` time units -/
example : [0, 1, 2, 3, 10, 20, 40].map (fun n => (Cost.parse Cost.strangeDelimiters Systemd.TIME_UNITS (some Gnu.TIME_KEYWORDS) none (Cost.strangeText n)).cost) =
    [15, 34, 55, 78, 295, 775, 2335] := by decide +kernel

/-- the gnu parser, and the systemd parser with a text which is accepted and one which is not -/
example : ((Cost.fuzzyLoop (Gnu.env Gnu.CONFIG) 18 ⟨0, 0, Duration.ZERO⟩ (Cursor.new (b! "1 day -2 hour ago"))).cost,
    (Cost.parse Systemd.CONFIG Systemd.TIME_UNITS none none (b! "1h 20min 3.5s")).cost,
    (Cost.parse Systemd.CONFIG Systemd.TIME_UNITS none none (b! "1h 20min 3.5x")).cost) = (57, 70, 80) := by decide +kernel

/-- the configurations of the crates meet the condition -/
example : InnerIsOuter Systemd.CONFIG ∧ InnerIsOuter Gnu.CONFIG ∧ InnerIsOuter ({} : Config) ∧ Systemd.CONFIG.allowMultiple = true ∧
    Gnu.CONFIG.allowMultiple = true := ⟨fun _ h => h, fun _ h => h, fun _ h => h, rfl, rfl⟩

/-- and the constant for a parser with the conjunctions `and` and `,` -/
example : stepsPerByte { allowMultiple := true, conjunctions := some [b! "and", b! ","] } = 170 := by decide +kernel

end Fundu.Props
