import Verif.Model.Gnu
import Verif.Spec.Gnu
import Verif.Proofs.Swar
/-! # The packed comparison of words is a comparison ignoring case -/
namespace Fundu.Gnu
open Fundu Fundu.Spec

/-- the byte with bit 5 set -/
def low (b : UInt8) : UInt8 := b ||| 32

theorem low_iff (b c : UInt8) (h1 : 97 ≤ c.toNat) (h2 : c.toNat ≤ 122) : low b = c ↔ lower b = c := by
  have key : ∀ n < 256, ∀ k < 256, 97 ≤ k → k ≤ 122 →
      (low (UInt8.ofNat n) = UInt8.ofNat k ↔ lower (UInt8.ofNat n) = UInt8.ofNat k) := by
    decide +kernel
  have := key b.toNat b.toNat_lt c.toNat c.toNat_lt h1 h2
  simpa using this

theorem or_digit (a b x y : Nat) (ha : a < 256) (hb : b < 256) :
    (a + 256 * x) ||| (b + 256 * y) = (a ||| b) + 256 * (x ||| y) := by
  have h1 : a + 256 * x = 2 ^ 8 * x + a := by omega
  have h2 : b + 256 * y = 2 ^ 8 * y + b := by omega
  have h3 : (a ||| b) + 256 * (x ||| y) = 2 ^ 8 * (x ||| y) + (a ||| b) := by omega
  have hab : a ||| b < 2 ^ 8 := Nat.or_lt_two_pow ha hb
  rw [h1, h2, h3, Nat.two_pow_add_eq_or_of_lt ha, Nat.two_pow_add_eq_or_of_lt hb, Nat.two_pow_add_eq_or_of_lt hab]
  apply Nat.eq_of_testBit_eq
  intro i
  simp only [Nat.testBit_or, Nat.testBit_two_pow_mul]
  cases decide (i ≥ 8) <;> cases x.testBit (i - 8) <;> cases y.testBit (i - 8) <;> cases a.testBit i <;> cases b.testBit i <;> rfl

theorem leValue_low (l : Bytes) : leValue l ||| leValue (List.replicate l.length 32) = leValue (l.map low) := by
  induction l with
  | nil => rfl
  | cons b l ih =>
    simp only [List.length_cons, List.replicate_succ, leValue, List.map_cons]
    rw [or_digit _ _ _ _ b.toNat_lt (by decide), ih]
    rfl

theorem leValue_inj {a b : Bytes} (hl : a.length = b.length) (h : leValue a = leValue b) : a = b := by
  induction a generalizing b with
  | nil =>
    cases b with
    | nil => rfl
    | cons y b => cases hl
  | cons x a ih =>
    cases b with
    | nil => cases hl
    | cons y b =>
      simp only [leValue] at h
      have h1 := x.toNat_lt
      have h2 := y.toNat_lt
      have e1 : x.toNat = y.toNat := by omega
      have e2 : leValue a = leValue b := by omega
      rw [UInt8.toNat_inj.1 e1, ih (by simpa using hl) e2]

/-- two words of 8 bytes -/
def pack (l : Bytes) : Nat × Nat := (leValue (l.take 8), leValue (l.drop 8))

theorem pack_inj {a b : Bytes} (hl : a.length = b.length) : pack a = pack b ↔ a = b := by
  constructor
  · intro h
    unfold pack at h
    rw [Prod.mk.injEq] at h
    have h1 := leValue_inj (by simp [hl]) h.1
    have h2 := leValue_inj (by simp [hl]) h.2
    rw [← List.take_append_drop 8 a, ← List.take_append_drop 8 b, h1, h2]
  · rintro rfl; rfl

theorem mask_eq (n : Nat) (h : n ≤ 8) : index LOWER_CASE_MASK n = .ok (leValue (List.replicate n 32)) := by
  have : ∀ n ≤ 8, index LOWER_CASE_MASK n = .ok (leValue (List.replicate n 32)) := by decide
  exact this n h

theorem toLowercaseU64_eq (s : Bytes) (h : s.length ≤ 16) : toLowercaseU64 s = .ok (pack (s.map low)) := by
  unfold toLowercaseU64 assert pack
  rw [decide_eq_true h]
  simp only [if_true, ← List.map_take, ← List.map_drop]
  rw [← leValue_low, ← leValue_low]
  by_cases h8 : 8 < s.length
  · rw [if_pos h8, mask_eq 8 (by decide)]
    unfold subUsize
    rw [if_pos (by omega)]
    show (do
      let b ← index LOWER_CASE_MASK (s.length - 8)
      pure (leValue (s.take 8) ||| leValue (List.replicate 8 32), leValue (s.drop 8) ||| b) : Except Panic (Nat × Nat)) = _
    rw [mask_eq _ (by omega), List.length_take, List.length_drop, Nat.min_eq_left (by omega)]
    rfl
  · rw [if_neg h8, mask_eq _ (by omega), List.take_of_length_le (by omega), List.drop_eq_nil_of_le (by omega)]
    rfl

/-- the names are in lower case -/
def LowerNames {α} (table : List (Bytes × α)) : Prop := ∀ e ∈ table, ∀ c ∈ e.1, 97 ≤ c.toNat ∧ c.toNat ≤ 122

theorem map_low_iff (s w : Bytes) (h : ∀ c ∈ w, 97 ≤ c.toNat ∧ c.toNat ≤ 122) : s.map low = w ↔ s.map lower = w := by
  induction s generalizing w with
  | nil => simp
  | cons b s ih =>
    cases w with
    | nil => simp
    | cons c w =>
      simp only [List.map_cons, List.cons.injEq]
      rw [low_iff b c (h c (by simp)).1 (h c (by simp)).2, ih w (fun c hc => h c (by simp [hc]))]

/-- the first entry of the table for a word -/
def look {α} : List (Bytes × α) → Bytes → Option α
  | [], _ => none
  | (w, a) :: l, s => if s = w then some a else look l s

theorem look_filter {α} (table : List (Bytes × α)) (s : Bytes) :
    look table s = look (table.filter (fun e => e.1.length = s.length)) s := by
  induction table with
  | nil => rfl
  | cons e l ih =>
    obtain ⟨w, a⟩ := e
    simp only [look]
    by_cases h : s = w
    · subst h
      rw [if_pos rfl, List.filter_cons, if_pos (by simp)]
      simp [look]
    · rw [if_neg h, ih, List.filter_cons]
      split
      · simp only [look, if_neg h]
      · rfl

theorem look_some {α} {table : List (Bytes × α)} (hn : (table.map Prod.fst).Nodup) {s : Bytes} {a : α} :
    look table s = some a ↔ (s, a) ∈ table := by
  induction table with
  | nil => simp [look]
  | cons e l ih =>
    obtain ⟨w, b⟩ := e
    rw [List.map_cons, List.nodup_cons] at hn
    simp only [look, List.mem_cons, Prod.mk.injEq]
    by_cases h : s = w
    · subst h
      rw [if_pos rfl]
      constructor
      · intro h; cases h; exact Or.inl ⟨rfl, rfl⟩
      · rintro (⟨-, rfl⟩ | h)
        · rfl
        · exact absurd (List.mem_map_of_mem (f := Prod.fst) h) hn.1
    · rw [if_neg h, ih hn.2]
      simp [h]

theorem matchLower_eq {α} (s : Bytes) (arms : List ((Nat × Nat) × α)) (table : List (Bytes × α))
    (h16 : s.length ≤ 16) (ha : arms = table.map (fun e => (pack e.1, e.2))) (hl : LowerNames table)
    (hn : ∀ e ∈ table, e.1.length = s.length) : matchLower s arms = .ok (look table (s.map lower)) := by
  unfold matchLower
  rw [toLowercaseU64_eq s h16]
  subst ha
  show Except.ok (matchWord (pack (s.map low)) _) = _
  congr 1
  induction table with
  | nil => rfl
  | cons e l ih =>
    obtain ⟨w, a⟩ := e
    have hw : ∀ c ∈ w, 97 ≤ c.toNat ∧ c.toNat ≤ 122 := hl (w, a) (by simp)
    have hlen : w.length = s.length := hn (w, a) (by simp)
    simp only [List.map_cons, matchWord, look]
    rw [ih (fun e he => hl e (by simp [he])) (fun e he => hn e (by simp [he]))]
    have : pack (s.map low) = pack w ↔ s.map lower = w := by
      rw [pack_inj (by simp [hlen]), map_low_iff s w hw]
    by_cases h : s.map lower = w
    · rw [if_pos h, if_pos (this.2 h)]
    · rw [if_neg h, if_neg (fun hh => h (this.1 hh))]

/-! ## The tables -/

def unitTable : List (Bytes × (TimeUnit × Multiplier)) := [
  (b! "sec", SECOND_UNIT), (b! "min", MINUTE_UNIT), (b! "day", DAY_UNIT),
  (b! "secs", SECOND_UNIT), (b! "mins", MINUTE_UNIT), (b! "days", DAY_UNIT), (b! "hour", HOUR_UNIT),
  (b! "week", WEEK_UNIT), (b! "year", YEAR_UNIT),
  (b! "hours", HOUR_UNIT), (b! "weeks", WEEK_UNIT), (b! "years", YEAR_UNIT), (b! "month", MONTH_UNIT),
  (b! "second", SECOND_UNIT), (b! "minute", MINUTE_UNIT), (b! "months", MONTH_UNIT),
  (b! "seconds", SECOND_UNIT), (b! "minutes", MINUTE_UNIT),
  (b! "fortnight", FORTNIGHT_UNIT), (b! "fortnights", FORTNIGHT_UNIT)]

def keywordTable : List (Bytes × (TimeUnit × Multiplier)) := [
  (b! "now", (.day, ⟨0, 0⟩)), (b! "today", (.day, ⟨0, 0⟩)), (b! "tomorrow", (.day, ⟨1, 0⟩)),
  (b! "yesterday", (.day, ⟨-1, 0⟩))]

def numeralTable : List (Bytes × Multiplier) := [
  (b! "last", ⟨-1, 0⟩), (b! "this", ⟨0, 0⟩), (b! "next", ⟨1, 0⟩),
  (b! "first", ⟨1, 0⟩), (b! "third", ⟨3, 0⟩), (b! "fifth", ⟨5, 0⟩), (b! "sixth", ⟨6, 0⟩), (b! "ninth", ⟨9, 0⟩),
  (b! "tenth", ⟨10, 0⟩),
  (b! "fourth", ⟨4, 0⟩), (b! "eighth", ⟨8, 0⟩),
  (b! "seventh", ⟨7, 0⟩), (b! "twelfth", ⟨12, 0⟩),
  (b! "eleventh", ⟨11, 0⟩)]

theorem filter_none {α} (table : List (Bytes × α)) (n : Nat) (h : ∀ e ∈ table, e.1.length ≠ n) :
    table.filter (fun e => e.1.length = n) = [] := by
  rw [List.filter_eq_nil_iff]
  intro e he
  simpa using h e he

theorem table_length {α} {table : List (Bytes × α)} {n : Nat} {arms : List ((Nat × Nat) × α)} {s : Bytes}
    (hn : s.length = n) (h16 : n ≤ 16) (hl : LowerNames table)
    (ha : arms = (table.filter (fun e => e.1.length = n)).map (fun e => (pack e.1, e.2))) :
    matchLower s arms = .ok (look table (s.map lower)) := by
  subst hn
  rw [look_filter, List.length_map]
  refine matchLower_eq s arms _ h16 ha ?_ ?_
  · intro e he
    exact hl e (List.mem_filter.1 he).1
  · intro e he
    simpa using (List.mem_filter.1 he).2

theorem table_absent {α} {table : List (Bytes × α)} {s : Bytes} (h : ∀ e ∈ table, e.1.length ≠ s.length) :
    look table (s.map lower) = none := by
  rw [look_filter, List.length_map, filter_none table _ h]
  rfl

theorem unitTable_lower : LowerNames unitTable := by unfold LowerNames; decide
theorem keywordTable_lower : LowerNames keywordTable := by unfold LowerNames; decide
theorem numeralTable_lower : LowerNames numeralTable := by unfold LowerNames; decide

theorem timeUnitsGet_eq (s : Bytes) : timeUnitsGet s = .ok (look unitTable (s.map lower)) := by
  unfold timeUnitsGet
  split
  case h_8 =>
    rw [table_absent]
    intro e he
    have : e.1.length = 3 ∨ e.1.length = 4 ∨ e.1.length = 5 ∨ e.1.length = 6 ∨ e.1.length = 7 ∨ e.1.length = 9 ∨
      e.1.length = 10 := by revert e; decide
    intro h
    simp_all
  all_goals rename_i h; exact table_length h (by decide) unitTable_lower (by decide)

theorem timeKeywordsGet_eq (s : Bytes) : timeKeywordsGet s = .ok (look keywordTable (s.map lower)) := by
  unfold timeKeywordsGet
  split
  case h_5 =>
    rw [table_absent]
    intro e he
    have : e.1.length = 3 ∨ e.1.length = 5 ∨ e.1.length = 8 ∨ e.1.length = 9 := by revert e; decide
    intro h
    simp_all
  all_goals rename_i h; exact table_length h (by decide) keywordTable_lower (by decide)

theorem numeralsGet_eq (s : Bytes) : numeralsGet s = .ok (look numeralTable (s.map lower)) := by
  unfold numeralsGet
  split
  case h_6 =>
    rw [table_absent]
    intro e he
    have : e.1.length = 4 ∨ e.1.length = 5 ∨ e.1.length = 6 ∨ e.1.length = 7 ∨ e.1.length = 8 := by revert e; decide
    intro h
    simp_all
  all_goals rename_i h; exact table_length h (by decide) numeralTable_lower (by decide)

end Fundu.Gnu
