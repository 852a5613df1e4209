import Verif.Spec.Ends
import Verif.Props.Options
import Verif.Props.Units
import Verif.Model.Custom
/-! # C106: how accepted texts begin and end -/
namespace Fundu.Props
open Fundu Spec

variable {cfg : Config} {units : TimeUnitsLike} {keywords : Option TimeUnitsLike} {numerals : Option NumbersLike}

/-- the last byte, if there is one, is one a text can end with -/
abbrev LastOk (cfg : Config) (units : TimeUnitsLike) (keywords : Option TimeUnitsLike) (s : Bytes) : Prop :=
  ∀ b, s.getLast? = some b → CanEnd cfg units keywords b

local notation "E" => LastOk cfg units keywords

theorem lastOk_nil : E [] := fun b hb => by cases hb

theorem lastOk_right {x y : Bytes} (hne : y ≠ []) (hy : E y) : E (x ++ y) := by
  intro b hb
  rw [List.getLast?_append_of_ne_nil _ hne] at hb
  exact hy b hb

theorem lastOk_append {x y : Bytes} (hx : E x) (hy : E y) : E (x ++ y) := by
  cases y with
  | nil => rw [List.append_nil]; exact hx
  | cons b l => exact lastOk_right (by simp) hy

theorem lastOk_cons {b : UInt8} {y : Bytes} (hb : CanEnd cfg units keywords b) (hy : E y) : E (b :: y) :=
  lastOk_append (x := [b]) (fun c hc => by cases hc; exact hb) hy

theorem lastOk_digits {s W r : Bytes} (h : Split IsDigit s W r) (hr : E r) : E s := by
  rw [h.1]
  exact lastOk_append (fun b hb => .digit (h.2.1 b (List.mem_of_getLast? hb))) hr

theorem lastOk_word {w s r : Bytes} (h : AfterWord w s r) (hw : ∀ b c : UInt8, w.getLast? = some c → lower b = lower c → CanEnd cfg units keywords b)
    (hr : E r) : E s := by
  obtain ⟨x, rfl, hx⟩ := h
  refine lastOk_append (fun b hb => ?_) hr
  have e : (x.map lower).getLast? = (w.map lower).getLast? := by rw [show x.map lower = w.map lower from hx]
  rw [List.getLast?_map, List.getLast?_map, hb] at e
  cases g : w.getLast? with
  | none => rw [g] at e; cases e
  | some c =>
    rw [g] at e
    exact hw b c g (by simpa using e)

theorem lastOk_afterDelims {allowed : Bool} {s r : Bytes} {d : Delimiter} (h : AfterDelims allowed d s r) (hne : r ≠ []) (hr : E r) : E s := by
  unfold AfterDelims at h
  split at h
  · obtain ⟨ds, h⟩ := h
    rw [h.1]; exact lastOk_right hne hr
  · subst h; exact hr

theorem lastOk_sign {s r : Bytes} {neg : Bool} (h : SignPart cfg s neg r) (hr : E r) : E s := by
  cases h with
  | absent _ _ => exact hr
  | @plus r' _ h hne =>
    have k := lastOk_afterDelims h hne hr
    have hne' : r' ≠ [] := by
      rintro rfl
      unfold AfterDelims at h
      split at h
      · obtain ⟨ds, h⟩ := h
        exact hne (List.append_eq_nil_iff.1 h.1.symm).2
      · exact hne h
    exact lastOk_right (x := [43]) hne' k
  | @minus r' _ h hne =>
    have k := lastOk_afterDelims h hne hr
    have hne' : r' ≠ [] := by
      rintro rfl
      unfold AfterDelims at h
      split at h
      · obtain ⟨ds, h⟩ := h
        exact hne (List.append_eq_nil_iff.1 h.1.symm).2
      · exact hne h
    exact lastOk_right (x := [45]) hne' k

theorem lastOk_number {s W F r : Bytes} {e : Int} (h : NumberText cfg s W F e r) (hr : E r) : E s := by
  obtain ⟨r1, r2, h1, h2, h3⟩ := h
  refine lastOk_digits h1 ?_
  have k2 : E r2 := by
    cases h3 with
    | absent _ => exact hr
    | @present x r neg r' D rest hx he hs hd hne hi =>
      have k := lastOk_digits hd hr
      have hne' : r' ≠ [] := by rw [hd.1]; intro h; exact hne (List.append_eq_nil_iff.1 h).1
      cases hs with
      | absent _ => exact lastOk_right (x := [x]) hne' k
      | plus => exact lastOk_right (x := [x, 43]) hne' k
      | minus => exact lastOk_right (x := [x, 45]) hne' k
  cases h2 with
  | absent _ _ => exact k2
  | present hf hs _ => exact lastOk_cons (.point hf rfl) (lastOk_digits hs k2)

theorem lastOk_ago (ha : cfg.allowAgo = true) {s r : Bytes} (h : AfterWord (b! "ago") s r) (hr : E r) : E s :=
  lastOk_word h (fun b c hc hl => by
    obtain rfl : (111 : UInt8) = c := by simpa using hc
    exact .ago ha (hl.trans (by decide))) hr

theorem lastOk_inf (hd : cfg.disableInfinity = false) {s r : Bytes} (h : AfterWord (b! "inf") s r) (hr : E r) : E s :=
  lastOk_word h (fun b c hc hl => by
    obtain rfl : (102 : UInt8) = c := by simpa using hc
    exact .infinity hd (Or.inl (hl.trans (by decide)))) hr

theorem lastOk_inity (hd : cfg.disableInfinity = false) {s r : Bytes} (h : AfterWord (b! "inity") s r) (hr : E r) : E s :=
  lastOk_word h (fun b c hc hl => by
    obtain rfl : (121 : UInt8) = c := by simpa using hc
    exact .infinity hd (Or.inr (hl.trans (by decide)))) hr

theorem lastOk_infinity (hd : cfg.disableInfinity = false) {s r : Bytes} (h : AfterWord (b! "infinity") s r) (hr : E r) : E s :=
  lastOk_word h (fun b c hc hl => by
    obtain rfl : (121 : UInt8) = c := by simpa using hc
    exact .infinity hd (Or.inr (hl.trans (by decide)))) hr

theorem afterWord_ne {w s r : Bytes} (h : AfterWord w s r) (hw : w ≠ []) : s ≠ [] := by
  obtain ⟨x, rfl, hx⟩ := h
  intro hnil
  have hx0 : x = [] := (List.append_eq_nil_iff.1 hnil).1
  subst hx0
  exact hw (List.map_eq_nil_iff.1 (show w.map lower = [] from (show [].map lower = w.map lower from hx).symm))

theorem lastOk_unitSingle {s r : Bytes} {u : TimeUnit × Multiplier} (h : UnitSingle cfg units s u r) (hr : E r) : E s := by
  cases h with
  | whole _ h => exact fun b hb => .unit h hb
  | plain _ _ _ h => exact fun b hb => .unit h hb
  | ago ha h1 _ hu h2 h3 =>
    rw [h1.1, h2.1]
    exact lastOk_append (fun b hb => .unit hu hb) (lastOk_right (afterWord_ne h3 (by decide)) (lastOk_ago ha h3 hr))

theorem lastOk_single {s : Bytes} {item : Item} (h : SingleText cfg units keywords numerals s item) : E s := by
  cases h with
  | number hn hu =>
    refine lastOk_number hn ?_
    cases hu with
    | absent => exact lastOk_nil
    | present h1 hne _ h2 => exact lastOk_afterDelims h1 hne (lastOk_unitSingle h2 lastOk_nil)
  | infinity hd h =>
    rcases h with h | h
    · exact lastOk_inf hd (r := []) ⟨s, by simp, h⟩ lastOk_nil
    · exact lastOk_infinity hd (r := []) ⟨s, by simp, h⟩ lastOk_nil
  | keyword _ hk h => exact fun b hb => .keyword hk h hb
  | unit _ _ _ h => exact lastOk_unitSingle h lastOk_nil
  | numeral _ _ _ hn h1 _ hq h2 hne h3 =>
    rw [h1.1, h2.1]
    rw [← List.append_assoc]
    exact lastOk_right hne (lastOk_unitSingle h3 lastOk_nil)

theorem lastOk_connection {s r : Bytes} (h : Connection cfg s r) (hr : E r) : E s := by
  cases h with
  | absent _ => exact hr
  | delims h _ hne _ => rw [h.1]; exact lastOk_right hne hr
  | conjunction h1 _ _ _ hw h2 hne _ =>
    obtain ⟨x, rfl, -⟩ := hw
    rw [h1.1, h2.1, ← List.append_assoc, ← List.append_assoc]
    exact lastOk_right hne hr

theorem lastOk_unitMulti {s r : Bytes} {u : TimeUnit × Multiplier} (h : UnitMulti cfg units s u r) (hr : E r) : E s := by
  cases h with
  | mk h1 h2 h3 =>
    obtain ⟨w, hw, -, hu⟩ := h1
    rw [hw.1]
    refine lastOk_append (fun b hb => .unit hu hb) ?_
    have k := lastOk_connection h3 hr
    cases h2 with
    | absent _ => exact k
    | other _ _ _ _ _ => exact k
    | ago ha hs _ ht =>
      rw [hs.1]
      exact lastOk_right (afterWord_ne ht.1 (by decide)) (lastOk_ago ha ht.1 k)

theorem unitMulti_ne {s r : Bytes} {u : TimeUnit × Multiplier} (h : UnitMulti cfg units s u r) : s ≠ [] := by
  cases h with
  | mk h1 h2 h3 =>
    obtain ⟨w, hw, hne, hu⟩ := h1
    rw [hw.1]
    intro hnil
    exact hne (List.append_eq_nil_iff.1 hnil).1

theorem lastOk_multi {s r : Bytes} {item : Item} (h : MultiText cfg units keywords numerals s item r) (hr : E r) : E s := by
  cases h with
  | numberEnd h => exact lastOk_number h lastOk_nil
  | numberUnit h h1 _ h2 => exact lastOk_number h (lastOk_afterDelims h1 (unitMulti_ne h2) (lastOk_unitMulti h2 hr))
  | number h h1 hne _ h2 => exact lastOk_number h (lastOk_afterDelims h1 hne (lastOk_connection h2 hr))
  | inf hd h _ hc => exact lastOk_inf hd h (lastOk_connection hc hr)
  | infinity hd h _ h' _ hc => exact lastOk_inf hd h (lastOk_inity hd h' (lastOk_connection hc hr))
  | keyword _ hk h hc =>
    obtain ⟨w, hw, -, hu⟩ := h
    rw [hw.1]
    exact lastOk_append (fun b hb => .keyword hk hu hb) (lastOk_connection hc hr)
  | unit _ _ _ h => exact lastOk_unitMulti h hr
  | numeral _ _ _ hn h1 _ hq h2 hne h3 =>
    rw [h1.1, h2.1, ← List.append_assoc]
    exact lastOk_right hne (lastOk_unitMulti h3 hr)

theorem lastOk_durations {s : Bytes} {items : List (Bool × Item)} (h : Durations cfg units keywords numerals s items) : E s := by
  induction h with
  | last h1 h2 => exact lastOk_sign h1 (lastOk_multi h2 lastOk_nil)
  | more h1 h2 _ _ ih => exact lastOk_sign h1 (lastOk_multi h2 ih)

/-! ### The first byte -/

abbrev FirstOk (cfg : Config) (units : TimeUnitsLike) (keywords : Option TimeUnitsLike) (numerals : Option NumbersLike) (s : Bytes) : Prop :=
  ∀ b, s.head? = some b → CanBegin cfg units keywords numerals b

local notation "B" => FirstOk cfg units keywords numerals

theorem head_append {x y : Bytes} {b : UInt8} (hx : x ≠ []) (h : (x ++ y).head? = some b) : x.head? = some b := by
  cases x with
  | nil => exact absurd rfl hx
  | cons c l => exact h

theorem firstOk_number {s W F r : Bytes} {e : Int} (h : NumberText cfg s W F e r) : B s := by
  obtain ⟨r1, r2, h1, h2, h3⟩ := h
  intro b hb
  rw [h1.1] at hb
  by_cases hW : W = []
  · subst hW
    cases h2 with
    | absent h _ => exact absurd rfl h
    | present hf _ _ => cases hb; exact .point hf rfl
  · have := head_append hW hb
    exact .digit (h1.2.1 b (List.mem_of_head? this))

theorem firstOk_word {w s r : Bytes} (h : AfterWord w s r) (hne : w ≠ [])
    (hw : ∀ b c : UInt8, w.head? = some c → lower b = lower c → CanBegin cfg units keywords numerals b) : B s := by
  obtain ⟨x, rfl, hx⟩ := h
  intro b hb
  have hx0 : x ≠ [] := by
    rintro rfl
    exact hne (List.map_eq_nil_iff.1 (show w.map lower = [] from (show [].map lower = w.map lower from hx).symm))
  have hb := head_append hx0 hb
  have e : (x.map lower).head? = (w.map lower).head? := by rw [show x.map lower = w.map lower from hx]
  rw [List.head?_map, List.head?_map, hb] at e
  cases g : w.head? with
  | none => rw [g] at e; cases e
  | some c =>
    rw [g] at e
    exact hw b c g (by simpa using e)

theorem firstOk_inf (hd : cfg.disableInfinity = false) {s r : Bytes} (h : AfterWord (b! "inf") s r) : B s :=
  firstOk_word h (by decide) fun b c hc hl => by
    obtain rfl : (105 : UInt8) = c := by simpa using hc
    exact .infinity hd (hl.trans (by decide))

theorem firstOk_infinity (hd : cfg.disableInfinity = false) {s r : Bytes} (h : AfterWord (b! "infinity") s r) : B s :=
  firstOk_word h (by decide) fun b c hc hl => by
    obtain rfl : (105 : UInt8) = c := by simpa using hc
    exact .infinity hd (hl.trans (by decide))

theorem firstOk_unitSingle (ho : cfg.numberIsOptional = true) {s r : Bytes} {u : TimeUnit × Multiplier} (h : UnitSingle cfg units s u r) :
    B s := by
  cases h with
  | whole _ h => exact fun b hb => .unit ho h hb
  | plain _ _ _ h => exact fun b hb => .unit ho h hb
  | ago ha h1 hne hu h2 h3 =>
    intro b hb
    rw [h1.1] at hb
    exact .unit ho hu (head_append hne hb)

theorem firstOk_single {s : Bytes} {item : Item} (h : SingleText cfg units keywords numerals s item) : B s := by
  cases h with
  | number hn hu => exact firstOk_number hn
  | infinity hd h =>
    rcases h with h | h
    · exact firstOk_inf hd (r := []) ⟨s, by simp, h⟩
    · exact firstOk_infinity hd (r := []) ⟨s, by simp, h⟩
  | keyword _ hk h => exact fun b hb => .keyword hk h hb
  | unit _ _ ho h => exact firstOk_unitSingle ho h
  | numeral _ _ _ hn h1 hne hq h2 _ h3 =>
    intro b hb
    rw [h1.1] at hb
    exact .numeral hn hq (head_append hne hb)

theorem firstOk_multi {s r : Bytes} {item : Item} (h : MultiText cfg units keywords numerals s item r) : B s := by
  cases h with
  | numberEnd h => exact firstOk_number h
  | numberUnit h h1 _ h2 => exact firstOk_number h
  | number h h1 hne _ h2 => exact firstOk_number h
  | inf hd h _ hc => exact firstOk_inf hd h
  | infinity hd h _ h' _ hc => exact firstOk_inf hd h
  | keyword _ hk h hc =>
    obtain ⟨w, hw, hne, hu⟩ := h
    intro b hb
    rw [hw.1] at hb
    exact .keyword hk hu (head_append hne hb)
  | unit _ _ ho h =>
    cases h with
    | mk h1 h2 h3 =>
      obtain ⟨w, hw, hne, hu⟩ := h1
      intro b hb
      rw [hw.1] at hb
      exact .unit ho hu (head_append hne hb)
  | numeral _ _ _ hn h1 hne hq h2 _ h3 =>
    intro b hb
    rw [h1.1] at hb
    exact .numeral hn hq (head_append hne hb)

theorem firstOk_sign {s r : Bytes} {neg : Bool} (h : SignPart cfg s neg r) (hr : B r) : B s := by
  cases h with
  | absent _ _ => exact hr
  | plus _ _ => intro b hb; cases hb; exact .sign (Or.inl rfl)
  | minus _ _ => intro b hb; cases hb; exact .sign (Or.inr rfl)

variable (cfg : Config) (units : TimeUnitsLike) (keywords : Option TimeUnitsLike) (numerals : Option NumbersLike)

/-- C106: what an accepted text begins and ends with; it is not empty. -/
theorem C106_ends (s : Bytes) (d : Duration) (hs : IsText s) (hc : CfgText cfg)
    (hd : (∀ b, cfg.innerDelimiter b = true → cfg.outerDelimiter b = true) ∨ (keywords = none ∧ numerals = none) ∨ cfg.allowMultiple = false)
    (h : parse cfg units keywords numerals s = .ok d) :
    ∃ first last, s.head? = some first ∧ s.getLast? = some last ∧ CanBegin cfg units keywords numerals first ∧ CanEnd cfg units keywords last := by
  have key : ∃ neg r, SignPart cfg s neg r ∧ FirstOk cfg units keywords numerals r ∧ LastOk cfg units keywords s := by
    by_cases hm : cfg.allowMultiple = true
    · have hd' : (∀ b, cfg.innerDelimiter b = true → cfg.outerDelimiter b = true) ∨ (keywords = none ∧ numerals = none) := by
        rcases hd with h | h | h
        · exact Or.inl h
        · exact Or.inr h
        · rw [hm] at h; cases h
      obtain ⟨ds, ⟨items, h1, -⟩, -⟩ := (C27_multiple cfg units keywords numerals s (nanos d) hs hc hm hd').1 ⟨d, h, parse_wf hs hc h, rfl⟩
      have k := lastOk_durations h1
      cases h1 with
      | last g1 g2 => exact ⟨_, _, g1, firstOk_multi g2, k⟩
      | more g1 g2 _ _ => exact ⟨_, _, g1, firstOk_multi g2, k⟩
    · replace hm : cfg.allowMultiple = false := by simpa using hm
      obtain ⟨neg, r, item, h1, h2, -⟩ := (C27_single cfg units keywords numerals s d hs hc hm).1 h
      exact ⟨neg, r, h1, firstOk_single h2, lastOk_sign h1 (lastOk_single h2)⟩
  obtain ⟨neg, r, h1, h2, h3⟩ := key
  have hne : s ≠ [] := by cases h1 <;> first | assumption | simp
  refine ⟨s.head hne, s.getLast hne, List.head?_eq_some_head hne, List.getLast?_eq_some_getLast hne, ?_, ?_⟩
  · exact firstOk_sign h1 h2 _ (List.head?_eq_some_head hne)
  · exact h3 _ (List.getLast?_eq_some_getLast hne)

/-- C106: a text with a delimiter (or any other byte which is not a sign, digit, point or letter) in front of it or behind it is not
accepted, if no identifier begins or ends with this byte. -/
theorem C106_delimiters (b : UInt8) (hb : ¬ IsDigit b ∧ ¬ IsLetter b ∧ b ≠ 43 ∧ b ≠ 45 ∧ b ≠ 46)
    (hid : ∀ id, IsIdentifier units keywords numerals id → id.head? ≠ some b ∧ id.getLast? ≠ some b)
    (hc : CfgText cfg)
    (hd : (∀ b, cfg.innerDelimiter b = true → cfg.outerDelimiter b = true) ∨ (keywords = none ∧ numerals = none) ∨ cfg.allowMultiple = false)
    (s : Bytes) (hs : IsText s) (he : s.head? = some b ∨ s.getLast? = some b) (d : Duration) :
    parse cfg units keywords numerals s ≠ .ok d := by
  intro h
  obtain ⟨f, l, h1, h2, h3, h4⟩ := C106_ends cfg units keywords numerals s d hs hc hd h
  have letter : ∀ c, lower b = c → IsLetter c → False := by
    intro c hl hcl
    have key : ∀ n < 256, IsLetter (lower (UInt8.ofNat n)) → IsLetter (UInt8.ofNat n) := by unfold IsLetter; decide +kernel
    have := key b.toNat b.toNat_lt
    rw [UInt8.ofNat_toNat, hl] at this
    exact hb.2.1 (this hcl)
  rcases he with he | he
  · rw [he] at h1
    cases h1
    cases h3 with
    | sign h => rcases h with h | h <;> [exact hb.2.2.1 h; exact hb.2.2.2.1 h]
    | digit h => exact hb.1 h
    | point _ h => exact hb.2.2.2.2 h
    | infinity _ h => exact letter _ h (by unfold IsLetter; decide)
    | unit _ h h' => exact (hid _ (Or.inl ⟨_, h⟩)).1 h'
    | keyword hk h h' => exact (hid _ (Or.inr (Or.inl ⟨_, _, hk, h⟩))).1 h'
    | numeral hk h h' => exact (hid _ (Or.inr (Or.inr ⟨_, _, hk, h⟩))).1 h'
  · rw [he] at h2
    cases h2
    cases h4 with
    | digit h => exact hb.1 h
    | point _ h => exact hb.2.2.2.2 h
    | infinity _ h => rcases h with h | h <;> exact letter _ h (by unfold IsLetter; decide)
    | ago _ h => exact letter _ h (by unfold IsLetter; decide)
    | unit h h' => exact (hid _ (Or.inl ⟨_, h⟩)).2 h'
    | keyword hk h h' => exact (hid _ (Or.inr (Or.inl ⟨_, _, hk, h⟩))).2 h'

/-! ### Examples -/

/-- DurationParser::new does not accept a text with a blank in front of it or behind it -/
example (s : Bytes) (hs : IsText s) (he : s.head? = some 32 ∨ s.getLast? = some 32) (d : Duration) : DurationParser.new.parse s ≠ .ok d := by
  refine C106_delimiters _ _ none none 32 (by decide) ?_ defaultConfig_text (Or.inr (Or.inl ⟨rfl, rfl⟩)) s hs he d
  rintro id (⟨u, h⟩ | ⟨k, u, h, -⟩ | ⟨n, q, h, -⟩)
  · rw [C34_constructors.1, C34_get] at h
    obtain ⟨u, hu, rfl, -⟩ := h
    exact (by decide : ∀ u ∈ [TimeUnit.nanoSecond, .microSecond, .milliSecond, .second, .minute, .hour, .day, .week],
      u.defaultIdentifier.head? ≠ some 32 ∧ u.defaultIdentifier.getLast? ≠ some 32) u hu
  · cases h
  · cases h

/-- the condition is needed: an identifier can end with a blank -/
example : (CustomDurationParser.new.timeUnit ⟨.second, ⟨1, 0⟩, [b! "s "]⟩).parse (b! "1s ") = .ok ⟨false, ⟨1, 0⟩⟩ := by decide +kernel

end Fundu.Props
