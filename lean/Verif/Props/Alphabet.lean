import Verif.Spec.Alphabet
import Verif.Props.Options
import Verif.Props.Systemd
import Verif.Props.Gnu
import Verif.Props.Units
/-! # C105: a text with a byte which nothing has a use for is not accepted -/
namespace Fundu.Props
open Fundu Spec

variable {cfg : Config} {units : TimeUnitsLike} {keywords : Option TimeUnitsLike} {numerals : Option NumbersLike}

/-- all bytes are in the alphabet -/
abbrev AllIn (cfg : Config) (units : TimeUnitsLike) (keywords : Option TimeUnitsLike) (numerals : Option NumbersLike) (s : Bytes) : Prop :=
  ∀ b ∈ s, InAlphabet cfg units keywords numerals b

local notation "A" => AllIn cfg units keywords numerals

theorem allIn_append {x y : Bytes} (hx : A x) (hy : A y) : A (x ++ y) := fun b hb => (List.mem_append.1 hb).elim (hx b) (hy b)

theorem allIn_split {p : UInt8 → Prop} {s x r : Bytes} (h : Split p s x r) (hp : A x) (hr : A r) : A s := by
  rw [h.1]; exact allIn_append hp hr

theorem allIn_digits {s W r : Bytes} (h : Split IsDigit s W r) (hr : A r) : A s := allIn_split h (fun b hb => .digit (h.2.1 b hb)) hr

theorem allIn_word {w s r : Bytes} (h : AfterWord w s r) (hw : ∀ b : UInt8, lower b ∈ w.map lower → InAlphabet cfg units keywords numerals b)
    (hr : A r) : A s := by
  obtain ⟨x, rfl, hx⟩ := h
  refine allIn_append (fun b hb => hw b ?_) hr
  rw [← show x.map lower = w.map lower from hx]
  exact List.mem_map_of_mem hb

theorem allIn_afterDelims {allowed : Bool} {s r : Bytes} (h : AfterDelims allowed cfg.innerDelimiter s r)
    (ha : allowed = true → cfg.allowSignDelimiter = true ∨ cfg.allowTimeUnitDelimiter = true ∨ cfg.allowAgo = true ∨ numerals ≠ none)
    (hr : A r) : A s := by
  unfold AfterDelims at h
  cases e : allowed with
  | false => rw [e] at h; obtain rfl : r = s := h; exact hr
  | true =>
    rw [e] at h
    obtain ⟨ds, h⟩ := h
    exact allIn_split h (fun b hb => .inner (ha e) (h.2.1 b hb)) hr

theorem allIn_sign {s r : Bytes} {neg : Bool} (h : SignPart cfg s neg r) (hr : A r) : A s := by
  cases h with
  | absent _ _ => exact hr
  | plus h _ =>
    have := allIn_afterDelims h (fun h => Or.inl h) hr
    intro b hb
    rcases List.mem_cons.1 hb with rfl | hb
    · exact .sign (Or.inl rfl)
    · exact this b hb
  | minus h _ =>
    have := allIn_afterDelims h (fun h => Or.inl h) hr
    intro b hb
    rcases List.mem_cons.1 hb with rfl | hb
    · exact .sign (Or.inr rfl)
    · exact this b hb

theorem allIn_number {s W F r : Bytes} {e : Int} (h : NumberText cfg s W F e r) (hr : A r) : A s := by
  obtain ⟨r1, r2, h1, h2, h3⟩ := h
  refine allIn_digits h1 ?_
  have k2 : A r2 := by
    cases h3 with
    | absent _ => exact hr
    | @present x r neg r' E rest hx he hs hd hne hi =>
      have k := allIn_digits hd hr
      intro b hb
      rcases List.mem_cons.1 hb with rfl | hb
      · exact .exponent he hx
      · cases hs with
        | absent _ => exact k b hb
        | plus =>
          rcases List.mem_cons.1 hb with rfl | hb
          · exact .sign (Or.inl rfl)
          · exact k b hb
        | minus =>
          rcases List.mem_cons.1 hb with rfl | hb
          · exact .sign (Or.inr rfl)
          · exact k b hb
  cases h2 with
  | absent _ _ => exact k2
  | present hf hs _ =>
    have k := allIn_digits hs k2
    intro b hb
    rcases List.mem_cons.1 hb with rfl | hb
    · exact .point hf rfl
    · exact k b hb

theorem lower_ago {b : UInt8} (h : lower b ∈ (b! "ago").map lower) : lower b ∈ b! "ago" := by
  rwa [show (b! "ago").map lower = b! "ago" by decide] at h

theorem lower_inf {b : UInt8} (h : lower b ∈ (b! "inf").map lower) : lower b ∈ b! "infinity" := by
  rw [show (b! "inf").map lower = b! "inf" by decide] at h
  exact (by decide : ∀ c ∈ b! "inf", c ∈ b! "infinity") _ h

theorem lower_inity {b : UInt8} (h : lower b ∈ (b! "inity").map lower) : lower b ∈ b! "infinity" := by
  rw [show (b! "inity").map lower = b! "inity" by decide] at h
  exact (by decide : ∀ c ∈ b! "inity", c ∈ b! "infinity") _ h

theorem lower_infinity {b : UInt8} (h : lower b ∈ (b! "infinity").map lower) : lower b ∈ b! "infinity" := by
  rwa [show (b! "infinity").map lower = b! "infinity" by decide] at h

theorem allIn_nil : A [] := fun b hb => by cases hb

theorem allIn_unitSingle {s r : Bytes} {u : TimeUnit × Multiplier} (h : UnitSingle cfg units s u r) (hr : A r) : A s := by
  cases h with
  | whole _ h => exact fun b hb => .unit h hb
  | plain _ _ _ h => exact fun b hb => .unit h hb
  | ago ha h1 _ hu h2 h3 =>
    refine allIn_split h1 (fun b hb => .unit hu hb) (allIn_split h2 (fun b hb => .inner (Or.inr (Or.inr (Or.inl ha))) (h2.2.1 b hb)) ?_)
    exact allIn_word h3 (fun b hb => .ago ha (lower_ago hb)) hr

theorem allIn_single {s : Bytes} {item : Item} (h : SingleText cfg units keywords numerals s item) : A s := by
  cases h with
  | number hn hu =>
    refine allIn_number hn ?_
    cases hu with
    | absent => exact allIn_nil
    | present h1 _ _ h2 => exact allIn_afterDelims h1 (fun h => Or.inr (Or.inl h)) (allIn_unitSingle h2 allIn_nil)
  | infinity hd h =>
    rcases h with h | h
    · exact allIn_word (r := []) ⟨s, by simp, h⟩ (fun b hb => .infinity hd (lower_inf hb)) allIn_nil
    · exact allIn_word (r := []) ⟨s, by simp, h⟩ (fun b hb => .infinity hd (lower_infinity hb)) allIn_nil
  | keyword _ hk h => exact fun b hb => .keyword hk h hb
  | unit _ _ _ h => exact allIn_unitSingle h allIn_nil
  | numeral _ _ _ hn h1 _ hq h2 _ h3 =>
    refine allIn_split h1 (fun b hb => .numeral hn hq hb) (allIn_split h2 (fun b hb => .inner (Or.inr (Or.inr (Or.inr ?_))) (h2.2.1 b hb)) ?_)
    · rw [hn]; exact fun h => by cases h
    · exact allIn_unitSingle h3 allIn_nil

theorem allIn_connection {s r : Bytes} (hm : cfg.allowMultiple = true) (h : Connection cfg s r) (hr : A r) : A s := by
  cases h with
  | absent _ => exact hr
  | delims h _ _ _ => exact allIn_split h (fun b hb => .outer hm (h.2.1 b hb)) hr
  | @conjunction ds r0 before w after r' ds' _ h1 _ hc _ hw h2 _ _ =>
    refine allIn_split h1 (fun b hb => .outer hm (h1.2.1 b hb)) (allIn_word hw ?_ (allIn_split h2 (fun b hb => .outer hm (h2.2.1 b hb)) hr))
    intro b hb
    cases e : cfg.conjunctions with
    | none => rw [e] at hc; simp at hc
    | some ws =>
      rw [e] at hc
      have hc : ws = before ++ w :: after := hc
      exact .conjunction hm e (by rw [hc]; simp) hb

theorem allIn_unitMulti {s r : Bytes} {u : TimeUnit × Multiplier} (hm : cfg.allowMultiple = true) (h : UnitMulti cfg units s u r) (hr : A r) :
    A s := by
  cases h with
  | mk h1 h2 h3 =>
    obtain ⟨w, hw, -, hu⟩ := h1
    refine allIn_split hw (fun b hb => .unit hu hb) ?_
    have k := allIn_connection hm h3 hr
    cases h2 with
    | absent _ => exact k
    | other _ _ _ _ _ => exact k
    | ago ha hs _ ht =>
      exact allIn_split hs (fun b hb => .inner (Or.inr (Or.inr (Or.inl ha))) (hs.2.1 b hb))
        (allIn_word ht.1 (fun b hb => .ago ha (lower_ago hb)) k)

theorem allIn_multi {s r : Bytes} {item : Item} (hm : cfg.allowMultiple = true) (h : MultiText cfg units keywords numerals s item r)
    (hr : A r) : A s := by
  cases h with
  | numberEnd h => exact allIn_number h allIn_nil
  | numberUnit h h1 _ h2 => exact allIn_number h (allIn_afterDelims h1 (fun h => Or.inr (Or.inl h)) (allIn_unitMulti hm h2 hr))
  | number h h1 _ _ h2 => exact allIn_number h (allIn_afterDelims h1 (fun h => Or.inr (Or.inl h)) (allIn_connection hm h2 hr))
  | inf hd h _ hc => exact allIn_word h (fun b hb => .infinity hd (lower_inf hb)) (allIn_connection hm hc hr)
  | infinity hd h _ h' _ hc =>
    exact allIn_word h (fun b hb => .infinity hd (lower_inf hb))
      (allIn_word h' (fun b hb => .infinity hd (lower_inity hb)) (allIn_connection hm hc hr))
  | keyword _ hk h hc =>
    obtain ⟨w, hw, -, hu⟩ := h
    exact allIn_split hw (fun b hb => .keyword hk hu hb) (allIn_connection hm hc hr)
  | unit _ _ _ h => exact allIn_unitMulti hm h hr
  | numeral _ _ _ hn h1 _ hq h2 _ h3 =>
    refine allIn_split h1 (fun b hb => .numeral hn hq hb) (allIn_split h2 (fun b hb => .inner (Or.inr (Or.inr (Or.inr ?_))) (h2.2.1 b hb)) ?_)
    · rw [hn]; exact fun h => by cases h
    · exact allIn_unitMulti hm h3 hr

theorem allIn_durations {s : Bytes} {items : List (Bool × Item)} (hm : cfg.allowMultiple = true)
    (h : Durations cfg units keywords numerals s items) : A s := by
  induction h with
  | last h1 h2 => exact allIn_sign h1 (allIn_multi hm h2 allIn_nil)
  | more h1 h2 _ _ ih => exact allIn_sign h1 (allIn_multi hm h2 ih)

variable (cfg : Config) (units : TimeUnitsLike) (keywords : Option TimeUnitsLike) (numerals : Option NumbersLike)

/-- C105: each byte of an accepted text is a digit, a sign, or something the settings or the words of the parser have a use for. -/
theorem C105_alphabet (s : Bytes) (d : Duration) (hs : IsText s) (hc : CfgText cfg)
    (hd : (∀ b, cfg.innerDelimiter b = true → cfg.outerDelimiter b = true) ∨ (keywords = none ∧ numerals = none) ∨ cfg.allowMultiple = false)
    (h : parse cfg units keywords numerals s = .ok d) : ∀ b ∈ s, InAlphabet cfg units keywords numerals b := by
  by_cases hm : cfg.allowMultiple = true
  · have hd' : (∀ b, cfg.innerDelimiter b = true → cfg.outerDelimiter b = true) ∨ (keywords = none ∧ numerals = none) := by
      rcases hd with h | h | h
      · exact Or.inl h
      · exact Or.inr h
      · rw [hm] at h; cases h
    obtain ⟨ds, ⟨items, h1, -⟩, -⟩ := (C27_multiple cfg units keywords numerals s (nanos d) hs hc hm hd').1 ⟨d, h, parse_wf hs hc h, rfl⟩
    exact allIn_durations hm h1
  · replace hm : cfg.allowMultiple = false := by simpa using hm
    obtain ⟨neg, r, item, h1, h2, -⟩ := (C27_single cfg units keywords numerals s d hs hc hm).1 h
    exact allIn_sign h1 (allIn_single h2)


/-! ### The crates -/

/-- C105, `DurationParser::new` and `parse_duration`: the bytes of accepted texts -/
theorem C105_default (s : Bytes) (d : Duration) (hs : IsText s) (h : DurationParser.new.parse s = .ok d) :
    ∀ b ∈ s, b ∈ b! "0123456789+-.eEinftyINFTYMsmhdw" := by
  intro b hb
  have hb := C105_alphabet _ _ none none s d hs defaultConfig_text (Or.inr (Or.inl ⟨rfl, rfl⟩)) h b hb
  have key : ∀ n < 256, (∀ c : UInt8, c = UInt8.ofNat n → (IsDigit c ∨ (c = 43 ∨ c = 45) ∨ c = 46 ∨ (c = 101 ∨ c = 69) ∨ lower c ∈ b! "infinity") →
      c ∈ b! "0123456789+-.eEinftyINFTYMsmhdw") := by
    intro n hn c hc
    subst hc
    revert n
    decide +kernel
  have key := fun g => key b.toNat b.toNat_lt b UInt8.ofNat_toNat.symm g
  cases hb with
  | digit h => exact key (Or.inl h)
  | sign h => exact key (Or.inr (Or.inl h))
  | point _ h => exact key (Or.inr (Or.inr (Or.inl h)))
  | exponent _ h => exact key (Or.inr (Or.inr (Or.inr (Or.inl h))))
  | infinity _ h => exact key (Or.inr (Or.inr (Or.inr (Or.inr h))))
  | ago h => cases h
  | inner h => rcases h with h | h | h | h <;> first | cases h | exact absurd rfl h
  | outer h => cases h
  | conjunction h => cases h
  | unit h hb =>
    rw [C34_constructors.1, C34_get] at h
    obtain ⟨u, hu, rfl, -⟩ := h
    have := (by decide : ∀ u ∈ [TimeUnit.nanoSecond, .microSecond, .milliSecond, .second, .minute, .hour, .day, .week],
      ∀ b ∈ u.defaultIdentifier, b ∈ b! "0123456789+-.eEinftyINFTYMsmhdw")
    exact this u hu b hb
  | keyword h => cases h
  | numeral h => cases h

/-- C105, fundu-systemd: apart from `infinity`, an accepted time span consists of white space, digits, signs, points and the letters of
the documented time units -/
theorem C105_systemd (nanos' : Bool) (u : TimeUnit) (s m : Bytes) (hs : IsText s) (hm' : Trimmed s m) (hi : m ≠ b! "infinity")
    (max d : Duration) (hw : max.WF) (hm : max.isNegative = false) (h : parseMax nanos' (Systemd.TimeSpanParser.withDefaultUnit u) s max = .ok d) :
    ∀ b ∈ s, PosixSpace b ∨ IsDigit b ∨ b ∈ b! "+-." ∨ ∃ e ∈ documentedOf nanos', ∃ id ∈ e.1, b ∈ id := by
  obtain ⟨ds, ⟨items, h1, -⟩, -⟩ := (C38_value nanos' u s m hs hm' hi max hw hm (nanos d)).1 ⟨d, h, rfl⟩
  have k := allIn_durations rfl h1
  obtain ⟨pre, post, rfl, hpre, hpost, -⟩ := hm'
  intro b hb
  rcases List.mem_append.1 hb with hb | hb
  · exact Or.inl (hpre b hb)
  rcases List.mem_append.1 hb with hb | hb
  swap
  · exact Or.inl (hpost b hb)
  cases k b hb with
  | digit h => exact Or.inr (Or.inl h)
  | sign h => refine Or.inr (Or.inr (Or.inl ?_)); rcases h with rfl | rfl <;> decide
  | point _ h => subst h; exact Or.inr (Or.inr (Or.inl (by decide)))
  | exponent h => cases h
  | infinity h => cases h
  | ago h => cases h
  | inner _ h => exact Or.inl ((systemd_delimiter b).1 h)
  | outer _ h => exact Or.inl ((systemd_delimiter b).1 h)
  | conjunction _ h => cases h
  | unit h hb =>
    have := systemd_get_mem h
    unfold idsOf at this
    obtain ⟨e, he, hid⟩ := List.mem_flatMap.1 this
    exact Or.inr (Or.inr (Or.inr ⟨e, he, _, hid, hb⟩))
  | keyword h => cases h
  | numeral h => cases h

/-! ### fundu-gnu -/

abbrev GnuIn (s : Bytes) : Prop := ∀ b ∈ s, InGnuAlphabet b

theorem gnuIn_append {x y : Bytes} (hx : GnuIn x) (hy : GnuIn y) : GnuIn (x ++ y) := fun b hb => (List.mem_append.1 hb).elim (hx b) (hy b)

theorem gnuIn_split {p : UInt8 → Prop} {s x r : Bytes} (h : Split p s x r) (hp : GnuIn x) (hr : GnuIn r) : GnuIn s := by
  rw [h.1]; exact gnuIn_append hp hr

theorem gnuIn_spaces {s r : Bytes} (h : Spaces s r) (hr : GnuIn r) : GnuIn s := by
  obtain ⟨sp, h⟩ := h
  exact gnuIn_split h (fun b hb => Or.inl (h.2.1 b hb)) hr

theorem gnuIn_digits {s W r : Bytes} (h : Split IsDigit s W r) (hr : GnuIn r) : GnuIn s :=
  gnuIn_split h (fun b hb => Or.inr (Or.inl (h.2.1 b hb))) hr

theorem gnuIn_sameText {x w : Bytes} (hw : w ∈ gnuWords) (h : SameText x w) : GnuIn x := by
  intro b hb
  refine Or.inr (Or.inr (Or.inr ⟨w, hw, ?_⟩))
  have e : w.map lower = w := (by decide +kernel : ∀ w ∈ gnuWords, w.map lower = w) w hw
  rw [← e, ← show x.map lower = w.map lower from h]
  exact List.mem_map_of_mem hb

theorem gnuIn_table {table : List (List Bytes × GnuLength)} (ht : ∀ w ∈ table.flatMap (·.1), w ∈ gnuWords) {s r : Bytes} {len : GnuLength}
    (h : GnuWordAt table s len r) (hr : GnuIn r) : GnuIn s := by
  obtain ⟨w, hw, names, hn, name, hname, hsame⟩ := h
  exact gnuIn_split hw (gnuIn_sameText (ht name (List.mem_flatMap.2 ⟨_, hn, hname⟩)) hsame) hr

theorem gnuIn_unit {s r : Bytes} {len : GnuLength} {ago : Bool} (h : GnuUnitAt s len ago r) (hr : GnuIn r) : GnuIn s := by
  obtain ⟨r1, r2, h1, h2, h3, -⟩ := h
  have k := gnuIn_spaces h3 hr
  refine gnuIn_table (by decide +kernel) h1 ?_
  cases h2 with
  | absent _ => exact k
  | present h =>
    obtain ⟨sp, r', g1, -, ⟨x, rfl, hx⟩, -⟩ := h
    exact gnuIn_split g1 (fun b hb => Or.inl (g1.2.1 b hb)) (gnuIn_append (gnuIn_sameText (by decide +kernel) hx) k)

theorem gnuIn_point {r : Bytes} (h : GnuIn r) : GnuIn (46 :: r) := by
  intro b hb
  rcases List.mem_cons.1 hb with rfl | hb
  · exact Or.inr (Or.inr (Or.inl (by decide)))
  · exact h b hb

theorem gnuIn_text {neg : Bool} {s r : Bytes} {part : GnuPart} (h : GnuText neg s part r) (hr : GnuIn r) : GnuIn s := by
  cases h with
  | numberUnit h1 h2 h3 => exact gnuIn_digits h1.1 (gnuIn_spaces h2 (gnuIn_unit h3 hr))
  | number h1 h2 =>
    obtain ⟨r', g1, -, -, rfl⟩ := h2
    exact gnuIn_digits h1.1 (gnuIn_spaces g1 hr)
  | decimalUnit h1 h2 h3 =>
    obtain ⟨r', g1, -, g2, -, -⟩ := h1
    exact gnuIn_digits g1 (gnuIn_point (gnuIn_digits g2 (gnuIn_spaces h2 (gnuIn_unit h3 hr))))
  | decimal h1 h2 =>
    obtain ⟨r', g1, -, g2, -, -⟩ := h1
    obtain ⟨r'', k1, -, -, rfl⟩ := h2
    exact gnuIn_digits g1 (gnuIn_point (gnuIn_digits g2 (gnuIn_spaces k1 hr)))
  | keyword h1 h2 => exact gnuIn_table (by decide +kernel) h1 (gnuIn_spaces h2.1 hr)
  | unit h => exact gnuIn_unit h hr
  | numeral h1 h2 h3 h4 =>
    obtain ⟨name, hn, hsame⟩ := h2
    refine gnuIn_split h1 (gnuIn_sameText ?_ hsame) (gnuIn_spaces h3 (gnuIn_unit h4 hr))
    unfold gnuWords
    simp only [List.mem_append]
    exact Or.inl (Or.inr (List.mem_map.2 ⟨_, hn, rfl⟩))

theorem gnuIn_sign {s r : Bytes} {neg : Bool} (h : GnuSign s neg r) (hr : GnuIn r) : GnuIn s := by
  cases h with
  | absent _ => exact hr
  | plus h =>
    intro b hb
    rcases List.mem_cons.1 hb with rfl | hb
    · exact Or.inr (Or.inr (Or.inl (by decide)))
    · exact gnuIn_spaces h hr b hb
  | minus h =>
    intro b hb
    rcases List.mem_cons.1 hb with rfl | hb
    · exact Or.inr (Or.inr (Or.inl (by decide)))
    · exact gnuIn_spaces h hr b hb

/-- C105, fundu-gnu: an accepted relative time consists of white space, digits, signs, points and the letters of the documented words -/
theorem C105_gnu (s : Bytes) (hs : IsText s) (y m : Int) (d : Duration) (h : Gnu.parseFuzzy s = .ok (y, m, d)) : ∀ b ∈ s, InGnuAlphabet b := by
  rcases parseFuzzy_result s hs with ⟨t, l, d', h1, h2, -⟩ | ⟨-, e, h2, -⟩
  swap
  · rw [h2] at h; cases h
  obtain ⟨pre, post, rfl, hpre, hpost, -⟩ := h1
  refine gnuIn_append (fun b hb => Or.inl (hpre b hb)) (gnuIn_append ?_ fun b hb => Or.inl (hpost b hb))
  clear hs h
  induction h2 with
  | last h1 h2 => exact gnuIn_sign h1 (gnuIn_text h2 (fun b hb => by cases hb))
  | more h1 h2 _ ih => exact gnuIn_sign h1 (gnuIn_text h2 ih)

/-! ### Examples -/

/-- all of these bytes occur in accepted texts -/
example : DurationParser.new.parse (b! "-.0Ms") = .ok ⟨false, ⟨0, 0⟩⟩ ∧ DurationParser.new.parse (b! "+123456789e-1w") = .ok ⟨false, ⟨7466666598720, 0⟩⟩ ∧
    DurationParser.new.parse (b! "INFinity") = .ok Duration.MAX := by decide +kernel

/-- the alphabet depends on the settings: a space is used if a delimiter is allowed before the time unit -/
example : InAlphabet { allowTimeUnitDelimiter := true } ⟨true, fun _ => none⟩ none none 32 ∧
    ¬ InAlphabet {} ⟨true, fun _ => none⟩ none none 32 := by
  refine ⟨.inner (Or.inr (Or.inl rfl)) (by decide), fun h => ?_⟩
  cases h with
  | digit h => revert h; decide
  | sign h => revert h; decide
  | point _ h => revert h; decide
  | exponent _ h => revert h; decide
  | infinity _ h => revert h; decide
  | ago h => cases h
  | inner h => rcases h with h | h | h | h <;> first | cases h | exact absurd rfl h
  | outer h => cases h
  | conjunction h => cases h
  | unit h => cases h
  | keyword h => cases h
  | numeral h => cases h

/-- so a text with a comma, say, is not accepted by fundu-gnu -/
example (s : Bytes) (hs : IsText s) (h : (44 : UInt8) ∈ s) (x : Int × Int × Duration) : Gnu.parseFuzzy s ≠ .ok x := by
  intro e
  have := C105_gnu s hs x.1 x.2.1 x.2.2 e 44 h
  revert this
  unfold InGnuAlphabet
  decide +kernel

end Fundu.Props
