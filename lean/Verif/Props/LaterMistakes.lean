import Verif.Proofs.LaterMistakes
import Verif.Props.Concat
import Verif.Props.OutOfRange
import Verif.Props.DefaultUnit
/-!
# Property C115: mistakes behind accepted durations are reported at their place

Reading several durations does not stop when the maximum is reached: what follows is checked, and the error for it is the
one which it would have on its own, with the position moved by what is in front of it.
-/
namespace Fundu.Props
open Fundu Fundu.Spec

variable (cfg : Config) (units : TimeUnitsLike) (keywords : Option TimeUnitsLike) (numerals : Option NumbersLike)

/-- the three kinds of results of a text behind an accepted one -/
theorem later_kinds {cfg : Config} {units : TimeUnitsLike} {keywords : Option TimeUnitsLike} {numerals : Option NumbersLike}
    {s g t : Bytes} {d : Duration} (hs : IsText s) (ht : IsText t) (hj : IsText (s ++ (g ++ t))) (hc : CfgText cfg)
    (hm : cfg.allowMultiple = true)
    (hd : (∀ b, cfg.innerDelimiter b = true → cfg.outerDelimiter b = true) ∨ (keywords = none ∧ numerals = none))
    (ho : Orderly cfg units keywords numerals) (hp : PlainConjunctions cfg) (hjn : Concat.Junction cfg units (g ++ t) t)
    (h : parse cfg units keywords numerals s = .ok d) :
    (∀ d', parse cfg units keywords numerals t = .ok d' → ∃ d'', parse cfg units keywords numerals (s ++ (g ++ t)) = .ok d'') ∧
    (∀ e, parse cfg units keywords numerals t = fail e →
      parse cfg units keywords numerals (s ++ (g ++ t)) = fail (movedBy (s.length + g.length) e)) ∧
    ∀ p, parse cfg units keywords numerals t = panic p → parse cfg units keywords numerals (s ++ (g ++ t)) = panic p := by
  obtain ⟨-, l, ⟨items, h1, h2⟩, -⟩ := C29_saturating_sum cfg units keywords numerals s hs hc hm hd d h
  refine ⟨?_, ?_, ?_⟩
  · intro d' h'
    obtain ⟨-, l', ⟨items', h1', h2'⟩, -⟩ := C29_saturating_sum cfg units keywords numerals t ht hc hm hd d' h'
    obtain ⟨e, he, -⟩ := (C27_multiple cfg units keywords numerals _ _ hj hc hm hd).2
      ⟨l ++ l', ⟨items ++ items', Concat.durations_append ho hp hjn h1 h1', List.rel_append h2 h2'⟩, rfl⟩
    exact ⟨e, he⟩
  · intro e h'
    obtain ⟨f, hf, rfl⟩ := (C71_multiple cfg units keywords numerals t e ht hc hm hd).1 h'
    refine (C71_multiple cfg units keywords numerals _ _ hj hc hm hd).2 ⟨f, Later.first_append ho hp hjn h1 h2 hf, ?_⟩
    rw [← List.append_assoc, Later.error_moved (Later.within_first hf), List.length_append]
  · intro p h'
    obtain ⟨q, hq⟩ := (C93_multiple cfg units keywords numerals _ hj hc hm hd).2
      (Later.outOfRange_append ho hp hjn h1 h2 ((C93_multiple cfg units keywords numerals t ht hc hm hd).1 ⟨p, h'⟩))
    rw [hq, C93_unwrap cfg units keywords numerals t ht hc p h', C93_unwrap cfg units keywords numerals _ hj hc q hq]

/-- equivalences from the three kinds -/
theorem later_iff {α : Type} {x y : R α} {m : ParseError → ParseError} (h1 : ∀ d, x = .ok d → ∃ d', y = .ok d')
    (h2 : ∀ e, x = fail e → y = fail (m e)) (h3 : ∀ p, x = panic p → y = panic p) (e : ParseError) :
    y = fail e ↔ ∃ e', x = fail e' ∧ e = m e' := by
  constructor
  · intro h
    match hx : x with
    | .ok d => obtain ⟨d', h'⟩ := h1 d rfl; rw [h'] at h; cases h
    | .error (.err e') => have := h2 e' rfl; rw [this] at h; cases h; exact ⟨e', rfl, rfl⟩
    | .error (.panic p) => have := h3 p rfl; rw [this] at h; cases h
  · rintro ⟨e', h, rfl⟩; exact h2 e' h

/-- C115: A text behind an accepted one, with delimiters between them. It doesn't matter what the value of the first text
is: the errors for both together are the errors for the second text, moved by the length of what is in front of it. -/
theorem C115_errors (s ds t : Bytes) (d : Duration) (e : ParseError) (hs : IsText s) (ht : IsText t) (hc : CfgText cfg)
    (hm : cfg.allowMultiple = true)
    (hd : (∀ b, cfg.innerDelimiter b = true → cfg.outerDelimiter b = true) ∨ (keywords = none ∧ numerals = none))
    (ho : Orderly cfg units keywords numerals) (hp : PlainConjunctions cfg)
    (hds : ∀ b ∈ ds, cfg.outerDelimiter b = true) (hne : ds ≠ []) (hf : CanFollow cfg units t) (htne : t ≠ [])
    (h : parse cfg units keywords numerals s = .ok d) :
    parse cfg units keywords numerals (s ++ (ds ++ t)) = fail e ↔
      ∃ e', parse cfg units keywords numerals t = fail e' ∧ e = movedBy (s.length + ds.length) e' := by
  obtain ⟨h1, h2, h3⟩ := later_kinds hs ht (text_joined hs (text_joined (isText_ascii fun b hb => hc.outer b (hds b hb)) ht)) hc hm hd
    ho hp (Concat.junction_delims hds hne ho hf htne) h
  exact later_iff h1 h2 h3 e

/-- C115: the same with a conjunction between the texts -/
theorem C115_errors_conjunction (s ds x ds' t w : Bytes) (bef aft : List Bytes) (d : Duration) (e : ParseError)
    (hs : IsText s) (ht : IsText t) (hxt : IsText x) (hc : CfgText cfg) (hm : cfg.allowMultiple = true)
    (hd : (∀ b, cfg.innerDelimiter b = true → cfg.outerDelimiter b = true) ∨ (keywords = none ∧ numerals = none))
    (ho : Orderly cfg units keywords numerals) (hp : PlainConjunctions cfg)
    (hds : ∀ b ∈ ds, cfg.outerDelimiter b = true) (hne : ds ≠ [])
    (hw : cfg.conjunctions.getD [] = bef ++ w :: aft) (hx : SameText x w) (hxne : x ≠ [])
    (hbef : ∀ v ∈ bef, ¬ ∃ r, AfterWord v (x ++ (ds' ++ t)) r)
    (hds' : ∀ b ∈ ds', cfg.outerDelimiter b = true) (hnext : ds' = [] → StartsWith NextDuration t)
    (hu : cfg.allowTimeUnitDelimiter = false) (hago : cfg.allowAgo = true → ¬ ∃ r, AgoText cfg (x ++ (ds' ++ t)) r)
    (hf : ¬ StartsWith (IsDelimiter cfg) t) (htne : t ≠ []) (h : parse cfg units keywords numerals s = .ok d) :
    parse cfg units keywords numerals (s ++ (ds ++ (x ++ (ds' ++ t)))) = fail e ↔
      ∃ e', parse cfg units keywords numerals t = fail e' ∧ e = movedBy (s.length + (ds.length + x.length + ds'.length)) e' := by
  have hj := Concat.junction_conjunction hds hne hw hx hxne hp hbef hds' hnext hu hago ho hf htne
  have hjt : IsText (s ++ (ds ++ (x ++ (ds' ++ t)))) := text_joined hs (text_joined (isText_ascii fun b hb => hc.outer b (hds b hb))
    (text_joined hxt (text_joined (isText_ascii fun b hb => hc.outer b (hds' b hb)) ht)))
  have e1 : ds ++ (x ++ (ds' ++ t)) = (ds ++ (x ++ ds')) ++ t := by simp only [List.append_assoc]
  rw [e1] at hj hjt ⊢
  obtain ⟨h1, h2, h3⟩ := later_kinds hs ht hjt hc hm hd ho hp hj h
  have := later_iff h1 h2 h3 e
  rw [this]
  simp only [List.length_append, Nat.add_assoc]

/-- C115: whether a text is accepted behind another one depends only on the text, not on the value of what is in front of
it -/
theorem C115_accepted (s ds t : Bytes) (d : Duration) (hs : IsText s) (ht : IsText t) (hc : CfgText cfg)
    (hm : cfg.allowMultiple = true)
    (hd : (∀ b, cfg.innerDelimiter b = true → cfg.outerDelimiter b = true) ∨ (keywords = none ∧ numerals = none))
    (ho : Orderly cfg units keywords numerals) (hp : PlainConjunctions cfg)
    (hds : ∀ b ∈ ds, cfg.outerDelimiter b = true) (hne : ds ≠ []) (hf : CanFollow cfg units t) (htne : t ≠ [])
    (h : parse cfg units keywords numerals s = .ok d) :
    (∃ d', parse cfg units keywords numerals (s ++ (ds ++ t)) = .ok d') ↔ ∃ d', parse cfg units keywords numerals t = .ok d' := by
  obtain ⟨h1, h2, h3⟩ := later_kinds hs ht (text_joined hs (text_joined (isText_ascii fun b hb => hc.outer b (hds b hb)) ht)) hc hm hd
    ho hp (Concat.junction_delims hds hne ho hf htne) h
  constructor
  · rintro ⟨d', h'⟩
    match hx : parse cfg units keywords numerals t with
    | .ok d => exact ⟨d, rfl⟩
    | .error (.err e) => have := h2 e hx; rw [this] at h'; cases h'
    | .error (.panic p) => have := h3 p hx; rw [this] at h'; cases h'
  · rintro ⟨d', h'⟩; exact h1 d' h'

/-! ## fundu-systemd -/

/-- a text in fundu-systemd which is not `infinity` -/
theorem systemd_fails {nanos' : Bool} {u : TimeUnit} {s m : Bytes} {max : Duration} (hs : IsText s) (hm : max.isNegative = false)
    (hts : Trimmed s m) (hi : m ≠ b! "infinity") :
    IsText m ∧ parseMax nanos' (Systemd.TimeSpanParser.withDefaultUnit u) s max =
      (parse (Systemd.TimeSpanParser.withDefaultUnit u).config (tableOf nanos') none none m).map (Systemd.minDuration · max) := by
  obtain ⟨m1, g1, g2, g3⟩ := parseMax_eq nanos' (Systemd.TimeSpanParser.withDefaultUnit u) s max hm hs
  obtain rfl := trimmed_unique hts g1
  rw [if_neg hi] at g3
  exact ⟨g2, g3⟩

theorem map_fail_iff {α β : Type} {x : R α} {f : α → β} {e : ParseError} : x.map f = fail e ↔ x = fail e := by
  cases x with
  | ok a => exact ⟨(fun h => by cases h), (fun h => by cases h)⟩
  | error q => exact ⟨(fun h => by cases h; rfl), (fun h => by cases h; rfl)⟩

/-- C115 for fundu-systemd: a text starting with a number behind an accepted one other than `infinity`, with white space
between and around them. The errors are those for this text, moved by the length of what is in front of it; the positions
don't count the white space around the whole text. -/
theorem C115_systemd (nanos' : Bool) (u : TimeUnit) (pre s ds t post : Bytes) (max d : Duration) (e : ParseError)
    (hs : IsText s) (ht : IsText t) (hpre : ∀ b ∈ pre, PosixSpace b) (hds : ∀ b ∈ ds, PosixSpace b) (hne : ds ≠ [])
    (hpost : ∀ b ∈ post, PosixSpace b) (hm : max.isNegative = false) (hts : Trimmed s s) (hi : s ≠ b! "infinity")
    (htt : Trimmed t t) (hf : StartsWith (fun b => NextDuration b ∨ b = 46) t)
    (h : parseMax nanos' (Systemd.TimeSpanParser.withDefaultUnit u) s max = .ok d) :
    parseMax nanos' (Systemd.TimeSpanParser.withDefaultUnit u) (pre ++ (s ++ (ds ++ t) ++ post)) max = fail e ↔
      ∃ e', parseMax nanos' (Systemd.TimeSpanParser.withDefaultUnit u) t max = fail e' ∧
        e = movedBy (s.length + ds.length) e' := by
  have hsp : ∀ {l : Bytes}, (∀ b ∈ l, PosixSpace b) → IsText l := fun h => isText_ascii fun b hb => posixSpace_ascii (h b hb)
  have htne : t ≠ [] := by rintro rfl; obtain ⟨b, l, hb, -⟩ := hf; cases hb
  obtain ⟨hst, es⟩ := systemd_fails (nanos' := nanos') (u := u) hs hm hts hi
  obtain ⟨-, -, -, -, -, b3, b4⟩ := htt
  have hti : t ≠ b! "infinity" := by
    rintro rfl
    obtain ⟨b, l, hb, hb'⟩ := hf
    obtain rfl : (105 : UInt8) = b := (List.cons.inj hb).1
    revert hb'; unfold NextDuration IsDigit; decide
  obtain ⟨-, et⟩ := systemd_fails (nanos' := nanos') (u := u) ht hm ⟨[], [], by simp, by simp, by simp, b3, b4⟩ hti
  rw [es] at h
  obtain ⟨d0, h0⟩ : ∃ d0, parse (Systemd.TimeSpanParser.withDefaultUnit u).config (tableOf nanos') none none s = .ok d0 := by
    cases hx : parse (Systemd.TimeSpanParser.withDefaultUnit u).config (tableOf nanos') none none s with
    | ok d0 => exact ⟨d0, rfl⟩
    | error q => rw [hx] at h; cases h
  have hs0 : s ≠ [] := by
    rintro rfl
    rw [show parse (Systemd.TimeSpanParser.withDefaultUnit u).config (tableOf nanos') none none [] = fail .empty from parseWith_empty _] at h0
    cases h0
  obtain ⟨-, -, -, -, -, a3, a4⟩ := hts
  have htrim : Trimmed (pre ++ (s ++ (ds ++ t) ++ post)) (s ++ (ds ++ t)) := by
    refine ⟨pre, post, rfl, hpre, hpost, fun b hb => a3 b ?_, fun b hb => b4 b ?_⟩
    · obtain ⟨c, l, rfl⟩ := List.exists_cons_of_ne_nil hs0
      exact hb
    · rw [← List.append_assoc, List.getLast?_append_of_ne_nil _ htne] at hb
      exact hb
  have hinf : s ++ (ds ++ t) ≠ b! "infinity" := by
    intro e
    obtain ⟨b, l, hbl⟩ := List.exists_cons_of_ne_nil hne
    have : b ∈ b! "infinity" := by rw [← e, hbl]; simp
    exact (by decide : ∀ b ∈ b! "infinity", ¬ PosixSpace b) b this (hds b (by rw [hbl]; simp))
  obtain ⟨-, ej⟩ := systemd_fails (nanos' := nanos') (u := u)
    (text_joined (hsp hpre) (text_joined (text_joined hs (text_joined (hsp hds) ht)) (hsp hpost))) hm htrim hinf
  rw [ej, et, map_fail_iff]
  simp only [map_fail_iff]
  refine C115_errors _ _ none none s ds t d0 e hs ht (systemd_cfgText u) rfl (Or.inl fun _ h => h) (systemd_orderly nanos' u)
    (by intro w hw; cases hw) (fun b hb => (systemd_delimiter b).2 (hds b hb)) hne ?_ htne h0
  exact C68_numbers_follow _ _ none none t (systemd_orderly nanos' u) hf (by
      rintro ⟨b, r, rfl, hb⟩
      exact b3 b rfl ((systemd_delimiter b).1 (hb.elim id id))) (by intro w hw; cases hw)

/-! ## Concrete cases -/

/-- the maximum is reached by the first duration, and the mistake in the second one is still reported -/
example : joinParser.parse (b! "inf  1e") = fail (.syntax 7 .unexpectedEnd) := by
  refine (C115_errors joinParser.config joinParser.timeUnits.like none none (b! "inf") (b! "  ") (b! "1e")
    Duration.MAX _ (isText_ascii (by decide)) (isText_ascii (by decide))
    ⟨defaultConfig_text.inner, defaultConfig_text.outer, by intro ws h; cases h⟩ rfl (Or.inl fun _ h => h) joinParser_orderly
    (by intro w h; cases h) (by decide) (by decide)
    (C68_numbers_follow _ _ _ _ _ joinParser_orderly ⟨49, b! "e", rfl, by left; left; decide⟩
      (by rw [show b! "1e" = 49 :: b! "e" from rfl, startsWith_cons]; rintro (h | h) <;> exact absurd h (by decide))
      (by intro w h; cases h)) (by decide) (by decide +kernel)).2 ⟨.syntax 2 .unexpectedEnd, by decide +kernel, rfl⟩

example : joinAndParser.parse (b! "inf AND 1.e") = fail (.syntax 11 .unexpectedEnd) := by
  refine (C115_errors_conjunction joinAndParser.config joinAndParser.timeUnits.like none none (b! "inf") (b! " ") (b! "AND")
    (b! " ") (b! "1.e") (b! "and") [b! "plus"] [] Duration.MAX _ (isText_ascii (by decide)) (isText_ascii (by decide))
    (isText_ascii (by decide))
    ⟨defaultConfig_text.inner, defaultConfig_text.outer, by
      intro ws h w hw
      have : ws = [b! "plus", b! "and"] := by simpa [joinAndParser, DurationParser.parseMultiple] using h.symm
      subst this
      have key : ∀ w ∈ [b! "plus", b! "and"], ∀ b ∈ w, b.toNat < 128 := by decide
      exact isText_ascii (key w hw)⟩ rfl (Or.inl fun _ h => h) joinAndParser_orderly
    (by
      have key : ∀ w ∈ [b! "plus", b! "and"], ∀ b ∈ w, isAsciiWhitespace b = false := by decide
      intro w hw b hb h
      have := key w hw b hb
      rcases h with h | h <;> (have h : isAsciiWhitespace b = true := h; rw [this] at h; cases h))
    (by decide) (by decide) rfl (by decide) (by decide)
    (by
      rintro v hv ⟨r, x, hx, hs⟩
      rw [List.mem_singleton.1 hv] at hs
      have e1 : x.length = 4 := by have := congrArg List.length hs; simpa using this
      have e2 := congrArg (List.take 4) hx
      rw [← e1, List.take_left] at e2
      rw [← e2, e1] at hs
      revert hs; decide)
    (by decide) (by intro h; cases h) rfl (by intro h; cases h)
    (by rw [show b! "1.e" = 49 :: b! ".e" from rfl, startsWith_cons]; rintro (h | h) <;> exact absurd h (by decide))
    (by decide) (by decide +kernel)).2 ⟨.syntax 3 .unexpectedEnd, by decide +kernel, rfl⟩

example : parseMax false Systemd.TimeSpanParser.new (b! " 1h 5\n2min 3e1 ") Systemd.SYSTEMD_MAX_MICRO_DURATION =
    fail (.syntax 11 .noExponentAllowed) := by
  refine (C115_systemd false .second (b! " ") (b! "1h 5") (b! "\n") (b! "2min 3e1") (b! " ") Systemd.SYSTEMD_MAX_MICRO_DURATION
    ⟨false, ⟨3605, 0⟩⟩ _ (isText_ascii (by decide)) (isText_ascii (by decide)) (by decide) (by decide) (by decide) (by decide) rfl
    ⟨[], [], rfl, by decide, by decide, by decide, by decide⟩ (by decide)
    ⟨[], [], rfl, by decide, by decide, by decide, by decide⟩
    ⟨50, b! "min 3e1", rfl, by left; left; decide⟩ (by decide +kernel)).2 ⟨.syntax 6 .noExponentAllowed, by decide +kernel, rfl⟩

end Fundu.Props
