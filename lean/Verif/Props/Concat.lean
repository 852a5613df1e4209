import Verif.Proofs.Concat
import Verif.Props.Options
import Verif.Props.Sum
import Verif.Props.Systemd
/-!
# Property C68: texts written one after the other add up
-/
namespace Fundu.Props
open Fundu Fundu.Spec

variable (cfg : Config) (units : TimeUnitsLike) (keywords : Option TimeUnitsLike) (numerals : Option NumbersLike)

/-- C68: two accepted texts with delimiters between them are a text of the durations of the first one followed by
those of the second one. -/
theorem C68_durations (s ds t : Bytes) (l l' : List Duration) (ho : Orderly cfg units keywords numerals) (hp : PlainConjunctions cfg)
    (hds : ∀ b ∈ ds, cfg.outerDelimiter b = true) (hne : ds ≠ []) (hf : CanFollow cfg units t)
    (h : DenotesMultiple cfg units keywords numerals s l) (h' : DenotesMultiple cfg units keywords numerals t l') :
    DenotesMultiple cfg units keywords numerals (s ++ (ds ++ t)) (l ++ l') := by
  obtain ⟨items, h1, h2⟩ := h
  obtain ⟨items', h1', h2'⟩ := h'
  exact ⟨items ++ items', Concat.durations_append ho hp
    (Concat.junction_delims hds hne ho hf (Concat.durations_ne h1')) h1 h1', List.rel_append h2 h2'⟩

/-- C68: the same with a conjunction between the texts, unless the setting allows delimiters between numbers and units. -/
theorem C68_durations_conjunction (s ds x ds' t w : Bytes) (bef aft : List Bytes) (l l' : List Duration)
    (ho : Orderly cfg units keywords numerals) (hp : PlainConjunctions cfg)
    (hds : ∀ b ∈ ds, cfg.outerDelimiter b = true) (hne : ds ≠ [])
    (hw : cfg.conjunctions.getD [] = bef ++ w :: aft) (hx : SameText x w) (hxne : x ≠ [])
    (hbef : ∀ v ∈ bef, ¬ ∃ r, AfterWord v (x ++ (ds' ++ t)) r)
    (hds' : ∀ b ∈ ds', cfg.outerDelimiter b = true) (hnext : ds' = [] → StartsWith NextDuration t)
    (hu : cfg.allowTimeUnitDelimiter = false) (hago : cfg.allowAgo = true → ¬ ∃ r, AgoText cfg (x ++ (ds' ++ t)) r)
    (hf : ¬ StartsWith (IsDelimiter cfg) t)
    (h : DenotesMultiple cfg units keywords numerals s l) (h' : DenotesMultiple cfg units keywords numerals t l') :
    DenotesMultiple cfg units keywords numerals (s ++ (ds ++ (x ++ (ds' ++ t)))) (l ++ l') := by
  obtain ⟨items, h1, h2⟩ := h
  obtain ⟨items', h1', h2'⟩ := h'
  exact ⟨items ++ items', Concat.durations_append ho hp
    (Concat.junction_conjunction hds hne hw hx hxne hp hbef hds' hnext hu hago ho hf (Concat.durations_ne h1')) h1 h1',
    List.rel_append h2 h2'⟩

theorem denotes_nonneg {cfg : Config} {units : TimeUnitsLike} {keywords : Option TimeUnitsLike} {numerals : Option NumbersLike}
    {s : Bytes} {ds : List Duration} (hn : cfg.allowNegative = false) (h : DenotesMultiple cfg units keywords numerals s ds) :
    ∀ x ∈ ds.map nanos, 0 ≤ x := by
  obtain ⟨items, -, hf⟩ := h
  have hall : ∀ d ∈ ds, 0 ≤ nanos d := by
    intro d hd
    have : d.isNegative = false := by
      induction hf with
      | nil => cases hd
      | cons g1 _ ih =>
        rcases List.mem_cons.1 hd with rfl | hd
        · exact g1.2.resolve_left (by rw [hn]; simp)
        · exact ih hd
    unfold nanos
    rw [this]
    simp only [Bool.false_eq_true, if_false]
    omega
  intro x hx
  obtain ⟨d, hd', rfl⟩ := List.mem_map.1 hx
  exact hall d hd'

/-- the sums of two lists one after the other -/
theorem saturatingSum_append (l l' : List Int) :
    saturatingSum (l ++ l') = l'.foldl (fun acc x => clamp (acc + x)) (saturatingSum l) := by
  unfold saturatingSum
  rw [List.foldl_append]

theorem sum_nonneg' {l : List Int} (h : ∀ x ∈ l, 0 ≤ x) : 0 ≤ l.sum := by
  induction l with
  | nil => simp
  | cons x l ih =>
    rw [List.sum_cons]
    have := h x (by simp)
    have := ih fun y hy => h y (by simp [hy])
    omega

theorem parse_joined {cfg : Config} {units : TimeUnitsLike} {keywords : Option TimeUnitsLike} {numerals : Option NumbersLike}
    {s t j : Bytes} {d d' : Duration} (hs : IsText s) (ht : IsText t) (hj : IsText j) (hc : CfgText cfg)
    (hm : cfg.allowMultiple = true)
    (hd : (∀ b, cfg.innerDelimiter b = true → cfg.outerDelimiter b = true) ∨ (keywords = none ∧ numerals = none))
    (hn : cfg.allowNegative = false)
    (hjoin : ∀ l l', DenotesMultiple cfg units keywords numerals s l → DenotesMultiple cfg units keywords numerals t l' →
      DenotesMultiple cfg units keywords numerals j (l ++ l'))
    (h : parse cfg units keywords numerals s = .ok d) (h' : parse cfg units keywords numerals t = .ok d') :
    ∃ e, parse cfg units keywords numerals j = .ok e ∧ e.WF ∧ nanos e = min maxNanos (nanos d + nanos d') := by
  obtain ⟨-, l, h1, h2⟩ := C29_saturating_sum cfg units keywords numerals s hs hc hm hd d h
  obtain ⟨-, l', h1', h2'⟩ := C29_saturating_sum cfg units keywords numerals t ht hc hm hd d' h'
  obtain ⟨e, he, hw, hx⟩ := (C27_multiple cfg units keywords numerals j _ hj hc hm hd).2 ⟨l ++ l', hjoin l l' h1 h1', rfl⟩
  refine ⟨e, he, hw, ?_⟩
  rw [List.map_append, saturatingSum_append, ← h2] at hx
  have g1 := foldl_nonneg (l.map nanos) 0 (by decide) (by decide) (denotes_nonneg hn h1)
  have g2 := foldl_nonneg (l'.map nanos) 0 (by decide) (by decide) (denotes_nonneg hn h1')
  unfold saturatingSum at h2 h2'
  rw [g1, Int.zero_add] at h2
  rw [g2, Int.zero_add] at h2'
  have n1 := sum_nonneg' (denotes_nonneg hn h1)
  have n2 := sum_nonneg' (denotes_nonneg hn h1')
  have hmax : (0 : Int) ≤ maxNanos := by decide
  rw [hx, foldl_nonneg _ _ (by omega) (by omega) (denotes_nonneg hn h1')]
  omega

theorem text_joined {a b : Bytes} (ha : IsText a) (hb : IsText b) : IsText (a ++ b) := by
  rw [isText_iff] at *
  exact utf8Valid_append ha hb

/-- C68: If negative durations are not allowed, two accepted texts with delimiters between them are accepted, and the
result is the sum of their results (at most the maximum). -/
theorem C68_sum (s ds t : Bytes) (d d' : Duration) (hs : IsText s) (ht : IsText t) (hc : CfgText cfg)
    (hm : cfg.allowMultiple = true)
    (hd : (∀ b, cfg.innerDelimiter b = true → cfg.outerDelimiter b = true) ∨ (keywords = none ∧ numerals = none))
    (ho : Orderly cfg units keywords numerals) (hp : PlainConjunctions cfg) (hn : cfg.allowNegative = false)
    (hds : ∀ b ∈ ds, cfg.outerDelimiter b = true) (hne : ds ≠ []) (hf : CanFollow cfg units t)
    (h : parse cfg units keywords numerals s = .ok d) (h' : parse cfg units keywords numerals t = .ok d') :
    ∃ e, parse cfg units keywords numerals (s ++ (ds ++ t)) = .ok e ∧ e.WF ∧ nanos e = min maxNanos (nanos d + nanos d') :=
  parse_joined hs ht (text_joined hs (text_joined (isText_ascii fun b hb => hc.outer b (hds b hb)) ht)) hc hm hd hn
    (fun l l' h h' => C68_durations cfg units keywords numerals s ds t l l' ho hp hds hne hf h h') h h'

/-- C68: the same with a conjunction between the texts. -/
theorem C68_sum_conjunction (s ds x ds' t w : Bytes) (bef aft : List Bytes) (d d' : Duration)
    (hs : IsText s) (ht : IsText t) (hxt : IsText x) (hc : CfgText cfg) (hm : cfg.allowMultiple = true)
    (hd : (∀ b, cfg.innerDelimiter b = true → cfg.outerDelimiter b = true) ∨ (keywords = none ∧ numerals = none))
    (ho : Orderly cfg units keywords numerals) (hp : PlainConjunctions cfg) (hn : cfg.allowNegative = false)
    (hds : ∀ b ∈ ds, cfg.outerDelimiter b = true) (hne : ds ≠ [])
    (hw : cfg.conjunctions.getD [] = bef ++ w :: aft) (hx : SameText x w) (hxne : x ≠ [])
    (hbef : ∀ v ∈ bef, ¬ ∃ r, AfterWord v (x ++ (ds' ++ t)) r)
    (hds' : ∀ b ∈ ds', cfg.outerDelimiter b = true) (hnext : ds' = [] → StartsWith NextDuration t)
    (hu : cfg.allowTimeUnitDelimiter = false) (hago : cfg.allowAgo = true → ¬ ∃ r, AgoText cfg (x ++ (ds' ++ t)) r)
    (hf : ¬ StartsWith (IsDelimiter cfg) t)
    (h : parse cfg units keywords numerals s = .ok d) (h' : parse cfg units keywords numerals t = .ok d') :
    ∃ e, parse cfg units keywords numerals (s ++ (ds ++ (x ++ (ds' ++ t)))) = .ok e ∧ e.WF ∧
      nanos e = min maxNanos (nanos d + nanos d') :=
  parse_joined hs ht (text_joined hs (text_joined (isText_ascii fun b hb => hc.outer b (hds b hb))
      (text_joined hxt (text_joined (isText_ascii fun b hb => hc.outer b (hds' b hb)) ht)))) hc hm hd hn
    (fun l l' h h' => C68_durations_conjunction cfg units keywords numerals s ds x ds' t w bef aft l l' ho hp hds hne hw hx hxne
      hbef hds' hnext hu hago hf h h') h h'

/-- C68, also with negative durations: the result is the exact sum if no partial sum leaves the range. -/
theorem C68_exact (s ds t : Bytes) (l l' : List Duration) (hs : IsText s) (ht : IsText t) (hc : CfgText cfg)
    (hm : cfg.allowMultiple = true)
    (hd : (∀ b, cfg.innerDelimiter b = true → cfg.outerDelimiter b = true) ∨ (keywords = none ∧ numerals = none))
    (ho : Orderly cfg units keywords numerals) (hp : PlainConjunctions cfg)
    (hds : ∀ b ∈ ds, cfg.outerDelimiter b = true) (hne : ds ≠ []) (hf : CanFollow cfg units t)
    (h : DenotesMultiple cfg units keywords numerals s l) (h' : DenotesMultiple cfg units keywords numerals t l')
    (hr : ∀ k, k ≤ (l ++ l').length → Representable ((((l ++ l').map nanos).take k).sum)) :
    ∃ e, parse cfg units keywords numerals (s ++ (ds ++ t)) = .ok e ∧ e.WF ∧ nanos e = (l.map nanos).sum + (l'.map nanos).sum := by
  have htext : IsText (s ++ (ds ++ t)) := by
    have hds' : IsText ds := isText_ascii fun b hb => hc.outer b (hds b hb)
    rw [isText_iff] at *
    exact utf8Valid_append hs (utf8Valid_append hds' ht)
  have := C29_exact cfg units keywords numerals _ htext hc hm hd (l ++ l')
    (C68_durations cfg units keywords numerals s ds t l l' ho hp hds hne hf h h') hr
  rwa [List.map_append, List.sum_append] at this

/-- a text which starts with a digit, a point or a sign can follow any other -/
theorem C68_numbers_follow (t : Bytes) (ho : Orderly cfg units keywords numerals)
    (h : StartsWith (fun b => NextDuration b ∨ b = 46) t) (hd : ¬ StartsWith (IsDelimiter cfg) t)
    (hc : ∀ w ∈ cfg.conjunctions.getD [], ¬ ∃ r, AfterWord w t r) : CanFollow cfg units t :=
  Concat.canFollow_number ho h hd hc

/-! ## fundu-systemd -/

theorem systemd_orderly (nanos : Bool) (u : TimeUnit) :
    Orderly (Systemd.TimeSpanParser.withDefaultUnit u).config (tableOf nanos) none none := by
  have hdel : ∀ b, IsDelimiter (Systemd.TimeSpanParser.withDefaultUnit u).config b → PosixSpace b :=
    fun b h => (systemd_delimiter b).1 (h.elim id id)
  have hid : ∀ {P : Bytes → Prop}, (∀ id ∈ idsOf (documentedOf nanos), P id) →
      ∀ id, IsIdentifier (tableOf nanos) none none id → P id := by
    rintro P hP id (⟨x, h⟩ | ⟨k, x, h, -⟩ | ⟨n, q, h, -⟩)
    · exact hP id (systemd_get_mem h)
    · cases h
    · cases h
  refine ⟨?_, hid ?_, hid ?_, hid ?_, hid ?_, hid ?_, ?_, ?_, ?_⟩
  · intro b hb
    have key : ∀ n < 256, PosixSpace (UInt8.ofNat n) →
        ¬ IsLetter (UInt8.ofNat n) ∧ ¬ IsDigit (UInt8.ofNat n) ∧ UInt8.ofNat n ≠ 46 := by decide +kernel
    have := key b.toNat b.toNat_lt
    rw [UInt8.ofNat_toNat] at this
    exact this (hdel b hb)
  · cases nanos <;> decide +kernel
  · have : ∀ id ∈ idsOf (documentedOf nanos), ∀ b ∈ id, ¬ PosixSpace b ∧ ¬ NextDuration b := by
      cases nanos <;> decide +kernel
    exact fun id h b hb => ⟨fun g => (this id h b hb).1 (hdel b g), (this id h b hb).2⟩
  · have : ∀ id ∈ idsOf (documentedOf nanos), id.head? ≠ some 46 := by cases nanos <;> decide +kernel
    rintro id h ⟨b, l, rfl, rfl⟩
    exact this _ h rfl
  · have : ∀ id ∈ idsOf (documentedOf nanos), ¬ SameText (id.take 3) (b! "inf") := by cases nanos <;> decide +kernel
    rintro id h ⟨r, x, rfl, hx⟩
    have h3 : x.length = 3 := by have := congrArg List.length hx; simpa using this
    refine this _ h ?_
    rw [← h3, List.take_left]
    exact hx
  · cases nanos <;> decide +kernel
  · intro k h; cases h
  · intro n h; cases h
  · intro k n h; cases h

/-- C68 for fundu-systemd: two accepted texts other than `infinity` with white space between them, the second one starting with
a number, are accepted, and the result is the sum of the results, or the maximum if that is less. -/
theorem C68_systemd (nanos' : Bool) (u : TimeUnit) (s ds t m m' : Bytes) (max d d' : Duration) (hs : IsText s) (ht : IsText t)
    (hds : ∀ b ∈ ds, PosixSpace b) (hne : ds ≠ []) (hw : max.WF) (hm : max.isNegative = false)
    (hts : Trimmed s m) (hi : m ≠ b! "infinity") (htt : Trimmed t m') (hi' : m' ≠ b! "infinity")
    (hf : StartsWith (fun b => NextDuration b ∨ b = 46) m')
    (h : parseMax nanos' (Systemd.TimeSpanParser.withDefaultUnit u) s max = .ok d)
    (h' : parseMax nanos' (Systemd.TimeSpanParser.withDefaultUnit u) t max = .ok d') :
    ∃ e, parseMax nanos' (Systemd.TimeSpanParser.withDefaultUnit u) (s ++ (ds ++ t)) max = .ok e ∧
      nanos e = min (nanos max) (nanos d + nanos d') := by
  obtain ⟨l, h1, h2⟩ := (C38_value nanos' u s m hs hts hi max hw hm _).1 ⟨d, h, rfl⟩
  obtain ⟨l', h1', h2'⟩ := (C38_value nanos' u t m' ht htt hi' max hw hm _).1 ⟨d', h', rfl⟩
  obtain ⟨pre, post, rfl, a1, a2, a3, a4⟩ := hts
  obtain ⟨pre', post', rfl, b1, b2, b3, b4⟩ := htt
  have hmid : ∀ b ∈ post ++ (ds ++ pre'), PosixSpace b := by
    intro b hb
    rcases List.mem_append.1 hb with hb | hb
    · exact a2 b hb
    · rcases List.mem_append.1 hb with hb | hb
      · exact hds b hb
      · exact b1 b hb
  have hmne : post ++ (ds ++ pre') ≠ [] := by simp [hne]
  have hm0 : m ≠ [] := by obtain ⟨_, g, -⟩ := h1; exact Concat.durations_ne g
  have hm0' : m' ≠ [] := by obtain ⟨_, g, -⟩ := h1'; exact Concat.durations_ne g
  have htrim : Trimmed (pre ++ (m ++ post) ++ (ds ++ (pre' ++ (m' ++ post')))) (m ++ ((post ++ (ds ++ pre')) ++ m')) := by
    refine ⟨pre, post', by simp [List.append_assoc], a1, b2, fun b hb => a3 b ?_, fun b hb => b4 b ?_⟩
    · obtain ⟨c, l, rfl⟩ := List.exists_cons_of_ne_nil hm0
      exact hb
    · rw [← List.append_assoc, List.getLast?_append_of_ne_nil _ hm0'] at hb
      exact hb
  have hinf : m ++ ((post ++ (ds ++ pre')) ++ m') ≠ b! "infinity" := by
    intro e
    obtain ⟨b, l, hbl⟩ := List.exists_cons_of_ne_nil hmne
    have : b ∈ b! "infinity" := by
      rw [← e, hbl]; simp
    have hsp := hmid b (by rw [hbl]; simp)
    exact (by decide : ∀ b ∈ b! "infinity", ¬ PosixSpace b) b this hsp
  have hspace : ∀ b ∈ post ++ (ds ++ pre'), (Systemd.TimeSpanParser.withDefaultUnit u).config.outerDelimiter b = true :=
    fun b hb => (systemd_delimiter b).2 (hmid b hb)
  have hj := C68_durations (Systemd.TimeSpanParser.withDefaultUnit u).config (tableOf nanos') none none m _ m' l l'
    (systemd_orderly nanos' u) (by intro w hw; cases hw) hspace hmne
    (C68_numbers_follow _ _ none none m' (systemd_orderly nanos' u) hf (by
      rintro ⟨b, r, rfl, hb⟩
      exact b3 b rfl ((systemd_delimiter b).1 (hb.elim id id))) (by intro w hw; cases hw)) h1 h1'
  have hds' : IsText ds := isText_ascii fun b hb => posixSpace_ascii (hds b hb)
  obtain ⟨e, he, hx⟩ := (C38_value nanos' u _ _ (text_joined hs (text_joined hds' ht)) htrim hinf max hw hm _).2 ⟨l ++ l', hj, rfl⟩
  refine ⟨e, he, ?_⟩
  rw [hx, h2, h2', List.map_append, List.sum_append]
  have n1 := sum_nonneg' (denotes_nonneg rfl h1)
  have n2 := sum_nonneg' (denotes_nonneg rfl h1')
  have hmn : 0 ≤ nanos max := by
    unfold nanos; rw [hm]; simp only [Bool.false_eq_true, if_false]; omega
  omega

/-! ## Concrete cases -/

example : ∃ e, parseMax false Systemd.TimeSpanParser.new (b! " 1h 5" ++ (b! "\n" ++ b! " 2min ")) Systemd.SYSTEMD_MAX_MICRO_DURATION = .ok e ∧
    nanos e = 3725000000000 :=
  C68_systemd false .second (b! " 1h 5") (b! "\n") (b! " 2min ") (b! "1h 5") (b! "2min") Systemd.SYSTEMD_MAX_MICRO_DURATION
    ⟨false, ⟨3605, 0⟩⟩ ⟨false, ⟨120, 0⟩⟩ (isText_ascii (by decide)) (isText_ascii (by decide)) (by decide) (by decide) (by decide) rfl
    ⟨b! " ", [], rfl, by decide, by decide, by decide, by decide⟩ (by decide)
    ⟨b! " ", b! " ", rfl, by decide, by decide, by decide, by decide⟩ (by decide)
    ⟨50, b! "min", rfl, by left; left; decide⟩ (by decide +kernel) (by decide +kernel)

def joinParser : DurationParser := DurationParser.new.parseMultiple true none

theorem joinParser_orderly : Orderly joinParser.config joinParser.timeUnits.like none none :=
  standard_orderly _ [.nanoSecond, .microSecond, .milliSecond, .second, .minute, .hour, .day, .week] (whitespace_delimiters _ rfl rfl)

example : ∃ e, joinParser.parse (b! "1h 2m" ++ (b! "  " ++ b! "0.5s")) = .ok e ∧ e.WF ∧ nanos e = 3720500000000 := by
  have := C68_sum joinParser.config joinParser.timeUnits.like none none (b! "1h 2m") (b! "  ") (b! "0.5s")
    ⟨false, ⟨3720, 0⟩⟩ ⟨false, ⟨0, 500000000⟩⟩ (isText_ascii (by decide)) (isText_ascii (by decide))
    ⟨defaultConfig_text.inner, defaultConfig_text.outer, by intro ws h; cases h⟩ rfl (Or.inl fun _ h => h) joinParser_orderly
    (by intro w h; cases h) rfl (by decide) (by decide)
    (C68_numbers_follow _ _ _ _ _ joinParser_orderly ⟨48, b! ".5s", rfl, by left; left; decide⟩
      (by rw [show b! "0.5s" = 48 :: b! ".5s" from rfl, startsWith_cons]; rintro (h | h) <;> exact absurd h (by decide))
      (by intro w h; cases h))
    (by decide +kernel) (by decide +kernel)
  exact this

def joinAndParser : DurationParser := DurationParser.new.parseMultiple true (some [b! "plus", b! "and"])

theorem joinAndParser_orderly : Orderly joinAndParser.config joinAndParser.timeUnits.like none none :=
  standard_orderly _ [.nanoSecond, .microSecond, .milliSecond, .second, .minute, .hour, .day, .week] (whitespace_delimiters _ rfl rfl)

example : ∃ e, joinAndParser.parse (b! "1h plus 2m" ++ (b! " " ++ (b! "AND" ++ (b! " " ++ b! "7s")))) = .ok e ∧ e.WF ∧
    nanos e = 3727000000000 := by
  have := C68_sum_conjunction joinAndParser.config joinAndParser.timeUnits.like none none (b! "1h plus 2m") (b! " ") (b! "AND")
    (b! " ") (b! "7s") (b! "and") [b! "plus"] [] ⟨false, ⟨3720, 0⟩⟩ ⟨false, ⟨7, 0⟩⟩ (isText_ascii (by decide)) (isText_ascii (by decide))
    (isText_ascii (by decide))
    ⟨defaultConfig_text.inner, defaultConfig_text.outer, by
      intro ws h w hw
      have : ws = [b! "plus", b! "and"] := by simpa [joinAndParser, DurationParser.parseMultiple] using h.symm
      subst this
      have key : ∀ w ∈ [b! "plus", b! "and"], ∀ b ∈ w, b.toNat < 128 := by decide
      exact isText_ascii (key w hw)⟩ rfl (Or.inl fun _ h => h) joinAndParser_orderly
    (by
      have key : ∀ w ∈ [b! "plus", b! "and"], ∀ b ∈ w, isAsciiWhitespace b = false := by decide
      intro w hw b hb h
      have := key w hw b hb
      rcases h with h | h <;> (have h : isAsciiWhitespace b = true := h; rw [this] at h; cases h))
    rfl (by decide) (by decide) rfl (by decide) (by decide)
    (by
      rintro v hv ⟨r, x, hx, hs⟩
      rw [List.mem_singleton.1 hv] at hs
      have e1 : x.length = 4 := by have := congrArg List.length hs; simpa using this
      have e2 := congrArg (List.take 4) hx
      rw [← e1, List.take_left] at e2
      rw [← e2, e1] at hs
      revert hs; decide)
    (by decide) (by intro h; cases h) rfl (by intro h; cases h)
    (by rw [show b! "7s" = 55 :: b! "s" from rfl, startsWith_cons]; rintro (h | h) <;> exact absurd h (by decide))
    (by decide +kernel) (by decide +kernel)
  exact this

/-- without the condition on the second text it is false: "1" and "m" are accepted, "1 m" is one minute -/
example :
    let cfg : Config := { allowMultiple := true, numberIsOptional := true, allowTimeUnitDelimiter := true }
    ({ DurationParser.new with config := cfg } : DurationParser).parse (b! "1") = .ok ⟨false, ⟨1, 0⟩⟩ ∧
    ({ DurationParser.new with config := cfg } : DurationParser).parse (b! "m") = .ok ⟨false, ⟨60, 0⟩⟩ ∧
    ({ DurationParser.new with config := cfg } : DurationParser).parse (b! "1 m") = .ok ⟨false, ⟨60, 0⟩⟩ := by decide +kernel

end Fundu.Props
