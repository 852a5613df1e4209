import Verif.Spec.Case
import Verif.Proofs.GnuCase
/-! # Parsers which do not distinguish upper and lower case -/
namespace Fundu.Case
open Fundu Fundu.Spec Fundu.Gnu

variable {cfg : Config} {units : TimeUnitsLike} {keywords : Option TimeUnitsLike} {numerals : Option NumbersLike}

theorem lower_eq {b c : UInt8} (hb : ∀ m < 256, lower b = lower (UInt8.ofNat m) → UInt8.ofNat m = b) (h : lower b = lower c) :
    c = b := by
  have := hb c.toNat c.toNat_lt
  rw [UInt8.ofNat_toNat] at this
  exact this h

theorem cf_inner (hc : IgnoresCase cfg units keywords numerals) : CaseFree (cfg.innerDelimiter · = true) :=
  fun b c h => by show _ = _ ↔ _ = _; rw [hc.inner b c h]
theorem cf_outer (hc : IgnoresCase cfg units keywords numerals) : CaseFree (cfg.outerDelimiter · = true) :=
  fun b c h => by show _ = _ ↔ _ = _; rw [hc.outer b c h]
theorem cf_next : CaseFree NextDuration := by
  intro b c h
  unfold NextDuration
  rw [caseFree_digit b c h]
  have := caseFree_sign b c h
  exact or_congr Iff.rfl this
theorem cf_keywordEnd (hc : IgnoresCase cfg units keywords numerals) : CaseFree (KeywordEnd cfg) :=
  fun b c h => or_congr (cf_outer hc b c h) (cf_next b c h)
theorem cf_unitEnd (hc : IgnoresCase cfg units keywords numerals) : CaseFree (UnitEnd cfg) :=
  fun b c h => or_congr (and_congr Iff.rfl (cf_inner hc b c h)) (or_congr (cf_outer hc b c h) (cf_next b c h))
theorem cf_point : CaseFree (· = 46) := caseFree_of (by decide +kernel)

theorem starts_iff {s t : Bytes} {p : UInt8 → Prop} (hp : CaseFree p) (h : SameText s t) : StartsWith p s ↔ StartsWith p t :=
  ⟨same_starts h hp, same_starts (same_symm h) hp⟩

theorem same_afterWord {w s s' r : Bytes} (h : AfterWord w s r) (hs : SameText s s') : ∃ r', AfterWord w s' r' ∧ SameText r r' := by
  obtain ⟨x, rfl, hx⟩ := h
  obtain ⟨x', r', rfl, g1, g2⟩ := same_append hs
  exact ⟨r', ⟨x', rfl, same_trans (same_symm g1) hx⟩, g2⟩

theorem afterWord_iff {w s s' : Bytes} (hs : SameText s s') : (∃ r, AfterWord w s r) ↔ ∃ r, AfterWord w s' r :=
  ⟨fun ⟨_, h⟩ => let ⟨r', g, _⟩ := same_afterWord h hs; ⟨r', g⟩,
    fun ⟨_, h⟩ => let ⟨r', g, _⟩ := same_afterWord h (same_symm hs); ⟨r', g⟩⟩

theorem same_afterDelims {a : Bool} {d : Delimiter} (hd : CaseFree (d · = true)) {s s' r : Bytes} (h : AfterDelims a d s r)
    (hs : SameText s s') : ∃ r', AfterDelims a d s' r' ∧ SameText r r' := by
  unfold AfterDelims at *
  cases a with
  | true =>
    obtain ⟨ds, h⟩ := h
    obtain ⟨ds', r', g1, -, g3⟩ := same_split hd h hs
    exact ⟨r', ⟨ds', g1⟩, g3⟩
  | false => exact ⟨s', rfl, by cases h; exact hs⟩

theorem same_signPart (hc : IgnoresCase cfg units keywords numerals) {s s' r : Bytes} {neg : Bool} (h : SignPart cfg s neg r)
    (hs : SameText s s') : ∃ r', SignPart cfg s' neg r' ∧ SameText r r' := by
  cases h with
  | absent h1 h2 => exact ⟨s', .absent (same_ne hs h1) (fun g => h2 ((starts_iff caseFree_sign hs).2 g)), hs⟩
  | plus h1 h2 =>
    obtain ⟨c, t, rfl, g1, g2⟩ := same_cons hs
    obtain rfl := lower_eq (b := 43) (by decide +kernel) g1
    obtain ⟨r', k1, k2⟩ := same_afterDelims (cf_inner hc) h1 g2
    exact ⟨r', .plus k1 (same_ne k2 h2), k2⟩
  | minus h1 h2 =>
    obtain ⟨c, t, rfl, g1, g2⟩ := same_cons hs
    obtain rfl := lower_eq (b := 45) (by decide +kernel) g1
    obtain ⟨r', k1, k2⟩ := same_afterDelims (cf_inner hc) h1 g2
    exact ⟨r', .minus k1 (same_ne k2 h2), k2⟩

theorem same_digitRun {s s' W r : Bytes} (h : Split IsDigit s W r) (hs : SameText s s') : ∃ r', Split IsDigit s' W r' ∧ SameText r r' := by
  obtain ⟨w', r', g1, g2, g3⟩ := same_split caseFree_digit h hs
  obtain rfl := digits_same h.2.1 g2
  exact ⟨r', g1, g3⟩

theorem same_fraction {W F s s' r : Bytes} (h : FractionPart cfg W s F r) (hs : SameText s s') :
    ∃ r', FractionPart cfg W s' F r' ∧ SameText r r' := by
  cases h with
  | absent h1 h2 => exact ⟨s', .absent h1 (fun g => h2 ((starts_iff cf_point hs).2 g)), hs⟩
  | present h1 h2 h3 =>
    obtain ⟨c, t, rfl, g1, g2⟩ := same_cons hs
    obtain rfl := lower_eq (b := 46) (by decide +kernel) g1
    obtain ⟨r', k1, k2⟩ := same_digitRun h2 g2
    exact ⟨r', .present h1 k1 h3, k2⟩

theorem same_exponentSign {s s' r : Bytes} {neg : Bool} (h : ExponentSign s neg r) (hs : SameText s s') :
    ∃ r', ExponentSign s' neg r' ∧ SameText r r' := by
  cases h with
  | absent h1 => exact ⟨s', .absent (fun g => h1 ((starts_iff caseFree_sign hs).2 g)), hs⟩
  | plus =>
    obtain ⟨c, t, rfl, g1, g2⟩ := same_cons hs
    obtain rfl := lower_eq (b := 43) (by decide +kernel) g1
    exact ⟨t, .plus, g2⟩
  | minus =>
    obtain ⟨c, t, rfl, g1, g2⟩ := same_cons hs
    obtain rfl := lower_eq (b := 45) (by decide +kernel) g1
    exact ⟨t, .minus, g2⟩

theorem same_exponent {s s' r : Bytes} {e : Int} (h : ExponentPart cfg s e r) (hs : SameText s s') :
    ∃ r', ExponentPart cfg s' e r' ∧ SameText r r' := by
  cases h with
  | absent h1 => exact ⟨s', .absent (fun g => h1 ((starts_iff caseFree_exponent hs).2 g)), hs⟩
  | present h1 h2 h3 h4 h5 h6 =>
    obtain ⟨c, t, rfl, g1, g2⟩ := same_cons hs
    obtain ⟨a, k1, k2⟩ := same_exponentSign h3 g2
    obtain ⟨r', q1, q2⟩ := same_digitRun h4 k2
    exact ⟨r', .present ((caseFree_exponent _ _ g1).1 h1) h2 k1 q1 h5 h6, q2⟩

theorem same_number {s s' W F r : Bytes} {e : Int} (h : NumberText cfg s W F e r) (hs : SameText s s') :
    ∃ r', NumberText cfg s' W F e r' ∧ SameText r r' := by
  obtain ⟨r1, r2, h1, h2, h3⟩ := h
  obtain ⟨a, g1, g2⟩ := same_digitRun h1 hs
  obtain ⟨b, k1, k2⟩ := same_fraction h2 g2
  obtain ⟨c, q1, q2⟩ := same_exponent h3 k2
  exact ⟨c, ⟨a, b, g1, k1, q1⟩, q2⟩

theorem same_wordStart {s s' : Bytes} (h : WordStart cfg s) (hs : SameText s s') : WordStart cfg s' := by
  obtain ⟨h1, h2, h3, h4⟩ := h
  exact ⟨same_ne hs h1, fun g => h2 ((starts_iff caseFree_digit hs).2 g), fun g => h3 ((starts_iff cf_point hs).2 g),
    fun hd g => h4 hd ((afterWord_iff hs).2 g)⟩

/-! ## One duration -/

theorem same_unitSingle (hc : IgnoresCase cfg units keywords numerals) {s s' r : Bytes} {u} (h : UnitSingle cfg units s u r)
    (hs : SameText s s') : ∃ r', UnitSingle cfg units s' u r' ∧ SameText r r' := by
  cases h with
  | whole h1 h2 => exact ⟨[], .whole h1 (by rw [← hc.unit _ _ hs]; exact h2), rfl⟩
  | plain h1 h2 h3 h4 =>
    obtain ⟨w', r', g1, g2, g3⟩ := same_split (caseFree_not (cf_inner hc)) h2 hs
    obtain rfl := same_nil g3
    obtain rfl : s' = w' := by have := g1.1; simpa using this
    exact ⟨[], .plain h1 g1 (same_ne hs h3) (by rw [← hc.unit _ _ hs]; exact h4), rfl⟩
  | ago h1 h2 h3 h4 h5 h6 =>
    obtain ⟨w', r', g1, g2, g3⟩ := same_split (caseFree_not (cf_inner hc)) h2 hs
    obtain ⟨ds', t, k1, k2, k3⟩ := same_split (cf_inner hc) h5 g3
    obtain ⟨t', q1, q2⟩ := same_afterWord h6 k3
    exact ⟨t', .ago h1 g1 (same_ne g2 h3) (by rw [← hc.unit _ _ g2]; exact h4) k1 q1, q2⟩

theorem same_unitSingle_end (hc : IgnoresCase cfg units keywords numerals) {s s' : Bytes} {u} (h : UnitSingle cfg units s u [])
    (hs : SameText s s') : UnitSingle cfg units s' u [] := by
  obtain ⟨r', g1, g2⟩ := same_unitSingle hc h hs
  obtain rfl := same_nil g2
  exact g1

theorem same_unitPart (hc : IgnoresCase cfg units keywords numerals) {s s' : Bytes} {u} (h : UnitPart cfg units s u)
    (hs : SameText s s') : UnitPart cfg units s' u := by
  cases h with
  | absent => obtain rfl := same_nil hs; exact .absent
  | present h1 h2 h3 h4 =>
    obtain ⟨r', g1, g2⟩ := same_afterDelims (cf_inner hc) h1 hs
    exact .present g1 (same_ne g2 h2) h3 (same_unitSingle_end hc h4 g2)

theorem same_singleText (hc : IgnoresCase cfg units keywords numerals) {s s' : Bytes} {item : Item}
    (h : SingleText cfg units keywords numerals s item) (hs : SameText s s') : SingleText cfg units keywords numerals s' item := by
  cases h with
  | number h1 h2 =>
    obtain ⟨r', g1, g2⟩ := same_number h1 hs
    exact .number g1 (same_unitPart hc h2 g2)
  | infinity h1 h2 => exact .infinity h1 (h2.imp (same_trans (same_symm hs)) (same_trans (same_symm hs)))
  | keyword h1 h2 h3 => exact .keyword (same_wordStart h1 hs) h2 (by rw [← hc.keyword _ h2 _ _ hs]; exact h3)
  | unit h1 h2 h3 h4 =>
    exact .unit (same_wordStart h1 hs) (fun k hk => by rw [← hc.keyword _ hk _ _ hs]; exact h2 k hk) h3 (same_unitSingle_end hc h4 hs)
  | numeral h1 h2 h3 h4 h5 h6 h7 h8 h9 h10 =>
    obtain ⟨w', r', g1, g2, g3⟩ := same_split (caseFree_not (cf_inner hc)) h5 hs
    obtain ⟨ds', t, k1, k2, k3⟩ := same_split (cf_inner hc) h8 g3
    refine .numeral (same_wordStart h1 hs) (fun k hk => by rw [← hc.keyword _ hk _ _ hs]; exact h2 k hk) ?_ h4 g1 (same_ne g2 h6)
      (by rw [← hc.numeral _ h4 _ _ g2]; exact h7) k1 (same_ne k3 h9) (same_unitSingle_end hc h10 k3)
    rintro ho ⟨u, rest, hu⟩
    obtain ⟨rest', hu', -⟩ := same_unitSingle hc hu (same_symm hs)
    exact h3 ho ⟨u, rest', hu'⟩

theorem same_denotesSingle (hc : IgnoresCase cfg units keywords numerals) {s s' : Bytes} {d : Duration}
    (h : DenotesSingle cfg units keywords numerals s d) (hs : SameText s s') : DenotesSingle cfg units keywords numerals s' d := by
  obtain ⟨neg, r, item, h1, h2, h3⟩ := h
  obtain ⟨r', g1, g2⟩ := same_signPart hc h1 hs
  exact ⟨neg, r', item, g1, same_singleText hc h2 g2, h3⟩

/-! ## Several durations -/

theorem same_connection (hc : IgnoresCase cfg units keywords numerals) {s s' r : Bytes} (h : Connection cfg s r) (hs : SameText s s') :
    ∃ r', Connection cfg s' r' ∧ SameText r r' := by
  cases h with
  | absent h1 => exact ⟨s', .absent (fun g => h1 ((starts_iff (cf_outer hc) hs).2 g)), hs⟩
  | delims h1 h2 h3 h4 =>
    obtain ⟨ds', r', g1, g2, g3⟩ := same_split (cf_outer hc) h1 hs
    exact ⟨r', .delims g1 (same_ne g2 h2) (same_ne g3 h3) (fun w hw g => h4 w hw ((afterWord_iff g3).2 g)), g3⟩
  | conjunction h1 h2 h3 h4 h5 h6 h7 h8 =>
    obtain ⟨ds', r', g1, g2, g3⟩ := same_split (cf_outer hc) h1 hs
    obtain ⟨t, k1, k2⟩ := same_afterWord h5 g3
    obtain ⟨ds2, rest', q1, q2, q3⟩ := same_split (cf_outer hc) h6 k2
    refine ⟨rest', .conjunction g1 (same_ne g2 h2) h3 (fun v hv g => h4 v hv ((afterWord_iff g3).2 g)) k1 q1 (same_ne q3 h7) ?_, q3⟩
    rintro rfl
    exact (starts_iff cf_next q3).1 (h8 (same_nil (same_symm q2)))

theorem same_wordIn {stop : UInt8 → Prop} {table : TimeUnitsLike} (hp : CaseFree stop)
    (ht : ∀ w w', SameText w w' → table.get w = table.get w') {s s' r : Bytes} {u} (h : WordIn stop table s u r) (hs : SameText s s') :
    ∃ r', WordIn stop table s' u r' ∧ SameText r r' := by
  obtain ⟨w, h1, h2, h3⟩ := h
  obtain ⟨w', r', g1, g2, g3⟩ := same_split (caseFree_not hp) h1 hs
  exact ⟨r', ⟨w', g1, same_ne g2 h2, by rw [← ht _ _ g2]; exact h3⟩, g3⟩

theorem same_agoText (hc : IgnoresCase cfg units keywords numerals) {s s' r : Bytes} (h : AgoText cfg s r) (hs : SameText s s') :
    ∃ r', AgoText cfg s' r' ∧ SameText r r' := by
  obtain ⟨r', g1, g2⟩ := same_afterWord h.1 hs
  refine ⟨r', ⟨g1, h.2.imp ?_ (starts_iff (cf_keywordEnd hc) g2).1⟩, g2⟩
  rintro rfl
  exact same_nil g2

theorem same_agoPart (hc : IgnoresCase cfg units keywords numerals) {s s' r : Bytes} {m m'} (h : AgoPart cfg s m m' r)
    (hs : SameText s s') : ∃ r', AgoPart cfg s' m m' r' ∧ SameText r r' := by
  cases h with
  | absent h1 => exact ⟨s', .absent (fun ha g => h1 ha ((starts_iff (cf_inner hc) hs).2 g)), hs⟩
  | other h1 h2 h3 h4 h5 =>
    obtain ⟨ds', r', g1, g2, g3⟩ := same_split (cf_inner hc) h2 hs
    refine ⟨s', .other h1 g1 (same_ne g2 h3) (same_ne g3 h4) ?_, hs⟩
    rintro ⟨rest, hr⟩
    obtain ⟨rest', hr', -⟩ := same_agoText hc hr (same_symm g3)
    exact h5 ⟨rest', hr'⟩
  | ago h1 h2 h3 h4 =>
    obtain ⟨ds', r', g1, g2, g3⟩ := same_split (cf_inner hc) h2 hs
    obtain ⟨t, k1, k2⟩ := same_agoText hc h4 g3
    exact ⟨t, .ago h1 g1 (same_ne g2 h3) k1, k2⟩

theorem same_unitMulti (hc : IgnoresCase cfg units keywords numerals) {s s' r : Bytes} {u} (h : UnitMulti cfg units s u r)
    (hs : SameText s s') : ∃ r', UnitMulti cfg units s' u r' ∧ SameText r r' := by
  cases h with
  | mk h1 h2 h3 =>
    obtain ⟨a, g1, g2⟩ := same_wordIn (cf_unitEnd hc) hc.unit h1 hs
    obtain ⟨b, k1, k2⟩ := same_agoPart hc h2 g2
    obtain ⟨c, q1, q2⟩ := same_connection hc h3 k2
    exact ⟨c, .mk g1 k1 q1, q2⟩

theorem same_end {r r' : Bytes} {p : UInt8 → Prop} (hp : CaseFree p) (hs : SameText r r') (h : r = [] ∨ StartsWith p r) :
    r' = [] ∨ StartsWith p r' := h.imp (by rintro rfl; exact same_nil hs) (starts_iff hp hs).1

theorem same_multiText (hc : IgnoresCase cfg units keywords numerals) {s s' r : Bytes} {item : Item}
    (h : MultiText cfg units keywords numerals s item r) (hs : SameText s s') :
    ∃ r', MultiText cfg units keywords numerals s' item r' ∧ SameText r r' := by
  have noWord : ∀ {stop : UInt8 → Prop} {table : TimeUnitsLike}, CaseFree stop →
      (∀ w w', SameText w w' → table.get w = table.get w') → ∀ {t t' : Bytes}, SameText t t' →
      (¬ ∃ u r, WordIn stop table t u r) → ¬ ∃ u r, WordIn stop table t' u r := by
    rintro stop table hp ht t t' hs hn ⟨u, r, h⟩
    obtain ⟨r', h', -⟩ := same_wordIn hp ht h (same_symm hs)
    exact hn ⟨u, r', h'⟩
  cases h with
  | numberEnd h1 =>
    obtain ⟨r', g1, g2⟩ := same_number h1 hs
    obtain rfl := same_nil g2
    exact ⟨[], .numberEnd g1, rfl⟩
  | numberUnit h1 h2 h3 h4 =>
    obtain ⟨a, g1, g2⟩ := same_number h1 hs
    obtain ⟨b, k1, k2⟩ := same_afterDelims (cf_inner hc) h2 g2
    obtain ⟨c, q1, q2⟩ := same_unitMulti hc h4 k2
    exact ⟨c, .numberUnit g1 k1 h3 q1, q2⟩
  | number h1 h2 h3 h4 h5 =>
    obtain ⟨a, g1, g2⟩ := same_number h1 hs
    obtain ⟨b, k1, k2⟩ := same_afterDelims (cf_inner hc) h2 g2
    obtain ⟨c, q1, q2⟩ := same_connection hc h5 k2
    exact ⟨c, .number g1 k1 (same_ne k2 h3) (fun he => noWord (cf_unitEnd hc) hc.unit k2 (h4 he)) q1, q2⟩
  | inf h1 h2 h3 h4 =>
    obtain ⟨a, g1, g2⟩ := same_afterWord h2 hs
    obtain ⟨c, q1, q2⟩ := same_connection hc h4 g2
    exact ⟨c, .inf h1 g1 (same_end (cf_outer hc) g2 h3) q1, q2⟩
  | infinity h1 h2 h3 h4 h5 h6 =>
    obtain ⟨a, g1, g2⟩ := same_afterWord h2 hs
    obtain ⟨b, k1, k2⟩ := same_afterWord h4 g2
    obtain ⟨c, q1, q2⟩ := same_connection hc h6 k2
    exact ⟨c, .infinity h1 g1 (fun g => h3 ((starts_iff (cf_outer hc) g2).2 g)) k1 (same_end (cf_outer hc) k2 h5) q1, q2⟩
  | keyword h1 h2 h3 h4 =>
    obtain ⟨a, g1, g2⟩ := same_wordIn (cf_keywordEnd hc) (hc.keyword _ h2) h3 hs
    obtain ⟨c, q1, q2⟩ := same_connection hc h4 g2
    exact ⟨c, .keyword (same_wordStart h1 hs) h2 g1 q1, q2⟩
  | unit h1 h2 h3 h4 =>
    obtain ⟨c, q1, q2⟩ := same_unitMulti hc h4 hs
    exact ⟨c, .unit (same_wordStart h1 hs) (fun k hk => noWord (cf_keywordEnd hc) (hc.keyword _ hk) hs (h2 k hk)) h3 q1, q2⟩
  | numeral h1 h2 h3 h4 h5 h6 h7 h8 h9 h10 =>
    obtain ⟨w', r', g1, g2, g3⟩ := same_split (caseFree_not (cf_inner hc)) h5 hs
    obtain ⟨ds', t, k1, k2, k3⟩ := same_split (cf_inner hc) h8 g3
    obtain ⟨c, q1, q2⟩ := same_unitMulti hc h10 k3
    exact ⟨c, .numeral (same_wordStart h1 hs) (fun k hk => noWord (cf_keywordEnd hc) (hc.keyword _ hk) hs (h2 k hk))
      (fun ho => noWord (cf_unitEnd hc) hc.unit hs (h3 ho)) h4 g1 (same_ne g2 h6)
      (by rw [← hc.numeral _ h4 _ _ g2]; exact h7) k1 (same_ne k3 h9) q1, q2⟩

theorem same_durations (hc : IgnoresCase cfg units keywords numerals) {s s' : Bytes} {l : List (Bool × Item)}
    (h : Durations cfg units keywords numerals s l) (hs : SameText s s') : Durations cfg units keywords numerals s' l := by
  induction h generalizing s' with
  | last h1 h2 =>
    obtain ⟨a, g1, g2⟩ := same_signPart hc h1 hs
    obtain ⟨b, k1, k2⟩ := same_multiText hc h2 g2
    obtain rfl := same_nil k2
    exact .last g1 k1
  | more h1 h2 h3 h4 ih =>
    obtain ⟨a, g1, g2⟩ := same_signPart hc h1 hs
    obtain ⟨b, k1, k2⟩ := same_multiText hc h2 g2
    exact .more g1 k1 (same_ne k2 h3) (ih k2)

theorem same_denotesMultiple (hc : IgnoresCase cfg units keywords numerals) {s s' : Bytes} {ds : List Duration}
    (h : DenotesMultiple cfg units keywords numerals s ds) (hs : SameText s s') : DenotesMultiple cfg units keywords numerals s' ds := by
  obtain ⟨items, h1, h2⟩ := h
  exact ⟨items, same_durations hc h1 hs, h2⟩

end Fundu.Case
