import Verif.Proofs.OptionsMultiple
import Verif.Spec.Concat
/-!
# Texts written one after the other
-/
namespace Fundu.Props.Concat
open Fundu Fundu.Spec Fundu.Gnu Fundu.Props

variable {cfg : Config} {units : TimeUnitsLike} {keywords : Option TimeUnitsLike} {numerals : Option NumbersLike}

/-- What is known about `X`, the text from the end of the first text on, `t` is the second text -/
structure Junction (cfg : Config) (units : TimeUnitsLike) (X t : Bytes) : Prop where
  start : StartsWith (cfg.outerDelimiter · = true) X
  connection : Connection cfg X t
  unit : ∀ r, AfterDelims cfg.allowTimeUnitDelimiter cfg.innerDelimiter X r → r ≠ [] ∧
    (units.isEmpty = false → ¬ ∃ u t, WordIn (UnitEnd cfg) units r u t) ∧ Connection cfg r t
  ago : cfg.allowAgo = true → ∀ ds r, Split (cfg.innerDelimiter · = true) X ds r → r ≠ [] ∧ ¬ ∃ rest, AgoText cfg r rest
  ne : t ≠ []

/-- where the rest `r` of the first text continues -/
def out (X t r : Bytes) : Bytes := if r = [] then t else r ++ X

variable {X t : Bytes}

theorem out_nil : out X t [] = t := rfl
theorem out_ne {r : Bytes} (h : r ≠ []) : out X t r = r ++ X := if_neg h

theorem startsWith_append {p : UInt8 → Prop} {s X : Bytes} (h : s ≠ []) : StartsWith p (s ++ X) ↔ StartsWith p s := by
  cases s with
  | nil => exact absurd rfl h
  | cons b l => rw [List.cons_append, startsWith_cons, startsWith_cons]

theorem not_startsWith_append {p : UInt8 → Prop} {s X : Bytes} (h : ¬ StartsWith p s) (hX : ¬ StartsWith p X) :
    ¬ StartsWith p (s ++ X) := by
  by_cases hs : s = []
  · subst hs; exact hX
  · rwa [startsWith_append hs]

theorem split_append {p : UInt8 → Prop} {s w r X : Bytes} (h : Split p s w r) (hX : r ≠ [] ∨ ¬ StartsWith p X) :
    Split p (s ++ X) w (r ++ X) := by
  refine ⟨by rw [h.1, List.append_assoc], h.2.1, ?_⟩
  rcases hX with hX | hX
  · rw [startsWith_append hX]; exact h.2.2
  · exact not_startsWith_append h.2.2 hX

theorem afterWord_append {w s r : Bytes} (h : AfterWord w s r) (X : Bytes) : AfterWord w (s ++ X) (r ++ X) := by
  obtain ⟨x, rfl, hx⟩ := h
  exact ⟨x, by rw [List.append_assoc], hx⟩

section
variable (ho : Orderly cfg units keywords numerals) (hp : PlainConjunctions cfg) (hX : StartsWith (cfg.outerDelimiter · = true) X)
include ho hX

theorem x_not {p : UInt8 → Prop} (hp : ∀ b, IsDelimiter cfg b → ¬ p b) : ¬ StartsWith p X := by
  obtain ⟨b, l, rfl, hb⟩ := hX
  rw [startsWith_cons]
  exact hp b (Or.inr hb)

theorem x_not_digit : ¬ StartsWith IsDigit X := x_not ho hX fun b h => (ho.delimiters b h).2.1
theorem x_not_point : ¬ StartsWith (· = 46) X := x_not ho hX fun b h => (ho.delimiters b h).2.2
theorem x_not_letter : ¬ StartsWith IsLetter X := x_not ho hX fun b h => (ho.delimiters b h).1
theorem x_not_e : ¬ StartsWith (fun b => b = 101 ∨ b = 69) X :=
  fun h => x_not_letter ho hX (startsWith_mono (by rintro b (rfl | rfl) <;> decide) h)

theorem number_append {s W F r : Bytes} {e : Int} (h : NumberText cfg s W F e r) : NumberText cfg (s ++ X) W F e (r ++ X) := by
  obtain ⟨r1, r2, h1, h2, h3⟩ := h
  refine ⟨r1 ++ X, r2 ++ X, split_append h1 (Or.inr (x_not_digit ho hX)), ?_, ?_⟩
  · cases h2 with
    | absent k1 k2 => exact .absent k1 (not_startsWith_append k2 (x_not_point ho hX))
    | present k1 k2 k3 => exact .present k1 (split_append k2 (Or.inr (x_not_digit ho hX))) k3
  · cases h3 with
    | absent k => exact .absent (not_startsWith_append k (x_not_e ho hX))
    | present k1 k2 k3 k4 k5 k6 =>
      refine .present k1 k2 ?_ (split_append k4 (Or.inr (x_not_digit ho hX))) k5 k6
      cases k3 with
      | absent k =>
        refine .absent ?_
        rename_i r0 _
        show ¬ StartsWith _ (r0 ++ X)
        rw [startsWith_append]
        · exact k
        · intro h0
          subst h0
          have := k4.1
          exact k5 (List.append_eq_nil_iff.1 this.symm).1
      | plus => exact .plus
      | minus => exact .minus

omit ho in
theorem wordIn_append {stop : UInt8 → Prop} (hst : ∀ b, cfg.outerDelimiter b = true → stop b) {tab : TimeUnitsLike} {s r : Bytes} {u}
    (h : WordIn stop tab s u r) : WordIn stop tab (s ++ X) u (r ++ X) := by
  obtain ⟨w, h1, h2, h3⟩ := h
  refine ⟨w, split_append h1 (Or.inr ?_), h2, h3⟩
  obtain ⟨b, l, rfl, hb⟩ := hX
  rw [startsWith_cons]
  exact fun k => k (hst b hb)

omit ho in
theorem wordIn_of_append {stop : UInt8 → Prop} (hst : ∀ b, cfg.outerDelimiter b = true → stop b) {tab : TimeUnitsLike} {s r' : Bytes} {u}
    (h : WordIn stop tab (s ++ X) u r') : ∃ r, WordIn stop tab s u r := by
  obtain ⟨w, h1, h2, h3⟩ := h
  obtain ⟨w', r, h'⟩ := split_exists (¬ stop ·) s
  have := split_append h' (X := X) (Or.inr (by
    obtain ⟨b, l, rfl, hb⟩ := hX
    rw [startsWith_cons]
    exact fun k => k (hst b hb)))
  obtain ⟨rfl, -⟩ := split_unique this h1
  exact ⟨r, w', h', h2, h3⟩

theorem wordStart_append {s : Bytes} (h : WordStart cfg s) : WordStart cfg (s ++ X) := by
  obtain ⟨h1, h2, h3, h4⟩ := h
  refine ⟨by simp [h1], by rwa [startsWith_append h1], by rwa [startsWith_append h1], fun hd => ?_⟩
  rintro ⟨r, hr⟩
  obtain ⟨t', ht, -⟩ := afterWord_of_append inf_letters (x_not_letter ho hX) hr
  exact h4 hd ⟨t', ht⟩

omit ho hX in
theorem afterDelims_append {a : Bool} {d : Delimiter} {s r : Bytes} (h : AfterDelims a d s r) (hr : r ≠ []) :
    AfterDelims a d (s ++ X) (r ++ X) := by
  cases a with
  | false =>
    have : r = s := h
    subst this; rfl
  | true =>
    obtain ⟨ds, h⟩ : ∃ ds, Split (d · = true) s ds r := h
    exact ⟨ds, split_append h (Or.inl hr)⟩

omit ho hX in
theorem sign_append {s r : Bytes} {neg : Bool} (h : SignPart cfg s neg r) : SignPart cfg (s ++ X) neg (r ++ X) := by
  cases h with
  | absent h1 h2 => exact .absent (by simp [h1]) (by rwa [startsWith_append h1])
  | plus h1 h2 => exact .plus (afterDelims_append h1 h2) (by simp [h2])
  | minus h1 h2 => exact .minus (afterDelims_append h1 h2) (by simp [h2])

omit ho hX in
theorem sameText_mem {x w : Bytes} (h : SameText x w) {b : UInt8} (hb : b ∈ x) (hl : ¬ IsLetter b) : b ∈ w := by
  have hm : lower b ∈ w.map lower := by
    have : x.map lower = w.map lower := h
    rw [← this]
    exact List.mem_map_of_mem hb
  obtain ⟨c, hc, he⟩ := List.mem_map.1 hm
  have key : ∀ n < 256, ∀ m < 256, ¬ IsLetter (UInt8.ofNat n) → lower (UInt8.ofNat m) = lower (UInt8.ofNat n) →
      m = n := by decide +kernel
  have := key b.toNat b.toNat_lt c.toNat c.toNat_lt
  rw [UInt8.ofNat_toNat, UInt8.ofNat_toNat] at this
  have := this hl he
  have : c = b := UInt8.toNat_inj.1 this
  rwa [this] at hc

include hp in
theorem conjunction_of_append {w r r' : Bytes} (hw : w ∈ cfg.conjunctions.getD []) (h : AfterWord w (r ++ X) r') :
    ∃ r', AfterWord w r r' := by
  obtain ⟨x, hx, hs⟩ := h
  rcases List.append_eq_append_iff.1 hx with ⟨a, ha, hb⟩ | ⟨a, ha, hb⟩
  · cases a with
    | nil =>
      rw [List.append_nil] at ha
      exact ⟨[], r, by simp, by rwa [← ha]⟩
    | cons c a =>
      exfalso
      obtain ⟨b, l, rfl, hb'⟩ := hX
      obtain rfl : b = c := by rw [List.cons_append] at hb; exact (List.cons.inj hb).1
      exact hp w hw b (sameText_mem hs (by rw [ha]; simp) (ho.delimiters b (Or.inr hb')).1) (Or.inr hb')
  · exact ⟨a, x, ha, hs⟩

include hp in
theorem connection_append (hj : Connection cfg X t) (ht : t ≠ []) {s r : Bytes} (h : Connection cfg s r) :
    Connection cfg (s ++ X) (out X t r) := by
  cases h with
  | absent k =>
    by_cases hs : s = []
    · subst hs; exact hj
    · rw [out_ne hs]
      exact .absent (by rwa [startsWith_append hs])
  | delims k1 k2 k3 k4 =>
    rw [out_ne k3]
    refine .delims (split_append k1 (Or.inl k3)) k2 (by simp [k3]) ?_
    rintro w hw ⟨r', h⟩
    exact k4 w hw (conjunction_of_append ho hp hX hw h)
  | conjunction k1 k2 k3 k4 k5 k6 k7 k8 =>
    rename_i ds r0 bef w aft r1 ds'
    rw [out_ne k7]
    have h1 : r1 ≠ [] := by
      rintro rfl
      have := k6.1
      exact k7 (List.append_eq_nil_iff.1 this.symm).2
    have h0 : r0 ≠ [] := by
      rintro rfl
      obtain ⟨x, hx, -⟩ := k5
      exact h1 (List.append_eq_nil_iff.1 hx.symm).2
    refine .conjunction (split_append k1 (Or.inl h0)) k2 k3 ?_ (afterWord_append k5 X) (split_append k6 (Or.inl k7)) (by simp [k7]) ?_
    · rintro v hv ⟨r', h⟩
      exact k4 v hv (conjunction_of_append ho hp hX (by rw [k3]; exact List.mem_append_left _ hv) h)
    · intro h; rw [startsWith_append k7]; exact k8 h

theorem agoText_of_append {s r' : Bytes} (h : AgoText cfg (s ++ X) r') : ∃ r, AgoText cfg s r := by
  obtain ⟨h1, h2⟩ := h
  obtain ⟨t', ht, rfl⟩ := afterWord_of_append ago_letters (x_not_letter ho hX) h1
  refine ⟨t', ht, ?_⟩
  by_cases h0 : t' = []
  · exact Or.inl h0
  · right
    rcases h2 with h2 | h2
    · exact absurd (List.append_eq_nil_iff.1 h2).1 h0
    · rwa [startsWith_append h0] at h2

omit ho in
theorem agoText_append {s r : Bytes} (h : AgoText cfg s r) : AgoText cfg (s ++ X) (r ++ X) := by
  refine ⟨afterWord_append h.1 X, Or.inr ?_⟩
  by_cases h0 : r = []
  · subst h0
    exact startsWith_mono (fun b hb => Or.inl hb) hX
  · rw [startsWith_append h0]
    exact h.2.resolve_left h0

theorem ago_append (hj : Junction cfg units X t) {s r : Bytes} {m m' : Multiplier} (h : AgoPart cfg s m m' r) :
    AgoPart cfg (s ++ X) m m' (r ++ X) := by
  cases h with
  | absent k =>
    by_cases hs : s = []
    · subst hs
      show AgoPart cfg X m m X
      by_cases hi : cfg.allowAgo = true ∧ StartsWith (cfg.innerDelimiter · = true) X
      · obtain ⟨ds, r, hsp⟩ := split_exists (cfg.innerDelimiter · = true) X
        obtain ⟨h1, h2⟩ := hj.ago hi.1 ds r hsp
        refine .other hi.1 hsp ?_ h1 h2
        rintro rfl
        have := hsp.1
        rw [List.nil_append] at this
        rw [this] at hi
        exact hsp.2.2 hi.2
      · exact .absent fun h1 h2 => hi ⟨h1, h2⟩
    · exact .absent (fun h => by rw [startsWith_append hs]; exact k h)
  | other k1 k2 k3 k4 k5 =>
    refine .other k1 (split_append k2 (Or.inl k4)) k3 (by simp [k4]) ?_
    rintro ⟨r', h⟩
    exact k5 (agoText_of_append ho hX h)
  | ago k1 k2 k3 k4 =>
    refine .ago k1 (split_append k2 (Or.inl ?_)) k3 (agoText_append hX k4)
    rintro rfl
    obtain ⟨⟨x, hx, hs⟩, -⟩ := k4
    have : x = [] := (List.append_eq_nil_iff.1 hx.symm).1
    rw [this] at hs
    exact absurd hs (by decide)

include hp in
theorem unitMulti_append (hj : Junction cfg units X t) {s r : Bytes} {u} (h : UnitMulti cfg units s u r) :
    UnitMulti cfg units (s ++ X) u (out X t r) := by
  obtain ⟨h1, h2, h3⟩ := h
  exact ⟨wordIn_append hX (fun b hb => Or.inr (Or.inl hb)) h1, ago_append ho hX hj h2,
    connection_append ho hp hX hj.connection hj.ne h3⟩

include hp in
/-- one duration, continued -/
theorem multi_append (hj : Junction cfg units X t) {s r : Bytes} {item : Item} (h : MultiText cfg units keywords numerals s item r) :
    MultiText cfg units keywords numerals (s ++ X) item (out X t r) := by
  have hcon := fun {s r : Bytes} (h : Connection cfg s r) => connection_append ho hp hX hj.connection hj.ne h
  have hkey : ∀ {s : Bytes}, (∀ k, keywords = some k → ¬ ∃ u r, WordIn (KeywordEnd cfg) k s u r) →
      ∀ k, keywords = some k → ¬ ∃ u r, WordIn (KeywordEnd cfg) k (s ++ X) u r := by
    rintro s h k hk ⟨u, r, hw⟩
    obtain ⟨r, hw⟩ := wordIn_of_append hX (fun b hb => Or.inl hb) hw
    exact h k hk ⟨u, r, hw⟩
  have hinf : ∀ {r : Bytes}, r = [] ∨ StartsWith (cfg.outerDelimiter · = true) r →
      r ++ X = [] ∨ StartsWith (cfg.outerDelimiter · = true) (r ++ X) := by
    intro r h
    right
    by_cases h0 : r = []
    · subst h0; exact hX
    · rw [startsWith_append h0]; exact h.resolve_left h0
  cases h with
  | numberEnd k =>
    have hn := number_append ho hX k
    rw [out_nil]
    rw [List.nil_append] at hn
    obtain ⟨ds, r, hsp⟩ := split_exists (cfg.innerDelimiter · = true) X
    have hd : ∃ r, AfterDelims cfg.allowTimeUnitDelimiter cfg.innerDelimiter X r := by
      unfold AfterDelims
      cases cfg.allowTimeUnitDelimiter with
      | true => exact ⟨r, ds, hsp⟩
      | false => exact ⟨X, rfl⟩
    obtain ⟨r, hr⟩ := hd
    obtain ⟨h1, h2, h3⟩ := hj.unit r hr
    exact .number hn hr h1 h2 h3
  | numberUnit k1 k2 k3 k4 =>
    refine .numberUnit (number_append ho hX k1) (afterDelims_append k2 ?_) k3 (unitMulti_append ho hp hX hj k4)
    rintro rfl
    obtain ⟨⟨w, h1, h2, -⟩, -, -⟩ := k4
    exact h2 (List.append_eq_nil_iff.1 h1.1.symm).1
  | number k1 k2 k3 k4 k5 =>
    refine .number (number_append ho hX k1) (afterDelims_append k2 k3) (by simp [k3]) ?_ (hcon k5)
    rintro he ⟨u, t', hw⟩
    obtain ⟨r, hw⟩ := wordIn_of_append hX (fun b hb => Or.inr (Or.inl hb)) hw
    exact k4 he ⟨u, r, hw⟩
  | inf k1 k2 k3 k4 => exact .inf k1 (afterWord_append k2 X) (hinf k3) (hcon k4)
  | infinity k1 k2 k3 k4 k5 k6 =>
    refine .infinity k1 (afterWord_append k2 X) ?_ (afterWord_append k4 X) (hinf k5) (hcon k6)
    rw [startsWith_append]
    · exact k3
    · rintro rfl
      obtain ⟨x, hx, hs⟩ := k4
      have : x = [] := (List.append_eq_nil_iff.1 hx.symm).1
      rw [this] at hs
      exact absurd hs (by decide)
  | keyword k1 k2 k3 k4 =>
    exact .keyword (wordStart_append ho hX k1) k2 (wordIn_append hX (fun b hb => Or.inl hb) k3) (hcon k4)
  | unit k1 k2 k3 k4 => exact .unit (wordStart_append ho hX k1) (hkey k2) k3 (unitMulti_append ho hp hX hj k4)
  | numeral k1 k2 k3 k4 k5 k6 k7 k8 k9 k10 =>
    refine .numeral (wordStart_append ho hX k1) (hkey k2) ?_ k4 (split_append k5 (Or.inl ?_)) k6 k7 (split_append k8 (Or.inl k9))
      (by simp [k9]) (unitMulti_append ho hp hX hj k10)
    · rintro hopt ⟨u, r, hw⟩
      obtain ⟨r, hw⟩ := wordIn_of_append hX (fun b hb => Or.inr (Or.inl hb)) hw
      exact k3 hopt ⟨u, r, hw⟩
    · rintro rfl
      exact k9 (List.append_eq_nil_iff.1 k8.1.symm).2

end

/-- sequences of durations, one after the other -/
theorem durations_append (ho : Orderly cfg units keywords numerals) (hp : PlainConjunctions cfg) (hj : Junction cfg units X t)
    {s : Bytes} {l l' : List (Bool × Item)} (h : Durations cfg units keywords numerals s l)
    (h' : Durations cfg units keywords numerals t l') : Durations cfg units keywords numerals (s ++ X) (l ++ l') := by
  induction h with
  | last h1 h2 =>
    have := multi_append ho hp hj.start hj h2
    exact .more (sign_append h1) this hj.ne h'
  | more h1 h2 h3 h4 ih =>
    have := multi_append ho hp hj.start hj h2
    rw [out_ne h3] at this
    exact .more (sign_append h1) this (by simp [h3]) ih

theorem durations_ne {s : Bytes} {l : List (Bool × Item)} (h : Durations cfg units keywords numerals s l) : s ≠ [] := by
  have key : ∀ {s r : Bytes} {neg : Bool}, SignPart cfg s neg r → s ≠ [] := by
    intro s r neg h
    cases h with
    | absent h1 _ => exact h1
    | plus => simp
    | minus => simp
  cases h with
  | last h _ => exact key h
  | more h _ _ _ => exact key h

/-- delimiters between two texts -/
theorem junction_delims {ds t : Bytes} (hds : ∀ b ∈ ds, cfg.outerDelimiter b = true) (hne : ds ≠ [])
    (ho : Orderly cfg units keywords numerals) (hf : CanFollow cfg units t) (ht : t ≠ []) : Junction cfg units (ds ++ t) t := by
  have hout : ¬ StartsWith (cfg.outerDelimiter · = true) t := fun h => hf.delimiter (startsWith_mono (fun _ => Or.inr) h)
  have hconn : ∀ ds : Bytes, (∀ b ∈ ds, cfg.outerDelimiter b = true) → Connection cfg (ds ++ t) t := by
    intro ds hds
    by_cases h0 : ds = []
    · subst h0; exact .absent hout
    · exact .delims (split_of hds hout) h0 ht hf.conjunction
  -- what remains after inner delimiters
  have hinner : ∀ a r, Split (cfg.innerDelimiter · = true) (ds ++ t) a r → ∃ d2, (∀ b ∈ d2, cfg.outerDelimiter b = true) ∧ r = d2 ++ t := by
    rintro a r ⟨h1, h2, h3⟩
    rcases List.append_eq_append_iff.1 h1 with ⟨c, hc1, hc2⟩ | ⟨c, hc1, hc2⟩
    · -- a = ds ++ c, t = c ++ r
      cases c with
      | nil => exact ⟨[], by simp, by simpa using hc2.symm⟩
      | cons b c =>
        exact absurd ⟨b, c ++ r, by rw [hc2]; rfl, Or.inl (h2 b (by rw [hc1]; simp))⟩ hf.delimiter
    · exact ⟨c, fun b hb => hds b (by rw [hc1]; simp [hb]), hc2⟩
  have hword : ∀ d2 : Bytes, (∀ b ∈ d2, cfg.outerDelimiter b = true) → ¬ ∃ u r, WordIn (UnitEnd cfg) units (d2 ++ t) u r := by
    intro d2 h2
    cases d2 with
    | nil => exact hf.unit
    | cons b d2 =>
      rintro ⟨u, r, w, ⟨h3, h4, -⟩, h5, -⟩
      cases w with
      | nil => exact h5 rfl
      | cons c w =>
        obtain rfl : b = c := by rw [List.cons_append, List.cons_append] at h3; exact (List.cons.inj h3).1
        exact h4 b (by simp) (Or.inr (Or.inl (h2 b (by simp))))
  refine ⟨?_, hconn ds hds, ?_, ?_, ht⟩
  · cases ds with
    | nil => exact absurd rfl hne
    | cons b l => exact ⟨b, l ++ t, rfl, hds b (by simp)⟩
  · intro r hr
    have : ∃ d2, (∀ b ∈ d2, cfg.outerDelimiter b = true) ∧ r = d2 ++ t := by
      unfold AfterDelims at hr
      cases ha : cfg.allowTimeUnitDelimiter with
      | true => rw [ha, if_pos rfl] at hr; obtain ⟨a, ha⟩ := hr; exact hinner a r ha
      | false => rw [ha, if_neg (by decide)] at hr; exact ⟨ds, hds, hr⟩
    obtain ⟨d2, h2, rfl⟩ := this
    exact ⟨by simp [ht], fun _ => hword d2 h2, hconn d2 h2⟩
  · intro _ a r hr
    obtain ⟨d2, h2, rfl⟩ := hinner a r hr
    refine ⟨by simp [ht], ?_⟩
    cases d2 with
    | nil => exact hf.ago
    | cons b d2 =>
      rintro ⟨r, ⟨x, hx, hs⟩, -⟩
      cases x with
      | nil => exact absurd hs (by decide)
      | cons c x =>
        obtain rfl : b = c := by rw [List.cons_append, List.cons_append] at hx; exact (List.cons.inj hx).1
        exact (ho.delimiters b (Or.inr (h2 b (by simp)))).1 (sameText_letters hs ago_letters b (by simp))

/-- delimiters and a conjunction between two texts -/
theorem junction_conjunction {ds x ds' t w : Bytes} {bef aft : List Bytes} (hds : ∀ b ∈ ds, cfg.outerDelimiter b = true) (hne : ds ≠ [])
    (hw : cfg.conjunctions.getD [] = bef ++ w :: aft) (hx : SameText x w) (hxne : x ≠ []) (hp : PlainConjunctions cfg)
    (hbef : ∀ v ∈ bef, ¬ ∃ r, AfterWord v (x ++ (ds' ++ t)) r)
    (hds' : ∀ b ∈ ds', cfg.outerDelimiter b = true) (hnext : ds' = [] → StartsWith NextDuration t)
    (hu : cfg.allowTimeUnitDelimiter = false) (hago : cfg.allowAgo = true → ¬ ∃ r, AgoText cfg (x ++ (ds' ++ t)) r)
    (ho : Orderly cfg units keywords numerals) (hf : ¬ StartsWith (IsDelimiter cfg) t) (ht : t ≠ []) :
    Junction cfg units (ds ++ (x ++ (ds' ++ t))) t := by
  have hx' : ¬ StartsWith (IsDelimiter cfg) (x ++ (ds' ++ t)) := by
    cases x with
    | nil => exact absurd rfl hxne
    | cons b x =>
      rw [List.cons_append, startsWith_cons]
      intro hb
      exact hp w (by rw [hw]; simp) b (sameText_mem hx (by simp) (ho.delimiters b hb).1) hb
  have hstart : StartsWith (cfg.outerDelimiter · = true) (ds ++ (x ++ (ds' ++ t))) := by
    cases ds with
    | nil => exact absurd rfl hne
    | cons b l => exact ⟨b, l ++ _, rfl, hds b (by simp)⟩
  have hconn : Connection cfg (ds ++ (x ++ (ds' ++ t))) t :=
    .conjunction (split_of hds fun h => hx' (startsWith_mono (fun _ => Or.inr) h)) hne hw hbef ⟨x, rfl, hx⟩
      (split_of hds' fun h => hf (startsWith_mono (fun _ => Or.inr) h)) ht hnext
  refine ⟨hstart, hconn, ?_, ?_, ht⟩
  · intro r hr
    unfold AfterDelims at hr
    rw [hu, if_neg (by decide)] at hr
    subst hr
    refine ⟨by simp [hne], ?_, hconn⟩
    rintro - ⟨u, r, w, ⟨h3, h4, -⟩, h5, -⟩
    obtain ⟨b, l, e, hb⟩ := hstart
    rw [e] at h3
    cases w with
    | nil => exact h5 rfl
    | cons c w =>
      obtain rfl : b = c := by rw [List.cons_append] at h3; exact (List.cons.inj h3).1
      exact h4 b (by simp) (Or.inr (Or.inl hb))
  · intro ha a r hsp
    obtain ⟨h1, h2, h3⟩ := hsp
    rcases List.append_eq_append_iff.1 h1 with ⟨c, hc1, hc2⟩ | ⟨c, hc1, hc2⟩
    · cases c with
      | nil =>
        obtain rfl : x ++ (ds' ++ t) = r := by simpa using hc2
        exact ⟨by simp [ht], hago ha⟩
      | cons b c =>
        exact absurd ⟨b, c ++ r, by rw [hc2]; rfl, Or.inl (h2 b (by rw [hc1]; simp))⟩ hx'
    · subst hc2
      refine ⟨by simp [ht], ?_⟩
      cases c with
      | nil => exact hago ha
      | cons b c =>
        rintro ⟨r, ⟨y, hy, hs⟩, -⟩
        cases y with
        | nil => exact absurd hs (by decide)
        | cons c' y =>
          obtain rfl : b = c' := by rw [List.cons_append, List.cons_append] at hy; exact (List.cons.inj hy).1
          exact (ho.delimiters b (Or.inr (hds b (by rw [hc1]; simp)))).1 (sameText_letters hs ago_letters b (by simp))

/-- a text which starts with a digit, a sign or a point can follow any other -/
theorem canFollow_number {t : Bytes} (ho : Orderly cfg units keywords numerals) (h : StartsWith (fun b => NextDuration b ∨ b = 46) t)
    (hd : ¬ StartsWith (IsDelimiter cfg) t) (hc : ∀ w ∈ cfg.conjunctions.getD [], ¬ ∃ r, AfterWord w t r) :
    CanFollow cfg units t := by
  obtain ⟨b, l, rfl, hb⟩ := h
  refine ⟨hd, hc, ?_, ?_⟩
  · rintro ⟨u, r, w, ⟨h3, h4, -⟩, h5, h6⟩
    cases w with
    | nil => exact h5 rfl
    | cons c w =>
      obtain rfl : b = c := by rw [List.cons_append] at h3; exact (List.cons.inj h3).1
      rcases hb with hb | rfl
      · exact h4 b (by simp) (Or.inr (Or.inr hb))
      · exact ho.point _ (Or.inl ⟨u, h6⟩) ⟨_, _, rfl, rfl⟩
  · rintro ⟨r, ⟨x, hx, hs⟩, -⟩
    cases x with
    | nil => exact absurd hs (by decide)
    | cons c x =>
      obtain rfl : b = c := by rw [List.cons_append] at hx; exact (List.cons.inj hx).1
      have := sameText_letters hs ago_letters b (by simp)
      rcases hb with (hb | rfl | rfl) | rfl
      · unfold IsLetter at this; unfold IsDigit at hb; omega
      all_goals revert this; decide

end Fundu.Props.Concat
