import Verif.Spec.Pieces
import Verif.Proofs.Renumbered
import Verif.Proofs.Negated
import Verif.Proofs.MistakesBody
import Verif.Proofs.Sentences
/-! # The durations of a text are single durations -/
namespace Fundu.Props.Pieces
open Fundu Fundu.Spec Fundu.Gnu Fundu.Props

variable {cfg : Config} {units : TimeUnitsLike} {keywords : Option TimeUnitsLike} {numerals : Option NumbersLike}

/-- the same settings for a single duration -/
def asSingle (cfg : Config) : Config := { cfg with allowMultiple := false }

/-- `Y` is empty or starts with the same byte as `X` -/
def Front (Y X : Bytes) : Prop := ∀ p : UInt8 → Prop, StartsWith p Y → StartsWith p X

theorem front_nil {X : Bytes} : Front [] X := fun _ h => absurd h not_startsWith_nil

theorem front_append {Y Z : Bytes} : Front Y (Y ++ Z) := by
  rintro p ⟨b, l, rfl, h⟩
  exact ⟨b, l ++ Z, rfl, h⟩

theorem Front.more {Y X : Bytes} (h : Front Y X) (a : Bytes) : Front (a ++ Y) (a ++ X) := by
  cases a with
  | nil => exact h
  | cons b a => rintro p ⟨c, l, e, hc⟩; cases e; exact ⟨_, _, rfl, hc⟩

theorem Front.split {p : UInt8 → Prop} {Y X a w b : Bytes} (h : Front Y X) (hs : Split p (a ++ X) w (b ++ X)) : Split p (a ++ Y) w (b ++ Y) := by
  obtain ⟨h1, h2, h3⟩ := hs
  rw [← List.append_assoc] at h1
  have : a = w ++ b := List.append_cancel_right h1
  subst this
  exact ⟨by rw [List.append_assoc], h2, fun g => h3 (h.more b p g)⟩

theorem Front.fraction {W F Y X a b : Bytes} (h : Front Y X) (hs : FractionPart cfg W (a ++ X) F (b ++ X)) :
    FractionPart (asSingle cfg) W (a ++ Y) F (b ++ Y) := by
  generalize e1 : a ++ X = s at hs
  generalize e2 : b ++ X = r at hs
  cases hs with
  | absent k1 k2 =>
    have : a = b := List.append_cancel_right (e1.trans e2.symm)
    subst this e1
    exact .absent k1 fun g => k2 (h.more a _ g)
  | @present r0 _ _ k1 k2 k3 =>
    subst e2
    have e3 : r0 = (F ++ b) ++ X := by rw [k2.1, List.append_assoc]
    subst e3
    have ex : a = 46 :: (F ++ b) := List.append_cancel_right (bs := X) (by rw [e1]; rfl)
    subst ex
    exact .present k1 (h.split k2) k3

theorem Front.exponent {Y X a b : Bytes} {e : Int} (h : Front Y X) (hs : ExponentPart cfg (a ++ X) e (b ++ X)) :
    ExponentPart (asSingle cfg) (a ++ Y) e (b ++ Y) := by
  generalize e1 : a ++ X = s at hs
  generalize e2 : b ++ X = r at hs
  cases hs with
  | absent k =>
    have : a = b := List.append_cancel_right (e1.trans e2.symm)
    subst this e1
    exact .absent fun g => k (h.more a _ g)
  | @present c r0 neg r' E rest k1 k2 k3 k4 k5 k6 =>
    subst e2
    obtain ⟨z, rfl⟩ : ∃ z, r' = z ++ X := ⟨E ++ b, by rw [k4.1, List.append_assoc]⟩
    have k4' := h.split k4
    cases k3 with
    | absent k =>
      have ex : a = c :: z := List.append_cancel_right (bs := X) (by rw [e1]; rfl)
      subst ex
      exact .present k1 k2 (.absent fun g => k (h.more z _ g)) k4' k5 k6
    | plus =>
      have ex : a = c :: 43 :: z := List.append_cancel_right (bs := X) (by rw [e1]; rfl)
      subst ex
      exact .present (neg := false) k1 k2 .plus k4' k5 k6
    | minus =>
      have ex : a = c :: 45 :: z := List.append_cancel_right (bs := X) (by rw [e1]; rfl)
      subst ex
      exact .present (neg := true) k1 k2 .minus k4' k5 k6

/-- a number remains a number if what follows it is replaced -/
theorem Front.number {s X Y W F : Bytes} {e : Int} (h : Front Y X) (hs : NumberText cfg s W F e X) :
    ∃ n, s = n ++ X ∧ n ≠ [] ∧ (∀ b ∈ n, b.toNat < 128) ∧ NumberText (asSingle cfg) (n ++ Y) W F e Y := by
  have hne : s ≠ [] := Renumbered.number_ne hs
  obtain ⟨r1, r2, h1, h2, h3⟩ := hs
  obtain ⟨b, rfl⟩ := Negated.exponent_suffix h3
  obtain ⟨a, ha⟩ := Negated.fraction_suffix h2
  obtain rfl : r1 = (a ++ b) ++ X := by rw [← ha, List.append_assoc]
  have e1 : s = (W ++ (a ++ b)) ++ X := by rw [h1.1]; simp only [List.append_assoc]
  subst e1
  have hn : NumberText (asSingle cfg) ((W ++ (a ++ b)) ++ Y) W F e Y :=
    ⟨(a ++ b) ++ Y, b ++ Y, h.split h1, h.fraction h2, h.exponent (b := []) h3⟩
  have hdig : ∀ {l : Bytes}, (∀ c ∈ l, IsDigit c) → ∀ c ∈ l, c.toNat < 128 := fun hl c hc => by
    have := (hl c hc).2; omega
  have hfrac : ∀ c ∈ a, c.toNat < 128 := by
    generalize e1 : (a ++ b) ++ X = s at h2
    generalize e2 : b ++ X = r at h2
    cases h2 with
    | absent =>
      subst e2
      rw [List.append_assoc] at e1
      have : a = [] := by
        have := congrArg List.length e1
        simp only [List.length_append] at this
        exact List.eq_nil_of_length_eq_zero (by omega)
      subst this
      intro c hc; cases hc
    | @present r0 _ _ k1 k2 k3 =>
      subst e2
      have : a = 46 :: F := List.append_cancel_right (bs := b ++ X) (by rw [← List.append_assoc, e1, k2.1]; rfl)
      subst this
      intro c hc
      rcases List.mem_cons.1 hc with rfl | hc
      · decide
      · exact hdig k2.2.1 c hc
  have hexp : ∀ c ∈ b, c.toNat < 128 := by
    generalize e1 : b ++ X = s at h3
    cases h3 with
    | absent =>
      have : b = [] := by
        have := congrArg List.length e1
        simp only [List.length_append] at this
        exact List.eq_nil_of_length_eq_zero (by omega)
      subst this
      intro c hc; cases hc
    | @present c r0 neg r' E rest k1 k2 k3 k4 k5 k6 =>
      have hE := hdig k4.2.1
      have hc0 : c.toNat < 128 := by rcases k1 with rfl | rfl <;> decide
      rw [k4.1] at k3
      generalize e2 : E ++ X = t at k3
      cases k3 with
      | absent =>
        subst e2
        have : b = c :: E := List.append_cancel_right (bs := X) (by rw [e1]; rfl)
        subst this
        intro d hd
        rcases List.mem_cons.1 hd with rfl | hd
        · exact hc0
        · exact hE d hd
      | plus =>
        subst e2
        have : b = c :: 43 :: E := List.append_cancel_right (bs := X) (by rw [e1]; rfl)
        subst this
        intro d hd
        rcases List.mem_cons.1 hd with rfl | hd
        · exact hc0
        rcases List.mem_cons.1 hd with rfl | hd
        · decide
        · exact hE d hd
      | minus =>
        subst e2
        have : b = c :: 45 :: E := List.append_cancel_right (bs := X) (by rw [e1]; rfl)
        subst this
        intro d hd
        rcases List.mem_cons.1 hd with rfl | hd
        · exact hc0
        rcases List.mem_cons.1 hd with rfl | hd
        · decide
        · exact hE d hd
  refine ⟨W ++ (a ++ b), rfl, ?_, ?_, hn⟩
  · intro h0
    have := Renumbered.number_ne (cfg := asSingle cfg) (n := (W ++ (a ++ b)) ++ []) (F := F) (W := W) (e := e) (r := [])
      ⟨(a ++ b) ++ [], b ++ [], front_nil.split h1, front_nil.fraction h2, front_nil.exponent (b := []) h3⟩
    rw [h0] at this
    exact this rfl
  · intro c hc
    rcases List.mem_append.1 hc with hc | hc
    · exact hdig h1.2.1 c hc
    · rcases List.mem_append.1 hc with hc | hc
      · exact hfrac c hc
      · exact hexp c hc

/-! ## What follows a duration -/

theorem connection {r rest : Bytes} (h : Connection cfg r rest) :
    ∃ sep, r = sep ++ rest ∧ Separator cfg sep ∧ (rest = [] → r = []) := by
  cases h with
  | absent k => exact ⟨[], rfl, .delims (by simp), fun h => h⟩
  | delims k1 k2 k3 k4 => exact ⟨_, k1.1, .delims fun b hb => Or.inr (k1.2.1 b hb), fun h => absurd h k3⟩
  | @conjunction ds r before w after r' ds' _ k1 k2 k3 k4 k5 k6 k7 k8 =>
    obtain ⟨x, rfl, hx⟩ := k5
    refine ⟨_, ?_, .conjunction (fun b hb => Or.inr (k1.2.1 b hb)) k2 (by rw [k3]; simp) hx fun b hb => Or.inr (k6.2.1 b hb),
      fun h => absurd h k7⟩
    rw [k1.1, k6.1]
    simp only [List.append_assoc]

/-- the front of `s` is `p`, which satisfies `P`, then there are a separator and `rest`; `p` is a text if `s` is -/
def Cut (cfg : Config) (P : Bytes → Prop) (s rest : Bytes) : Prop :=
  ∃ p sep, s = p ++ (sep ++ rest) ∧ p ≠ [] ∧ P p ∧ Separator cfg sep ∧ (rest = [] → sep = []) ∧
    ((∀ b ∈ p, b.toNat < 128) ∨ sep ++ rest = [] ∨ StartsWith (·.toNat < 128) (sep ++ rest))

/-- the same, and `p` ends at an ASCII byte or the end of the text -/
def CutWord (cfg : Config) (P : Bytes → Prop) (s rest : Bytes) : Prop :=
  ∃ p sep, s = p ++ (sep ++ rest) ∧ p ≠ [] ∧ P p ∧ Separator cfg sep ∧ (rest = [] → sep = []) ∧
    (sep ++ rest = [] ∨ StartsWith (·.toNat < 128) (sep ++ rest))

section
variable (hc : CfgText cfg)
include hc

theorem delimiter_ascii {b : UInt8} (h : IsDelimiter cfg b) : b.toNat < 128 := h.elim (hc.inner b) (hc.outer b)

omit hc in
theorem next_ascii {b : UInt8} (h : NextDuration b) : b.toNat < 128 := by
  rcases h with h | rfl | rfl
  · have := h.2; omega
  · decide
  · decide

theorem keywordEnd_ascii {b : UInt8} (h : KeywordEnd cfg b) : b.toNat < 128 := h.elim (hc.outer b) next_ascii

theorem unitEnd_ascii {b : UInt8} (h : UnitEnd cfg b) : b.toNat < 128 := by
  rcases h with ⟨-, h⟩ | h | h
  · exact hc.inner b h
  · exact hc.outer b h
  · exact next_ascii h

omit hc in
theorem split_end {stop : UInt8 → Prop} {s w r : Bytes} (h : Split (¬ stop ·) s w r) : r = [] ∨ StartsWith stop r := by
  cases r with
  | nil => exact Or.inl rfl
  | cons b r =>
    right
    refine ⟨b, r, rfl, ?_⟩
    by_contra hb
    exact h.2.2 ⟨b, r, rfl, hb⟩

variable (ho : Orderly cfg units keywords numerals)
include ho

/-- a time unit of several durations is one of a single duration -/
theorem unitMulti {s rest : Bytes} {u : TimeUnit × Multiplier} (h : UnitMulti cfg units s u rest) :
    CutWord cfg (fun p => UnitSingle (asSingle cfg) units p u [] ∧
      ((∃ w, units.get w = some u ∧ p = w) ∨ ∃ b ∈ p, IsDelimiter cfg b)) s rest := by
  cases h with
  | @mk u m m' r r' _ h1 h2 h3 =>
    obtain ⟨w, k1, k2, k3⟩ := h1
    have hid : IsIdentifier units keywords numerals w := Or.inl ⟨_, k3⟩
    have hplain := ho.plain w hid
    have hend : r = [] ∨ StartsWith (·.toNat < 128) r := (split_end k1).imp id (startsWith_mono fun b hb => unitEnd_ascii hc hb)
    have hno : ∀ {m2}, m2 = m → r' = r → CutWord cfg (fun p => UnitSingle (asSingle cfg) units p (u, m2) [] ∧
      ((∃ w, units.get w = some (u, m2) ∧ p = w) ∨ ∃ b ∈ p, IsDelimiter cfg b)) s rest := by
      rintro _ rfl rfl
      obtain ⟨sep, e1, e2, e3⟩ := connection h3
      subst e1
      refine ⟨w, sep, k1.1, k2, ⟨?_, Or.inl ⟨w, k3, rfl⟩⟩, e2, fun g => (List.append_eq_nil_iff.1 (e3 g)).1, hend⟩
      cases ha : cfg.allowAgo with
      | false => exact .whole ha k3
      | true =>
        refine .plain ha ⟨by rw [List.append_nil], fun b hb g => (hplain b hb).1 (Or.inl g), not_startsWith_nil⟩ k2 k3
    cases h2 with
    | absent _ => exact hno rfl rfl
    | other _ _ _ _ _ => exact hno rfl rfl
    | @ago ds r1 _ g1 g2 g3 g4 =>
      obtain ⟨⟨x, rfl, hx⟩, g5⟩ := g4
      obtain ⟨sep, e1, e2, e3⟩ := connection h3
      have hxl : ∀ b ∈ x, IsLetter b := sameText_letters hx (by decide)
      have hxd : ¬ StartsWith (cfg.innerDelimiter · = true) x := by
        rintro ⟨b, l, rfl, hb⟩
        exact (ho.delimiters b (Or.inl hb)).1 (hxl b (by simp))
      obtain ⟨c, ds', rfl⟩ := List.exists_cons_of_ne_nil g3
      have hcd : cfg.innerDelimiter c = true := g2.2.1 c (by simp)
      refine ⟨w ++ (c :: ds' ++ x), sep, ?_, by simp [k2], ⟨?_, Or.inr ⟨c, by simp, Or.inl hcd⟩⟩, e2, ?_, ?_⟩
      · rw [k1.1, g2.1, ← e1]
        simp only [List.append_assoc]
      · refine .ago (w := w) (r := c :: ds' ++ x) (ds := c :: ds') (r' := x) g1 ⟨rfl, fun b hb g => (hplain b hb).1 (Or.inl g), ?_⟩ k2 k3
          ⟨rfl, g2.2.1, hxd⟩ ⟨x, by rw [List.append_nil], hx⟩
        rintro ⟨b, l, e, hb⟩
        cases e
        exact hb hcd
      · intro g
        have := e3 g
        rw [e1] at this
        exact (List.append_eq_nil_iff.1 this).1
      · rw [← e1]
        exact g5.imp id (startsWith_mono fun b hb => keywordEnd_ascii hc hb)

omit hc ho in
theorem wordStart {p X : Bytes} (hp : p ≠ []) (h : WordStart cfg (p ++ X)) : WordStart (asSingle cfg) p := by
  obtain ⟨-, h2, h3, h4⟩ := h
  refine ⟨hp, fun g => h2 (front_append _ g), fun g => h3 (front_append _ g), fun hd => ?_⟩
  rintro ⟨r, hr⟩
  exact h4 hd ⟨_, Concat.afterWord_append hr X⟩

omit hc ho in
theorem afterDelims {a : Bool} {d : Delimiter} {r r' : Bytes} (h : AfterDelims a d r r') :
    ∃ gap, r = gap ++ r' ∧ (∀ b ∈ gap, d b = true) ∧ (∀ Y, Front Y r' → AfterDelims a d (gap ++ Y) Y) := by
  cases a with
  | false =>
    have : r' = r := h
    subst this
    exact ⟨[], rfl, by simp, fun Y _ => rfl⟩
  | true =>
    obtain ⟨ds, h1, h2, h3⟩ := h
    exact ⟨ds, h1, h2, fun Y hY => ⟨ds, rfl, h2, fun g => h3 (hY _ g)⟩⟩

omit hc ho in
theorem unitSingle_ne {s r : Bytes} {u : TimeUnit × Multiplier} (ho : Orderly cfg units keywords numerals) (h : UnitSingle (asSingle cfg) units s u r) :
    s ≠ [] := by
  cases h with
  | whole _ k => exact ho.nonempty _ (Or.inl ⟨_, k⟩)
  | plain _ _ k _ => exact k
  | ago _ k1 k2 _ _ _ => rw [k1.1]; simp [k2]

omit hc ho in
theorem number_alone {s W F r r' rest : Bytes} {e : Int} (h1 : NumberText cfg s W F e r)
    (h2 : AfterDelims cfg.allowTimeUnitDelimiter cfg.innerDelimiter r r') (h3 : r' ≠ []) (h5 : Connection cfg r' rest) :
    Cut cfg (SingleText (asSingle cfg) units keywords numerals · (.number W F e none)) s rest := by
  obtain ⟨n, rfl, hn, hasc, hnum⟩ := front_nil.number h1
  rw [List.append_nil] at hnum
  obtain ⟨gap, rfl, hg, -⟩ := afterDelims h2
  obtain ⟨sep, e1, e2, e3⟩ := connection h5
  subst e1
  refine ⟨n, gap ++ sep, by simp only [List.append_assoc], hn, .number hnum .absent, ?_, ?_, Or.inl hasc⟩
  · have hg' : ∀ b ∈ gap, IsDelimiter cfg b := fun b hb => Or.inl (hg b hb)
    cases e2 with
    | delims k => exact .delims fun b hb => (List.mem_append.1 hb).elim (hg' b) (k b)
    | @conjunction ds x ds' w k1 k2 k3 k4 k5 =>
      rw [← List.append_assoc]
      exact .conjunction (fun b hb => (List.mem_append.1 hb).elim (hg' b) (k1 b)) (by simp [k2]) k3 k4 k5
  · intro g
    exact absurd (e3 g) h3

/-- one of several durations is a single duration -/
theorem multiText {s rest : Bytes} {item : Item} (h : MultiText cfg units keywords numerals s item rest) :
    Cut cfg (SingleText (asSingle cfg) units keywords numerals · item) s rest := by
  cases h with
  | numberEnd h =>
    obtain ⟨n, rfl, hn, hasc, hnum⟩ := front_nil.number h
    rw [List.append_nil] at hnum
    exact ⟨n, [], by simp, hn, .number hnum .absent, .delims (by simp), fun _ => rfl, Or.inl hasc⟩
  | @numberUnit W F e r r' u _ h1 h2 h3 h4 =>
    obtain ⟨gap, rfl, hg, hgap⟩ := afterDelims h2
    obtain ⟨p, sep, rfl, hp, ⟨g1, -⟩, g2, g3, g4⟩ := unitMulti hc ho h4
    have hf : Front (gap ++ p) (gap ++ (p ++ (sep ++ rest))) := front_append.more gap
    obtain ⟨n, rfl, hn, hasc, hnum⟩ := hf.number h1
    exact ⟨n ++ (gap ++ p), sep, by simp only [List.append_assoc], by simp [hn], .number hnum (.present (hgap p front_append) hp h3 g1), g2, g3,
      Or.inr g4⟩
  | number h1 h2 h3 h4 h5 => exact number_alone h1 h2 h3 h5
  | @inf r _ h1 h2 h3 h4 =>
    obtain ⟨x, rfl, hx⟩ := h2
    obtain ⟨sep, e1, e2, e3⟩ := connection h4
    subst e1
    have hx0 : x ≠ [] := by rintro rfl; exact absurd (sameText_length hx) (by decide)
    exact ⟨x, sep, rfl, hx0, .infinity h1 (Or.inl hx), e2, fun g => (List.append_eq_nil_iff.1 (e3 g)).1,
      Or.inl (sameText_ascii hx (by decide))⟩
  | @infinity r' r _ h1 h2 h3 h4 h5 h6 =>
    obtain ⟨x, rfl, hx⟩ := h2
    obtain ⟨y, rfl, hy⟩ := h4
    obtain ⟨sep, e1, e2, e3⟩ := connection h6
    subst e1
    have hx0 : x ≠ [] := by rintro rfl; exact absurd (sameText_length hx) (by decide)
    have hxy : SameText (x ++ y) (b! "infinity") := by
      show (x ++ y).map lower = (b! "inf" ++ b! "inity").map lower
      rw [List.map_append, List.map_append, show x.map lower = _ from hx, show y.map lower = _ from hy]
    exact ⟨x ++ y, sep, by simp only [List.append_assoc], by simp [hx0], .infinity h1 (Or.inr hxy), e2,
      fun g => (List.append_eq_nil_iff.1 (e3 g)).1, Or.inl (sameText_ascii hxy (by decide))⟩
  | keyword h1 h2 h3 h4 =>
    obtain ⟨w, k1, k2, k3⟩ := h3
    obtain ⟨sep, e1, e2, e3⟩ := connection h4
    subst e1
    have hend := split_end k1
    rw [k1.1] at h1 ⊢
    exact ⟨w, sep, rfl, k2, .keyword (wordStart k2 h1) h2 k3, e2, fun g => (List.append_eq_nil_iff.1 (e3 g)).1,
      Or.inr (hend.imp id (startsWith_mono fun b hb => keywordEnd_ascii hc hb))⟩
  | unit h1 h2 h3 h4 =>
    obtain ⟨p, sep, rfl, hp, ⟨g1, g5⟩, g2, g3, g4⟩ := unitMulti hc ho h4
    refine ⟨p, sep, rfl, hp, .unit (wordStart hp h1) ?_ h3 g1, g2, g3, Or.inr g4⟩
    intro k hk
    rcases g5 with ⟨w, hw, rfl⟩ | ⟨b, hb, hd⟩
    · exact ho.unitsKeywords k hk _ _ hw
    · cases hget : k.get p with
      | none => rfl
      | some v => exact absurd hd (ho.plain p (Or.inr (Or.inl ⟨k, v, hk, hget⟩)) b hb).1
  | @numeral n w r1 q ds r2 u _ h1 h2 h3 h4 h5 h6 h7 h8 h9 h10 =>
    obtain ⟨p, sep, rfl, hp, ⟨g1, -⟩, g2, g3, g4⟩ := unitMulti hc ho h10
    have hds : ds ≠ [] := by
      rintro rfl
      have e : r1 = p ++ (sep ++ rest) := h8.1
      subst e
      obtain ⟨b, l, rfl⟩ := List.exists_cons_of_ne_nil hp
      refine h5.2.2 ⟨b, l ++ (sep ++ rest), rfl, fun hb => h8.2.2 ⟨b, _, rfl, hb⟩⟩
    obtain ⟨c, ds', rfl⟩ := List.exists_cons_of_ne_nil hds
    have hcd : cfg.innerDelimiter c = true := h8.2.1 c (by simp)
    have e : s = (w ++ (c :: ds' ++ p)) ++ (sep ++ rest) := by rw [h5.1, h8.1]; simp only [List.append_assoc]
    rw [e] at h1
    have hne : w ++ (c :: ds' ++ p) ≠ [] := by simp
    have hid : ∀ {id}, IsIdentifier units keywords numerals id → id ≠ w ++ (c :: ds' ++ p) := by
      rintro id h rfl
      exact (ho.plain _ h c (by simp)).1 (Or.inl hcd)
    have hsp : Split (¬ cfg.innerDelimiter · = true) (w ++ (c :: ds' ++ p)) w (c :: ds' ++ p) := by
      refine ⟨rfl, h5.2.1, ?_⟩
      rintro ⟨b, l, e, hb⟩
      cases e
      exact hb hcd
    refine ⟨w ++ (c :: ds' ++ p), sep, e, hne, ?_, g2, g3, Or.inr g4⟩
    · refine .numeral (wordStart hne h1) ?_ ?_ h4 hsp h6 h7 ⟨rfl, h8.2.1, fun g => h8.2.2 (front_append _ g)⟩ hp g1
      · intro k hk
        cases hget : k.get (w ++ (c :: ds' ++ p)) with
        | none => rfl
        | some v => exact absurd rfl (hid (Or.inr (Or.inl ⟨k, v, hk, hget⟩)))
      · rintro - ⟨v, t, hv⟩
        cases hv with
        | whole _ k => exact hid (Or.inl ⟨_, k⟩) rfl
        | plain _ _ _ k => exact hid (Or.inl ⟨_, k⟩) rfl
        | @ago w' r' _ _ _ _ _ _ k1 k2 k3 _ _ =>
          obtain ⟨rfl, -⟩ := split_unique hsp k1
          have := ho.unitsNumerals n h4 _ _ k3
          rw [this] at h7
          cases h7

/-! ## Signs and sequences -/

omit hc ho in
theorem signPart {s r p X : Bytes} {neg : Bool} (h : SignPart cfg s neg r) (hr : r = p ++ X) (hp : p ≠ []) :
    ∃ sg, s = sg ++ (p ++ X) ∧ SignPart (asSingle cfg) (sg ++ p) neg p ∧ (∀ b ∈ sg, b = 43 ∨ b = 45 ∨ cfg.innerDelimiter b = true) := by
  cases h with
  | absent _ h2 =>
    subst hr
    exact ⟨[], rfl, .absent hp fun g => h2 (front_append _ g), by simp⟩
  | @plus r0 _ h1 _ =>
    subst hr
    obtain ⟨gap, rfl, g1, g2⟩ := afterDelims h1
    refine ⟨43 :: gap, rfl, .plus (g2 p front_append) hp, fun b hb => ?_⟩
    rcases List.mem_cons.1 hb with rfl | hb
    · exact Or.inl rfl
    · exact Or.inr (Or.inr (g1 b hb))
  | @minus r0 _ h1 _ =>
    subst hr
    obtain ⟨gap, rfl, g1, g2⟩ := afterDelims h1
    refine ⟨45 :: gap, rfl, .minus (g2 p front_append) hp, fun b hb => ?_⟩
    rcases List.mem_cons.1 hb with rfl | hb
    · exact Or.inr (Or.inl rfl)
    · exact Or.inr (Or.inr (g1 b hb))

omit ho in
/-- the front of a text is a text, and so is what follows the separator -/
theorem cut_text {p sep rest : Bytes} (h : IsText (p ++ (sep ++ rest))) (hsep : Separator cfg sep)
    (he : (∀ b ∈ p, b.toNat < 128) ∨ sep ++ rest = [] ∨ StartsWith (·.toNat < 128) (sep ++ rest)) : IsText p ∧ IsText rest := by
  rw [isText_iff] at h
  have hp : utf8Valid p = true := by
    rcases he with he | he | he
    · exact utf8Valid_ascii he
    · rw [he, List.append_nil] at h; exact h
    · refine utf8Valid_left h ?_
      obtain ⟨b, l, e, hb⟩ := he
      rw [e]
      intro x hx
      cases hx
      unfold isCont
      have hb' : b.toNat < 128 := hb
      rw [decide_eq_false (by omega), Bool.false_and]
  have hr := utf8Valid_right h hp
  refine ⟨(isText_iff _).2 hp, (isText_iff _).2 ?_⟩
  have hv : utf8Valid sep = true := by
    have hd : ∀ {ds : Bytes}, (∀ b ∈ ds, IsDelimiter cfg b) → utf8Valid ds = true :=
      fun hds => utf8Valid_ascii fun b hb => delimiter_ascii hc (hds b hb)
    cases hsep with
    | delims k => exact hd k
    | conjunction k1 k2 k3 k4 k5 =>
      refine utf8Valid_append (hd k1) (utf8Valid_append (utf8Valid_ignoreCase ((sameText_iff _ _).1 k4) ?_) (hd k5))
      cases hcj : cfg.conjunctions with
      | none => rw [hcj] at k3; cases k3
      | some ws =>
        rw [hcj] at k3
        exact (isText_iff _).1 (hc.conjunctions ws hcj _ k3)
  exact utf8Valid_right hr hv

/-- the durations of a text are single durations with separators between them -/
theorem durations {s : Bytes} {items : List (Bool × Item)} (h : Durations cfg units keywords numerals s items) (hs : IsText s)
    {ds : List Duration} (hds : List.Forall₂ (fun i d => Accepted cfg i.1 i.2 d) items ds) :
    Spec.Pieces cfg (fun p d => IsText p ∧ DenotesSingle (asSingle cfg) units keywords numerals p d) s ds := by
  have hacc : ∀ {neg item d}, Accepted cfg neg item d → Accepted (asSingle cfg) neg item d := by
    rintro neg item d ⟨h1, h2⟩
    refine ⟨?_, h2⟩
    cases h1 with
    | number k => exact .number k
    | numberUnit k1 k2 => exact .numberUnit k1 k2
    | infinity k1 k2 => exact .infinity k1 k2
    | word k1 k2 => exact .word k1 k2
    | numeral k1 k2 k3 => exact .numeral k1 k2 k3
  have hsg : ∀ {sg : Bytes}, (∀ b ∈ sg, b = 43 ∨ b = 45 ∨ cfg.innerDelimiter b = true) → ∀ b ∈ sg, b.toNat < 128 := by
    intro sg h b hb
    rcases h b hb with rfl | rfl | g
    · decide
    · decide
    · exact hc.inner b g
  have step : ∀ {s r rest : Bytes} {neg item d}, IsText s → SignPart cfg s neg r → MultiText cfg units keywords numerals r item rest →
      Accepted cfg neg item d → ∃ p sep, s = p ++ (sep ++ rest) ∧ Separator cfg sep ∧ (rest = [] → sep = []) ∧ IsText p ∧ IsText rest ∧
        DenotesSingle (asSingle cfg) units keywords numerals p d := by
    intro s r rest neg item d hs h1 h2 h3
    obtain ⟨p, sep, e, hp, g1, g2, g3, g4⟩ := multiText hc ho h2
    obtain ⟨sg, rfl, k1, k2⟩ := signPart h1 e hp
    have e2 : sg ++ (p ++ (sep ++ rest)) = (sg ++ p) ++ (sep ++ rest) := by rw [List.append_assoc]
    rw [e2] at hs ⊢
    obtain ⟨t1, t2⟩ := cut_text hc hs g2 (g4.imp (fun ha b hb => (List.mem_append.1 hb).elim (hsg k2 b) (ha b)) id)
    exact ⟨sg ++ p, sep, rfl, g2, g3, t1, t2, neg, p, item, k1, g1, hacc h3⟩
  induction h generalizing ds with
  | last h1 h2 =>
    cases hds with
    | cons a b =>
      cases b
      obtain ⟨p, sep, e, -, g3, g4, -, g5⟩ := step hs h1 h2 a
      rw [g3 rfl, List.append_nil, List.append_nil] at e
      subst e
      exact .last ⟨g4, g5⟩
  | more h1 h2 h3 h4 ih =>
    cases hds with
    | cons a b =>
      obtain ⟨p, sep, e, g2, -, g4, g6, g5⟩ := step hs h1 h2 a
      subst e
      exact .more ⟨g4, g5⟩ g2 (ih g6 b)

end

end Fundu.Props.Pieces
