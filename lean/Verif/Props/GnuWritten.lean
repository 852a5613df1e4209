import Verif.Props.GnuTexts
import Verif.Props.Gnu
import Verif.Props.Exact
/-!
# C94: every relative time can be written and read back
-/
namespace Fundu.Props
open Fundu Fundu.Spec Fundu.Gnu

/-- `s` is the whole number `n`: an optional sign and digits, with any number of leading zeros -/
def WrittenInt (n : Int) (s : Bytes) : Prop :=
  ∃ sign neg W, s = sign ++ W ∧ SignText sign neg ∧ AllDigits W ∧ W ≠ [] ∧ n = if neg then -(decimal W : Int) else decimal W

/-- `s` is the relative time of `y` years, `m` months and the duration `d`, for example `-1 years +2 months 3.000000000 seconds` -/
def WrittenRelative (y m : Int) (d : Duration) (s : Bytes) : Prop :=
  ∃ a b c, WrittenInt y a ∧ WrittenInt m b ∧ Written d c ∧
    s = a ++ (b! " years " ++ (b ++ (b! " months " ++ (c ++ b! " seconds"))))

theorem gnuSign_of {sign : Bytes} {neg : Bool} (h : SignText sign neg) : GnuSignText sign neg := by
  rcases h with ⟨rfl, rfl⟩ | ⟨rfl, rfl⟩ | ⟨rfl, rfl⟩
  · exact .none
  · exact .plus (sp := []) (by intro b hb; cases hb)
  · exact .minus (sp := []) (by intro b hb; cases hb)

theorem clampI64_of {n : Int} (h : IsI64 n) : clampI64 n = n := by
  have h1 : -2 ^ 63 ≤ n := h.1
  have h2 : n ≤ 2 ^ 63 - 1 := h.2
  unfold clampI64
  omega

theorem clamp_of {n : Int} (h1 : -maxNanos ≤ n) (h2 : n ≤ maxNanos) : clamp n = n := by
  unfold clamp
  omega

/-- C94: `parse_fuzzy` gives back the years, the months and the duration of a relative time which was written down, exactly. -/
theorem C94_written (y m : Int) (d : Duration) (hy : IsI64 y) (hm : IsI64 m) (hw : d.WF) (s : Bytes) (h : WrittenRelative y m d s) :
    ∃ x, Gnu.parseFuzzy s = .ok (y, m, x) ∧ x.WF ∧ nanos x = nanos d ∧ x.eq d = true := by
  suffices hx : ∃ x, Gnu.parseFuzzy s = .ok (y, m, x) ∧ x.WF ∧ nanos x = nanos d by
    obtain ⟨x, h1, h2, h3⟩ := hx
    exact ⟨x, h1, h2, h3, (C01_eq_iff x d h2 hw).2 h3⟩
  obtain ⟨a, b, c, ⟨sa, na, Wa, rfl, ha1, ha2, ha3, rfl⟩, ⟨sb, nb, Wb, rfl, hb1, hb2, hb3, rfl⟩,
    ⟨sc, Wc, F, rfl, hc1, hc2, hc3, hc4, hc5, hc6, hc7⟩, rfl⟩ := h
  have hsp : IsSpaces (b! " ") := by unfold IsSpaces; decide
  have hnil : IsSpaces [] := by intro b hb; cases hb
  have hF : F ≠ [] := by rintro rfl; cases hc5
  have p1 : Phrase na (Wa ++ (b! " " ++ b! "years")) _ :=
    .count ha3 ha2 hsp (.unit (len := .years) ⟨[b! "years", b! "year"], by decide, b! "years", by decide, by decide⟩)
  have p2 : Phrase nb (Wb ++ (b! " " ++ b! "months")) _ :=
    .count hb3 hb2 hsp (.unit (len := .months) ⟨[b! "months", b! "month"], by decide, b! "months", by decide, by decide⟩)
  have p3 : Phrase d.isNegative (Wc ++ (46 :: (F ++ (b! " " ++ b! "seconds")))) _ :=
    .seconds hc3 hc2 hF hc4 hsp (.unit ⟨[b! "seconds", b! "second", b! "secs", b! "sec"], by decide, b! "seconds", by decide, by decide⟩)
  have hs := C61_sentence _ _ (.more (gnuSign_of ha1) p1 hsp (by decide) (.more (gnuSign_of hb1) p2 hsp (by decide)
    (.last (gnuSign_of hc1) p3))) [] [] hnil hnil
  obtain ⟨x, h1, h2, h3⟩ := hs
  refine ⟨x, ?_, h2, ?_⟩
  · have e : ([] : Bytes) ++ ((sa ++ (Wa ++ (b! " " ++ b! "years") ++ (b! " " ++ (sb ++ (Wb ++ (b! " " ++ b! "months") ++ (b! " " ++
        (sc ++ (Wc ++ (46 :: (F ++ (b! " " ++ b! "seconds"))))))))))) ++ []) =
        sa ++ Wa ++ (b! " years " ++ (sb ++ Wb ++ (b! " months " ++ (sc ++ (Wc ++ (46 :: F)) ++ b! " seconds")))) := by simp
    rw [e] at h1
    rw [h1]
    have s1 : signedBy na false (decimal Wa) = if na then -(decimal Wa : Int) else decimal Wa := by cases na <;> rfl
    have s2 : signedBy nb false (decimal Wb) = if nb then -(decimal Wb : Int) else decimal Wb := by cases nb <;> rfl
    simp only [gnuTotal, List.foldl_cons, List.foldl_nil, GnuTotal.add, timesLength, s1, s2, clampI64_of hy, clampI64_of hm, Int.zero_add]
  · rw [h3]
    have hv : decimalNanos Wc F = (d.inner.secs : Int) * 1000000000 + d.inner.nanos := by
      unfold decimalNanos
      rw [hc5, hc6, hc7]
      have : (((d.inner.secs : ℚ) + (d.inner.nanos : ℚ) / 10 ^ 9) * 10 ^ 9) = (((d.inner.secs : Int) * 1000000000 + d.inner.nanos : Int) : ℚ) := by
        push_cast
        ring
      rw [this, Int.floor_intCast]
    have hn : signedBy d.isNegative false (decimalNanos Wc F) = nanos d := by
      rw [hv]
      unfold nanos signedBy
      cases d.isNegative <;> simp
    obtain ⟨r1, r2⟩ := nanos_representable d hw
    simp only [gnuTotal, List.foldl_cons, List.foldl_nil, GnuTotal.add, timesLength, hn, Int.zero_add, clamp_of r1 r2]

/-- C94: every relative time can be written. -/
theorem C94_every (y m : Int) (d : Duration) (hw : d.WF) : ∃ s, WrittenRelative y m d s := by
  have key : ∀ n : Int, ∃ s, WrittenInt n s := by
    intro n
    obtain ⟨W, h1, h2, h3⟩ := someDigits n.natAbs
    by_cases hn : n < 0
    · exact ⟨_, b! "-", true, W, rfl, Or.inr (Or.inr ⟨rfl, rfl⟩), h1, h2, by rw [h3, if_pos rfl]; omega⟩
    · exact ⟨_, [], false, W, rfl, Or.inl ⟨rfl, rfl⟩, h1, h2, by rw [h3, if_neg (by decide)]; omega⟩
  obtain ⟨a, ha⟩ := key y
  obtain ⟨b, hb⟩ := key m
  obtain ⟨c, hc⟩ := C76_every_duration d hw
  exact ⟨_, a, b, c, ha, hb, hc, rfl⟩

/-- C94: two different relative times are never written with the same text. -/
theorem C94_injective (y m y' m' : Int) (d d' : Duration) (hy : IsI64 y) (hm : IsI64 m) (hy' : IsI64 y') (hm' : IsI64 m') (hw : d.WF)
    (hw' : d'.WF) (s : Bytes) (h : WrittenRelative y m d s) (h' : WrittenRelative y' m' d' s) : y = y' ∧ m = m' ∧ nanos d = nanos d' := by
  obtain ⟨x, h1, -, h2, -⟩ := C94_written y m d hy hm hw s h
  obtain ⟨x', h1', -, h2', -⟩ := C94_written y' m' d' hy' hm' hw' s h'
  rw [h1] at h1'
  cases h1'
  exact ⟨rfl, rfl, h2.symm.trans h2'⟩

/-- C94: without years and months `parse` and `parse_with_date` give back the duration for every date. -/
theorem C94_duration (d : Duration) (hw : d.WF) (s : Bytes) (h : WrittenRelative 0 0 d s) (now : DateTime) (date : Option DateTime) :
    ∃ x, Gnu.parseWithDate now s date = .ok x ∧ Gnu.parse now s = .ok x ∧ nanos x = nanos d := by
  obtain ⟨x, h1, -, h2, -⟩ := C94_written 0 0 d (by decide) (by decide) hw s h
  exact ⟨x, (C42_date_irrelevant s x h1 now date).1, (C42_date_irrelevant s x h1 now date).2, h2⟩

/-- the smallest number of years, the largest number of months and the longest negative duration -/
example : WrittenRelative (-9223372036854775808) 9223372036854775807 ⟨true, ⟨18446744073709551615, 999999999⟩⟩
    (b! "-9223372036854775808 years +9223372036854775807 months -18446744073709551615.999999999 seconds") :=
  ⟨b! "-9223372036854775808", b! "+9223372036854775807", b! "-18446744073709551615.999999999",
    ⟨b! "-", true, b! "9223372036854775808", rfl, Or.inr (Or.inr ⟨rfl, rfl⟩), by unfold AllDigits; decide, by decide, by decide +kernel⟩,
    ⟨b! "+", false, b! "9223372036854775807", rfl, Or.inr (Or.inl ⟨rfl, rfl⟩), by unfold AllDigits; decide, by decide, by decide +kernel⟩,
    ⟨b! "-", b! "18446744073709551615", b! "999999999", rfl, Or.inr (Or.inr ⟨rfl, rfl⟩), by unfold AllDigits; decide, by decide,
      by unfold AllDigits; decide, rfl, by decide +kernel, by decide +kernel⟩, rfl⟩

end Fundu.Props
