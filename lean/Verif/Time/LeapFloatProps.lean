import Verif.Time.LeapFloat
import Verif.Time.LeapLemmas
import Verif.Time.FloatLemmas
import Verif.Time.AddFloatProps

/-! # C197: leap-second corrections with float64 rounding -/

namespace Verif.Time.LeapFloatProps

open Verif F64 Spec

theorem nano_fl : |fl (1 / 1000000000) - 1 / 1000000000| ≤ (2 : ℚ) ^ (-83 : ℤ) ∧ fl (1 / 1000000000) ≤ (2 : ℚ) ^ (-29 : ℤ) ∧
    0 ≤ fl (1 / 1000000000) := by
  decide +kernel

/-- C197. If ERFA's Julian date differs from the row's by `k` seconds, to within 0.49 s, the correction is exactly `k` seconds. -/
theorem C197_whole_seconds {days total nd k : ℤ} {nf : ℚ} (hd : |days| < 2 ^ 51) (ht : |total| ≤ 2 * DAY) (hn : |nd - (days + 2400000)| ≤ 2)
    (hf : |nf| ≤ 4) (h : |((nd : ℚ) + nf - (days + 2400000 + 1 / 2 + total / DAY)) * 86400 - k| ≤ 49 / 100) :
    leapSecondsCorrection64 days total nd nf = k * 10 ^ 9 := by
  have hD : ((DAY : ℤ) : ℚ) = 86400000000000 := by rw [DAY_eq]; norm_num
  rw [hD] at h
  rw [DAY_eq] at ht
  obtain ⟨d1, d2⟩ := abs_lt.mp hd
  obtain ⟨t1, t2⟩ := abs_le.mp ht
  obtain ⟨n1, n2⟩ := abs_le.mp hn
  obtain ⟨f1, f2⟩ := abs_le.mp hf
  have t1' : (-172800000000000 : ℚ) ≤ total := by exact_mod_cast (by omega : -172800000000000 ≤ total)
  have t2' : (total : ℚ) ≤ 172800000000000 := by exact_mod_cast (by omega : total ≤ 172800000000000)
  have eD : fl ((days + 2400000 : ℤ) : ℚ) = ((days + 2400000 : ℤ) : ℚ) := fl_int (by rw [abs_lt]; constructor <;> omega)
  have eT : fl (total : ℚ) = total := fl_int (by rw [abs_lt]; constructor <;> omega)
  have eN : fl ((nd : ℚ) - ((days + 2400000 : ℤ) : ℚ)) = ((nd - (days + 2400000) : ℤ) : ℚ) := by
    have := fl_int (n := nd - (days + 2400000)) (by rw [abs_lt]; constructor <;> omega)
    rw [← this]; push_cast; rfl
  have n1' : (-2 : ℚ) ≤ ((nd - (days + 2400000) : ℤ) : ℚ) := by exact_mod_cast n1
  have n2' : ((nd - (days + 2400000) : ℤ) : ℚ) ≤ 2 := by exact_mod_cast n2
  unfold leapSecondsCorrection64 erfaDate64
  simp only
  rw [eD, eT, eN, AddFloatProps.day_q]
  have hnd : (nd : ℚ) = ((nd - (days + 2400000) : ℤ) : ℚ) + (days + 2400000) := by push_cast; ring
  rw [hnd] at h
  generalize ((nd - (days + 2400000) : ℤ) : ℚ) = D at *
  have q1 : |(total : ℚ) / 86400000000000| ≤ 2 ^ (1 : ℤ) := by
    rw [abs_div, abs_of_pos (by norm_num : (0 : ℚ) < 86400000000000), div_le_iff₀ (by norm_num), abs_le]
    constructor <;> norm_num <;> linarith
  have a1 := abs_le.mp (fl_ulp q1)
  have q1' := abs_le.mp q1
  have hT : (total : ℚ) / 86400000000000 * 86400 = total / 1000000000 := by ring
  generalize fl ((total : ℚ) / 86400000000000) = A at *
  generalize (total : ℚ) / 86400000000000 = T at *
  norm_num at a1 q1'
  have b1 := abs_le.mp (fl_ulp (q := A + 1 / 2) (k := 2) (by rw [abs_le]; constructor <;> norm_num <;> linarith))
  generalize fl (A + 1 / 2) = B at *
  norm_num at b1
  have c1 := abs_le.mp (fl_ulp (q := nf - B) (k := 3) (by rw [abs_le]; constructor <;> norm_num <;> linarith))
  generalize fl (nf - B) = C at *
  norm_num at c1
  have e1 := abs_le.mp (fl_ulp (q := D + C) (k := 4) (by rw [abs_le]; constructor <;> norm_num <;> linarith))
  generalize fl (D + C) = E at *
  norm_num at e1
  have g1 := abs_le.mp (fl_ulp (q := E * 86400000000000) (k := 51) (by rw [abs_le]; constructor <;> norm_num <;> linarith))
  have gb : |fl (E * 86400000000000)| ≤ 2 ^ 51 := by
    norm_num at g1
    rw [abs_le]; constructor <;> norm_num <;> linarith
  generalize fl (E * 86400000000000) = G at *
  norm_num at g1
  obtain ⟨p1, p2, p3⟩ := nano_fl
  have hb := abs_le.mp gb
  have m1 : |G * fl (1 / 1000000000) - G / 1000000000| ≤ 2 ^ (-32 : ℤ) := by
    rw [show G * fl (1 / 1000000000) - G / 1000000000 = G * (fl (1 / 1000000000) - 1 / 1000000000) by ring, abs_mul]
    calc |G| * |fl (1 / 1000000000) - 1 / 1000000000| ≤ 2 ^ 51 * 2 ^ (-83 : ℤ) := mul_le_mul gb p1 (abs_nonneg _) (by norm_num)
      _ = 2 ^ (-32 : ℤ) := by norm_num
  have m2 : |G * fl (1 / 1000000000)| ≤ 2 ^ (22 : ℤ) := by
    rw [abs_mul, abs_of_nonneg p3]
    calc |G| * fl (1 / 1000000000) ≤ 2 ^ 51 * 2 ^ (-29 : ℤ) := mul_le_mul gb p2 p3 (by norm_num)
      _ = 2 ^ (22 : ℤ) := by norm_num
  have s1 := abs_le.mp (fl_ulp m2)
  have m1' := abs_le.mp m1
  generalize G * fl (1 / 1000000000) = H at *
  generalize fl H = I at *
  norm_num at s1 m1'
  have hk := abs_le.mp h
  have : roundHalfEven I = k := by
    apply AddFloatProps.round_eq
    rw [abs_lt]
    constructor <;> linarith [a1.1, a1.2, b1.1, b1.2, c1.1, c1.2, e1.1, e1.2, g1.1, g1.2, m1'.1, m1'.2, s1.1, s1.2, hk.1, hk.2]
  rw [this]
  norm_num

/-- C197. Rounding makes no difference: if the exact shift of a conversion is a whole number of seconds to within 0.45 s and ERFA's two numbers
are within 0.04 s of the exact conversion, the correction is the one computed without rounding. -/
theorem C197_same (converter : ℚ → ℚ) {days total nd k : ℤ} {nf : ℚ} (hd : |days| < 2 ^ 51) (ht : |total| ≤ 2 * DAY)
    (hn : |nd - (days + 2400000)| ≤ 2) (hf : |nf| ≤ 4)
    (hk : |(converter (((days * DAY + total : ℤ) : ℚ) / DAY) - ((days * DAY + total : ℤ) : ℚ) / DAY) * 86400 - k| ≤ 45 / 100)
    (he : |((nd : ℚ) + nf - 4800001 / 2 - converter (((days * DAY + total : ℤ) : ℚ) / DAY)) * 86400| ≤ 4 / 100) :
    leapSecondsCorrection64 days total nd nf = leapSecondsCorrection converter (days * DAY + total) := by
  have hD : ((DAY : ℤ) : ℚ) = 86400000000000 := by rw [DAY_eq]; norm_num
  have e0 : ((days * DAY + total : ℤ) : ℚ) / DAY = days + total / DAY := by
    push_cast; rw [hD]; field_simp
  have hk' := abs_le.mp hk
  have he' := abs_le.mp he
  rw [C197_whole_seconds (k := k) hd ht hn hf (by
    rw [e0] at hk' he'
    rw [abs_le]
    constructor <;> linarith [hk'.1, hk'.2, he'.1, he'.2])]
  unfold leapSecondsCorrection
  simp only
  have e1 : ((NANOS_IN_DAY : ℤ) : ℚ) = DAY := by rw [AddFloatProps.day_q, hD]
  rw [e1]
  generalize converter (((days * DAY + total : ℤ) : ℚ) / DAY) = c at *
  generalize ((days * DAY + total : ℤ) : ℚ) / DAY = o at *
  rw [AddFloatProps.round_eq (n := k) (by
    rw [hD, abs_lt]
    constructor <;> linarith [hk'.1, hk'.2])]
  norm_num

/-- C197. UTC to TAI on a day without a leap second: the correction is TAI - UTC, whatever ERFA's rounding up to 0.49 s. -/
theorem C197_utc_tai (dat : ℤ → ℤ) {r : Row} {nd : ℤ} {nf : ℚ} (hr : Normal r) (hl : dat (r.days + 1) = dat r.days) (hd : |r.days| < 2 ^ 51)
    (hn : |nd - (r.days + 2400000)| ≤ 2) (hf : |nf| ≤ 4)
    (he : |((nd : ℚ) + nf - 4800001 / 2 - erfaUtcTai dat (((instant r : ℤ) : ℚ) / DAY)) * 86400| ≤ 49 / 100) :
    leapSecondsCorrection64 r.days r.nanos nd nf = dat r.days * 10 ^ 9 := by
  have hD : ((DAY : ℤ) : ℚ) = 86400000000000 := by rw [DAY_eq]; norm_num
  obtain ⟨r1, r2⟩ := hr
  have e0 : ((instant r : ℤ) : ℚ) / DAY = r.days + r.nanos / DAY := by
    unfold instant; push_cast; rw [hD]; field_simp
  have hfl : ⌊(r.days : ℚ) + r.nanos / DAY⌋ = r.days := by
    rw [Int.floor_eq_iff, hD]
    have a : (0 : ℚ) ≤ r.nanos := by exact_mod_cast r1
    have b : (r.nanos : ℚ) < 86400000000000 := by rw [← hD]; exact_mod_cast r2
    have c : (0 : ℚ) ≤ r.nanos / 86400000000000 := by positivity
    have d : (r.nanos : ℚ) / 86400000000000 < 1 := by rw [div_lt_one (by norm_num)]; exact b
    constructor <;> linarith
  have he' := abs_le.mp he
  rw [e0, erfaUtcTai_eq, offset, hfl, leapOf, hl, sub_self] at he'
  apply C197_whole_seconds hd _ hn hf
  · rw [abs_le]
    push_cast at he'
    constructor <;> linarith [he'.1, he'.2]
  · rw [abs_of_nonneg r1]; rw [DAY_eq] at r2 ⊢; omega

/-- The hypotheses are met: 2020-07-01 0h UTC and a nanosecond, ERFA's fraction being the float64 nearest to that of TAI, 37 s later. -/
example : Normal ⟨59031, 1⟩ ∧
    |((2459031 : ℤ) + fl (1 / 2 + (1 / 1000000000 + 37) / 86400) - 4800001 / 2 - erfaUtcTai recentDat ((instant ⟨59031, 1⟩ : ℤ) / (DAY : ℤ))) * 86400| ≤ (49 / 100 : ℚ) ∧
    leapSecondsCorrection64 59031 1 2459031 (fl (1 / 2 + (1 / 1000000000 + 37) / 86400)) = 37000000000 :=
  ⟨⟨by decide, by decide⟩, by decide +kernel, by decide +kernel⟩

/-- C197. Not true on a day that ends in a leap second: at noon of 2016-12-31 the shift is 36.5 s, and the last bit of ERFA's fraction decides
between 36 and 37 seconds. -/
theorem C197_noon_false : leapSecondsCorrection64 57753 43200000000000 2457753 (fl (1 + 73 / 172800)) = 36000000000 ∧
    leapSecondsCorrection64 57753 43200000000000 2457753 (fl (1 + 73 / 172800) + 2 ^ (-52 : ℤ)) = 37000000000 := by
  decide +kernel

end Verif.Time.LeapFloatProps
