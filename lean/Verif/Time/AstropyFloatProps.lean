import Verif.Time.AstropyFloat
import Verif.Time.FloatLemmas
import Verif.Time.FloatProps
import Verif.Time.Lemmas
import Verif.Time.Spec

/-! # C196: timestamps from astropy with float64 rounding -/

namespace Verif.Time.AstropyFloatProps

open Verif F64 Spec

theorem fl_1 : fl 1 = 1 := by simpa using fl_int (n := 1) (by norm_num)

/-- The whole days and the remainder, which is in [0, 1) and off by at most 2^-52 days. -/
theorem split64 {jd1 jd2 : ℚ} (h1 : fl (jd1 - 4800001 / 2) = jd1 - 4800001 / 2) (h2 : |jd2| ≤ 1 / 2) :
    0 ≤ (astropySplit64 jd1 jd2).2 ∧ (astropySplit64 jd1 jd2).2 < 1 ∧
    |((astropySplit64 jd1 jd2).1 : ℚ) + (astropySplit64 jd1 jd2).2 - (jd1 + jd2 - 4800001 / 2)| ≤ 2 ^ (-52 : ℤ) := by
  have e : jd1 + jd2 - 4800001 / 2 = (jd1 - 4800001 / 2) + jd2 := by ring
  rw [e]
  unfold astropySplit64
  rw [h1]
  generalize jd1 - 4800001 / 2 = y at *
  clear e h1
  dsimp only
  obtain ⟨j1, j2⟩ := abs_le.mp h2
  have f1 := Int.floor_le y
  have f2 := Int.lt_floor_add_one y
  generalize ⌊y⌋ = d at *
  have a0 : 0 ≤ y - d := by linarith
  have a1 := abs_le.mp (fl_ulp (q := y - d) (k := 0) (by rw [abs_of_nonneg a0, zpow_zero]; linarith))
  have a2 := fl_nonneg a0
  have a3 : fl (y - d) ≤ 1 := fl_le_of_le fl_1 (by linarith)
  generalize fl (y - d) = s0 at *
  have b1 := abs_le.mp (fl_ulp (q := s0 + jd2) (k := 1) (by rw [abs_le]; constructor <;> norm_num <;> linarith))
  have hh : fl (-(1 / 2)) = -(1 / 2) := by decide +kernel
  have h32 : fl (3 / 2) = 3 / 2 := by decide +kernel
  have b2 : -(1 / 2) ≤ fl (s0 + jd2) := le_fl_of_le hh (by linarith)
  have b3 : fl (s0 + jd2) ≤ 3 / 2 := fl_le_of_le h32 (by linarith)
  generalize fl (s0 + jd2) = s at *
  norm_num at a1 b1
  by_cases c1 : s < 0
  · simp only [if_pos c1]
    have e0 : 0 ≤ s + 1 := by linarith
    have e1 := abs_le.mp (fl_ulp (q := s + 1) (k := 0) (by rw [abs_of_nonneg e0, zpow_zero]; linarith))
    have e2 := fl_nonneg e0
    have e3 : fl (s + 1) ≤ 1 := fl_le_of_le fl_1 (by linarith)
    generalize fl (s + 1) = s1 at *
    norm_num at e1
    by_cases c2 : s1 ≥ 1
    · have : s1 = 1 := le_antisymm e3 c2
      subst this
      simp only [ge_iff_le, le_refl, if_true, sub_self, fl_zero]
      refine ⟨trivial, by norm_num, ?_⟩
      rw [abs_le]
      push_cast
      constructor <;> norm_num <;> linarith [a1.1, a1.2, b1.1, b1.2, e1.1, e1.2]
    · simp only [if_neg c2]
      refine ⟨e2, not_le.mp c2, ?_⟩
      rw [abs_le]
      push_cast
      constructor <;> norm_num <;> linarith [a1.1, a1.2, b1.1, b1.2, e1.1, e1.2]
  · simp only [if_neg c1]
    by_cases c2 : s ≥ 1
    · simp only [if_pos c2]
      have e0 : 0 ≤ s - 1 := by linarith
      have e1 := abs_le.mp (fl_ulp (q := s - 1) (k := 0) (by rw [abs_of_nonneg e0, zpow_zero]; linarith))
      have e2 := fl_nonneg e0
      have hh' : fl (1 / 2) = 1 / 2 := by decide +kernel
      have e3 : fl (s - 1) ≤ 1 / 2 := fl_le_of_le hh' (by linarith)
      generalize fl (s - 1) = s1 at *
      norm_num at e1
      refine ⟨e2, by linarith, ?_⟩
      rw [abs_le]
      push_cast
      constructor <;> norm_num <;> linarith [a1.1, a1.2, b1.1, b1.2, e1.1, e1.2]
    · simp only [if_neg c2]
      refine ⟨by linarith, by linarith, ?_⟩
      rw [abs_le]
      constructor <;> norm_num <;> linarith [a1.1, a1.2, b1.1, b1.2]

/-- The nanoseconds of a remainder. -/
theorem nanos64 {x : ℚ} (h0 : 0 ≤ x) (h1 : x < 1) :
    0 ≤ roundHalfEven (fl (fl (x * 86400) * 1000000000)) ∧ roundHalfEven (fl (fl (x * 86400) * 1000000000)) ≤ DAY ∧
    |((roundHalfEven (fl (fl (x * 86400) * 1000000000)) : ℤ) : ℚ) - x * 86400000000000| ≤ 1 / 2 + 1 / 64 := by
  have a1 := abs_le.mp (fl_ulp (q := x * 86400) (k := 17) (by rw [abs_of_nonneg (by linarith)]; norm_num; linarith))
  have a2 := fl_nonneg (q := x * 86400) (by linarith)
  have f1 : fl 86400 = 86400 := by have := fl_int (n := 86400) (by norm_num); exact_mod_cast this
  have f2 : fl 86400000000000 = 86400000000000 := by have := fl_int (n := 86400000000000) (by norm_num); exact_mod_cast this
  have a3 : fl (x * 86400) ≤ 86400 := fl_le_of_le f1 (by linarith)
  generalize fl (x * 86400) = u at *
  have b1 := abs_le.mp (fl_ulp (q := u * 1000000000) (k := 47) (by rw [abs_of_nonneg (by linarith)]; norm_num; linarith))
  have b2 := fl_nonneg (q := u * 1000000000) (by linarith)
  have b3 : fl (u * 1000000000) ≤ 86400000000000 := fl_le_of_le f2 (by linarith)
  generalize fl (u * 1000000000) = w at *
  norm_num at a1 b1
  have c := abs_le.mp (roundHalfEven_near w)
  have z0 : roundHalfEven 0 = 0 := by decide +kernel
  have zN : roundHalfEven 86400000000000 = 86400000000000 := by decide +kernel
  refine ⟨?_, ?_, ?_⟩
  · rw [← z0]; exact round_mono b2
  · rw [DAY_eq, ← zN]; exact round_mono b3
  · rw [abs_le]; constructor <;> linarith [a1.1, a1.2, b1.1, b1.2, c.1, c.2]

theorem near64 {jd1 jd2 : ℚ} (h1 : fl (jd1 - 4800001 / 2) = jd1 - 4800001 / 2) (h2 : |jd2| ≤ 1 / 2) :
    0 ≤ (fromAstropyScalar64 jd1 jd2).nanos ∧ (fromAstropyScalar64 jd1 jd2).nanos ≤ DAY ∧
    |((instant (fromAstropyScalar64 jd1 jd2) : ℤ) : ℚ) - (jd1 + jd2 - 4800001 / 2) * DAY| ≤ 27 / 50 := by
  obtain ⟨s1, s2, s3⟩ := split64 h1 h2
  unfold fromAstropyScalar64
  generalize astropySplit64 jd1 jd2 = s at s1 s2 s3
  obtain ⟨d, x⟩ := s
  simp only at s1 s2 s3 ⊢
  obtain ⟨n0, n1, n2⟩ := nanos64 s1 s2
  refine ⟨n0, n1, ?_⟩
  have hD : ((DAY : ℤ) : ℚ) = 86400000000000 := by rw [DAY_eq]; norm_num
  unfold instant
  push_cast
  rw [hD]
  generalize roundHalfEven (fl (fl (x * 86400) * 1000000000)) = n at *
  have a := abs_le.mp s3
  have b := abs_le.mp n2
  norm_num at a
  rw [abs_le]
  constructor <;> linarith [a.1, a.2, b.1, b.2]

theorem array_scalar (jd1 jd2 : ℚ) : fromAstropyArray64 jd1 jd2 =
    if (fromAstropyScalar64 jd1 jd2).nanos = DAY then ⟨(fromAstropyScalar64 jd1 jd2).days + 1, 0⟩ else fromAstropyScalar64 jd1 jd2 := by
  unfold fromAstropyArray64 fromAstropyScalar64
  rw [DAY_eq]
  norm_num

/-- C196. The row of an astropy time is normalised for array values and within 0.54 nanoseconds of `jd1 + jd2`. The difference of `jd1` and
2400000.5 has to be a float64, which it is for whole and half days. -/
theorem C196_from_astropy {jd1 jd2 : ℚ} (h1 : fl (jd1 - 4800001 / 2) = jd1 - 4800001 / 2) (h2 : |jd2| ≤ 1 / 2) :
    Normal (fromAstropyArray64 jd1 jd2) ∧
    |((instant (fromAstropyArray64 jd1 jd2) : ℤ) : ℚ) - (jd1 + jd2 - 4800001 / 2) * DAY| ≤ 27 / 50 ∧
    |((instant (fromAstropyScalar64 jd1 jd2) : ℤ) : ℚ) - (jd1 + jd2 - 4800001 / 2) * DAY| ≤ 27 / 50 ∧
    instant (fromAstropyArray64 jd1 jd2) = instant (fromAstropyScalar64 jd1 jd2) := by
  obtain ⟨n0, n1, n2⟩ := near64 h1 h2
  have e : instant (fromAstropyArray64 jd1 jd2) = instant (fromAstropyScalar64 jd1 jd2) := by
    rw [array_scalar]
    split
    · rename_i h
      unfold instant
      rw [h]; ring
    · rfl
  refine ⟨?_, by rw [e]; exact n2, n2, e⟩
  rw [array_scalar]
  split
  · exact ⟨le_refl 0, by rw [DAY_eq]; norm_num⟩
  · exact ⟨n0, by omega⟩

theorem half_fl {m : ℤ} (h : |m| < 2 ^ 52) : fl ((m : ℚ) / 2 - 4800001 / 2) = m / 2 - 4800001 / 2 := by
  have e : (m : ℚ) / 2 - 4800001 / 2 = ((m - 4800001 : ℤ) : ℚ) * 2 ^ (-1 : ℤ) := by push_cast; norm_num; ring
  rw [e]
  apply fl_exact
  rw [abs_lt] at h ⊢
  constructor <;> omega

/-- C196. A normalised row comes back to the nanosecond from every astropy array whose `jd1` is a whole or half day and whose `jd1 + jd2` is
within 0.45 nanoseconds of the row. -/
theorem C196_round_trip {r : Row} {m : ℤ} {jd2 : ℚ} (hr : Normal r) (hm : |m| < 2 ^ 52) (h2 : |jd2| ≤ 1 / 2)
    (h : |((m : ℚ) / 2 + jd2 - 4800001 / 2) * DAY - instant r| ≤ 45 / 100) : fromAstropyArray64 (m / 2) jd2 = r := by
  obtain ⟨a1, a2, _, _⟩ := C196_from_astropy (half_fl hm) h2
  generalize fromAstropyArray64 (m / 2) jd2 = q at *
  have b := abs_le.mp a2
  have c := abs_le.mp h
  have u1 : ((instant q - instant r : ℤ) : ℚ) < 1 := by push_cast; linarith [b.1, b.2, c.1, c.2]
  have u2 : (-1 : ℚ) < ((instant q - instant r : ℤ) : ℚ) := by push_cast; linarith [b.1, b.2, c.1, c.2]
  have v1 : instant q - instant r < 1 := by exact_mod_cast u1
  have v2 : -1 < instant q - instant r := by exact_mod_cast u2
  have e : instant q = instant r := by omega
  obtain ⟨q1, q2⟩ := a1
  obtain ⟨r1, r2⟩ := hr
  obtain ⟨qd, qn⟩ := q
  obtain ⟨rd, rn⟩ := r
  unfold instant at e
  rw [DAY_eq] at e q2 r2
  simp only at *
  have : qd = rd := by omega
  subst this
  have : qn = rn := by omega
  rw [this]

/-- A time of day that is not a float64 comes back: MJD 59000 and a third of a day and a nanosecond, as astropy splits it. -/
example : Normal ⟨59000, 28800000000001⟩ ∧ fromAstropyArray64 (4918001 / 2) (fl (28800000000001 / 86400000000000)) = ⟨59000, 28800000000001⟩ ∧
    fromAstropyArray64 2459001 (fl (28800000000001 / 86400000000000 - 1 / 2)) = ⟨59000, 28800000000001⟩ :=
  ⟨⟨by decide, by decide⟩, by decide +kernel⟩

/-- C196. `to_astropy` hands astropy the days and the float64 fraction; if astropy's two numbers have their sum to within 0.4 nanoseconds, with
`jd1` a whole or half day and `jd2` at most half a day, then `from_astropy` returns the row. -/
theorem C196_to_astropy {r : Row} {m : ℤ} {jd2 : ℚ} (hr : Normal r) (hm : |m| < 2 ^ 52) (h2 : |jd2| ≤ 1 / 2)
    (h : |((m : ℚ) / 2 + jd2 - (r.days + r.fraction64 + 4800001 / 2)) * DAY| ≤ 4 / 10) : fromAstropyArray64 (m / 2) jd2 = r := by
  apply C196_round_trip hr hm h2
  obtain ⟨_, _, f⟩ := FloatProps.fraction64_near ⟨hr.1, hr.2.le⟩
  have hD : ((DAY : ℤ) : ℚ) = 86400000000000 := by rw [DAY_eq]; norm_num
  unfold instant
  push_cast
  rw [hD] at h ⊢
  have a := abs_le.mp f
  have b := abs_le.mp h
  norm_num at a
  have e : (r.nanos : ℚ) / 86400000000000 * 86400000000000 = r.nanos := by field_simp
  rw [abs_le]
  constructor <;> linarith [a.1, a.2, b.1, b.2]

/-- C196. A row that is not at midnight comes back from an astropy scalar, too. -/
theorem C196_scalar {r : Row} {m : ℤ} {jd2 : ℚ} (hr : Normal r) (h0 : r.nanos ≠ 0) (hm : |m| < 2 ^ 52) (h2 : |jd2| ≤ 1 / 2)
    (h : |((m : ℚ) / 2 + jd2 - 4800001 / 2) * DAY - instant r| ≤ 45 / 100) : fromAstropyScalar64 (m / 2) jd2 = r := by
  have a := C196_round_trip hr hm h2 h
  rw [array_scalar] at a
  split at a
  · rw [← a] at h0; exact absurd rfl h0
  · exact a

/-- C196. Not true: a scalar astropy time gives a normalised row. The last float64 before midnight, 9.6 picoseconds before it, has as a scalar
a nanosecond count of a full day, and as an array it is the midnight. -/
theorem C196_scalar_false : fl (1 / 2 - 2 ^ (-53 : ℤ)) = 1 / 2 - 2 ^ (-53 : ℤ) ∧
    fromAstropyScalar64 2459001 (1 / 2 - 2 ^ (-53 : ℤ)) = ⟨59000, 86400000000000⟩ ∧
    fromAstropyArray64 2459001 (1 / 2 - 2 ^ (-53 : ℤ)) = ⟨59001, 0⟩ := by
  decide +kernel

/-- C196. A remainder that is rounded to a full day is carried before nanoseconds are counted: a hundredth of a picosecond before midnight is
midnight, for scalars and arrays. -/
theorem C196_carry : fromAstropyScalar64 (4918001 / 2) (-2 ^ (-60 : ℤ)) = ⟨59000, 0⟩ ∧ fromAstropyArray64 (4918001 / 2) (-2 ^ (-60 : ℤ)) = ⟨59000, 0⟩ := by
  decide +kernel

end Verif.Time.AstropyFloatProps
