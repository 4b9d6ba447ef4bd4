import Verif.Time.FloatLemmas
import Verif.Time.Lemmas
import Verif.Time.Spec

/-! # C194: timestamps as float64 numbers -/

namespace Verif.Time.FloatProps

open Verif F64 Spec

theorem day_q : ((NANOS_IN_DAY : ℤ) : ℚ) = 86400000000000 := by unfold NANOS_IN_DAY; norm_num

theorem nanos_fl {r : Row} (h : 0 ≤ r.nanos ∧ r.nanos ≤ DAY) : fl r.nanos = r.nanos :=
  fl_int (by rw [abs_of_nonneg h.1]; have := h.2; rw [DAY_eq] at this; omega)

/-- The fraction of a day lies between zero and one, and is rounded once. -/
theorem fraction64_near {r : Row} (h : 0 ≤ r.nanos ∧ r.nanos ≤ DAY) :
    0 ≤ r.fraction64 ∧ r.fraction64 ≤ 1 ∧ |r.fraction64 - r.nanos / 86400000000000| ≤ 2 ^ (-54 : ℤ) := by
  have h0 : (0 : ℚ) ≤ r.nanos := by exact_mod_cast h.1
  have h1 : (r.nanos : ℚ) ≤ 86400000000000 := by have := h.2; rw [DAY_eq] at this; exact_mod_cast this
  have e : r.fraction64 = fl (r.nanos / 86400000000000) := by unfold Row.fraction64; rw [nanos_fl h, day_q]
  have hle : (r.nanos : ℚ) / 86400000000000 ≤ 1 := by rw [div_le_one (by norm_num)]; exact h1
  have h2 : (0 : ℚ) ≤ r.nanos / 86400000000000 := by positivity
  rw [e]
  refine ⟨fl_nonneg h2, fl_le_of_le (by simpa using fl_int (n := 1) (by norm_num)) hle, ?_⟩
  have := fl_ulp (q := r.nanos / 86400000000000) (k := 0) (by rw [abs_of_nonneg h2]; simpa using hle)
  simpa using this

theorem days_fl {d : ℤ} {k : ℕ} (hk : k ≤ 53) (h : |d| < 2 ^ k) : fl d = d :=
  fl_int (h.trans_le (pow_le_pow_right₀ (by norm_num) hk))

theorem mjd_le {r : Row} {k : ℕ} (hk : k ≤ 53) (hr : 0 ≤ r.nanos ∧ r.nanos ≤ DAY) (hd : |r.days| < 2 ^ k) :
    |r.mjd64 - r.mjd| ≤ 2 ^ ((k : ℤ) - 54) + 2 ^ (-54 : ℤ) := by
  obtain ⟨f0, f1, f2⟩ := fraction64_near hr
  obtain ⟨d1, d2⟩ := abs_lt.mp hd
  have d1' : -(2 : ℚ) ^ k + 1 ≤ r.days := by have : -(2 : ℤ) ^ k + 1 ≤ r.days := by omega
                                             exact_mod_cast this
  have d2' : (r.days : ℚ) + 1 ≤ 2 ^ k := by have : r.days + 1 ≤ (2 : ℤ) ^ k := by omega
                                            exact_mod_cast this
  have hb : |(r.days : ℚ) + r.fraction64| ≤ 2 ^ (k : ℤ) := by
    rw [zpow_natCast, abs_le]; constructor <;> linarith
  have h1 := fl_ulp hb
  have e : r.mjd64 - r.mjd = (fl ((r.days : ℚ) + r.fraction64) - ((r.days : ℚ) + r.fraction64)) + (r.fraction64 - r.nanos / 86400000000000) := by
    unfold Row.mjd64 Row.mjd
    rw [days_fl hk hd, day_q]
    ring
  rw [e]
  exact (abs_add_le _ _).trans (add_le_add h1 f2)

/-- C194. The MJD of a row in days less than 2^k from MJD 0 is off by at most half a unit in the last place and the rounding of the fraction. -/
theorem C194_mjd {r : Row} {k : ℕ} (hk : k ≤ 53) (hr : Normal r) (hd : |r.days| < 2 ^ k) :
    |r.mjd64 - ((instant r : ℤ) : ℚ) / DAY| ≤ 2 ^ ((k : ℤ) - 54) + 2 ^ (-54 : ℤ) := by
  have := mjd_le hk ⟨hr.1, hr.2.le⟩ hd
  have e : ((instant r : ℤ) : ℚ) / DAY = r.mjd := by
    unfold instant Row.mjd
    rw [day_q, DAY_eq]
    push_cast
    field_simp
  rw [e]
  exact this

/-- C194. `from_mjd` is off by less than 0.52 nanoseconds, of every number. -/
theorem C194_from_mjd (x : ℚ) : |((instant (fromMjd64 x) : ℤ) : ℚ) - x * DAY| ≤ 1 / 2 + 2 ^ (-7 : ℤ) + DAY * 2 ^ (-54 : ℤ) ∧
    0 ≤ (fromMjd64 x).nanos ∧ (fromMjd64 x).nanos ≤ DAY := by
  have h1 := Int.floor_le x
  have h2 := Int.lt_floor_add_one x
  have hf0 : 0 ≤ x - ⌊x⌋ := by linarith
  have hg := fl_ulp (q := x - ⌊x⌋) (k := 0) (by rw [abs_of_nonneg hf0, zpow_zero]; linarith)
  have hg0 := fl_nonneg hf0
  have one : fl 1 = 1 := by simpa using fl_int (n := 1) (by norm_num)
  have hg1 : fl (x - ⌊x⌋) ≤ 1 := fl_le_of_le one (by linarith)
  have hN : fl 86400000000000 = 86400000000000 := by
    have := fl_int (n := 86400000000000) (by norm_num); exact_mod_cast this
  have hp0 : 0 ≤ fl (x - ⌊x⌋) * 86400000000000 := by positivity
  have hp := fl_ulp (q := fl (x - ⌊x⌋) * 86400000000000) (k := 47) (by
    rw [abs_of_nonneg hp0]; norm_num [-Int.self_sub_floor]; linarith)
  have hq0 := fl_nonneg hp0
  have hq1 : fl (fl (x - ⌊x⌋) * 86400000000000) ≤ 86400000000000 := fl_le_of_le hN (by linarith)
  have hr := roundHalfEven_near (fl (fl (x - ⌊x⌋) * 86400000000000))
  have hn : (fromMjd64 x).nanos = roundHalfEven (fl (fl (x - ⌊x⌋) * 86400000000000)) := by
    unfold fromMjd64; simp only; rw [day_q]
  have hdays : (fromMjd64 x).days = ⌊x⌋ := rfl
  refine ⟨?_, ?_, ?_⟩
  · unfold instant
    rw [hn, hdays, DAY_eq]
    push_cast
    generalize (roundHalfEven (fl (fl (x - ⌊x⌋) * 86400000000000)) : ℚ) = a at *
    generalize fl (fl (x - ⌊x⌋) * 86400000000000) = b at *
    generalize fl (x - ⌊x⌋) = c at *
    norm_num [-Int.self_sub_floor] at hp hg ⊢
    rw [abs_le] at *
    constructor <;> linarith
  · rw [hn]
    have := round_mono hq0
    rwa [show roundHalfEven 0 = 0 by simpa using roundHalfEven_int 0] at this
  · rw [hn, DAY_eq]
    have := round_mono hq1
    rwa [show roundHalfEven 86400000000000 = 86400000000000 by simpa using roundHalfEven_int 86400000000000] at this

/-- C194. From a row to its MJD and back: less than 0.315 microseconds are lost up to MJD 65535 (in 2038), less than 0.630 up to 131071 (in 2217). -/
theorem C194_round_trip {r : Row} {k : ℕ} (hk : k ≤ 53) (hr : Normal r) (hd : |r.days| < 2 ^ k) :
    |((instant (fromMjd64 r.mjd64) - instant r : ℤ) : ℚ)| < DAY * 2 ^ ((k : ℤ) - 54) + 13 / 25 := by
  have h1 := C194_mjd hk hr hd
  have h2 := (C194_from_mjd r.mjd64).1
  have hD : ((DAY : ℤ) : ℚ) = 86400000000000 := by rw [DAY_eq]; norm_num
  rw [hD] at h1 h2 ⊢
  push_cast
  generalize (2 : ℚ) ^ ((k : ℤ) - 54) = u at *
  norm_num [-Int.self_sub_floor] at h1 h2
  rw [abs_le] at h1 h2
  rw [abs_lt]
  constructor <;> linarith

theorem C194_round_trip_2038 {r : Row} (hr : Normal r) (hd : |r.days| < 2 ^ 16) : |instant (fromMjd64 r.mjd64) - instant r| ≤ 314 := by
  have h := C194_round_trip (k := 16) (by norm_num) hr hd
  have : |((instant (fromMjd64 r.mjd64) - instant r : ℤ) : ℚ)| < 315 := by
    refine h.trans_le ?_
    rw [DAY_eq]; norm_num
  have : |instant (fromMjd64 r.mjd64) - instant r| < 315 := by exact_mod_cast this
  omega

example : (0 ≤ (1 : ℤ) ∧ 1 < DAY) ∧ |(⟨60000, 1⟩ : Row).days| < 2 ^ 16 ∧ fromMjd64 (Row.mjd64 ⟨60000, 1⟩) = ⟨60000, 0⟩ := by decide +kernel

/-- The fraction of a float64 of at least one is exact. -/
theorem fraction_exact {x : ℚ} (hx : fl x = x) (h1 : 1 ≤ |x|) : ∃ k : ℕ, (2 : ℚ) ^ k ≤ |x| ∧ |x| < 2 ^ (k + 1) ∧
    (x = ⌊x⌋ ∨ (k < 52 ∧ ∃ m : ℤ, x = m * 2 ^ ((k : ℤ) - 52) ∧ fl (x - ⌊x⌋) = x - ⌊x⌋ ∧ x - ⌊x⌋ ≤ 1 - 2 ^ ((k : ℤ) - 52))) := by
  have hp : 0 < |x| := by linarith
  have a := ilog2_le hp
  have b := ilog2_lt hp
  have hk : 0 ≤ ilog2 |x| := by
    have := (zpow_lt_zpow_iff_right₀ (by norm_num : (1 : ℚ) < 2)).mp (show (2 : ℚ) ^ (0 : ℤ) < 2 ^ (ilog2 |x| + 1) by simpa using h1.trans_lt b)
    omega
  obtain ⟨k, hk'⟩ : ∃ k : ℕ, ilog2 |x| = k := ⟨(ilog2 |x|).toNat, by omega⟩
  rw [hk'] at a b
  obtain ⟨m, hm⟩ := digits hx a b
  refine ⟨k, by exact_mod_cast a, by exact_mod_cast b, ?_⟩
  by_cases h52 : 52 ≤ k
  · left
    obtain ⟨n, rfl⟩ : ∃ n, k = 52 + n := ⟨k - 52, by omega⟩
    have : x = ((m * 2 ^ n : ℤ) : ℚ) := by
      rw [hm]; push_cast; rw [show (52 + (n : ℤ) - 52) = (n : ℤ) by ring, zpow_natCast]
    rw [this, Int.floor_intCast]
  · right
    obtain ⟨n, hn⟩ : ∃ n, k + n = 52 := ⟨52 - k, by omega⟩
    have hz : ((k : ℤ) - 52) = -(n : ℤ) := by omega
    have hu : (0 : ℚ) < 2 ^ ((k : ℤ) - 52) := zpow_pos (by norm_num) _
    have hone : (2 : ℚ) ^ n * 2 ^ ((k : ℤ) - 52) = 1 := by
      rw [hz, zpow_neg, zpow_natCast]; exact mul_inv_cancel₀ (by positivity)
    have hj : x - ⌊x⌋ = ((m - ⌊x⌋ * 2 ^ n : ℤ) : ℚ) * 2 ^ ((k : ℤ) - 52) := by
      push_cast
      rw [sub_mul, mul_assoc, hone, ← hm, mul_one]
    have f1 := Int.floor_le x
    have f2 := Int.lt_floor_add_one x
    have j0 : 0 ≤ m - ⌊x⌋ * 2 ^ n := by
      by_contra hneg
      push Not at hneg
      have : ((m - ⌊x⌋ * 2 ^ n : ℤ) : ℚ) < 0 := by exact_mod_cast hneg
      have := mul_neg_of_neg_of_pos this hu
      linarith
    have j1 : m - ⌊x⌋ * 2 ^ n < 2 ^ n := by
      have : ((m - ⌊x⌋ * 2 ^ n : ℤ) : ℚ) * 2 ^ ((k : ℤ) - 52) < (2 : ℚ) ^ n * 2 ^ ((k : ℤ) - 52) := by rw [← hj, hone]; linarith
      have := lt_of_mul_lt_mul_right this hu.le
      exact_mod_cast this
    refine ⟨by omega, m, hm, ?_, ?_⟩
    · rw [hj]
      apply fl_exact
      rw [abs_of_nonneg j0]
      exact j1.trans_le (pow_le_pow_right₀ (by norm_num) (by omega))
    · rw [hj, ← hone, ← sub_one_mul]
      have : ((m - ⌊x⌋ * 2 ^ n : ℤ) : ℚ) ≤ (2 : ℚ) ^ n - 1 := by
        have : m - ⌊x⌋ * 2 ^ n ≤ 2 ^ n - 1 := by omega
        exact_mod_cast this
      gcongr

theorem two_le {k : ℕ} {n : ℕ} {x : ℚ} (h : (2 : ℚ) ^ n ≤ |x|) (hk : |x| < 2 ^ (k + 1)) : n ≤ k := by
  have := (pow_lt_pow_iff_right₀ (by norm_num : (1 : ℚ) < 2)).mp (h.trans_lt hk)
  omega

/-- C194. The row of every float64 MJD that is 32 or more days from MJD 0 is normalised. -/
theorem C194_normalised {x : ℚ} (hx : fl x = x) (h : 32 ≤ |x|) : Normal (fromMjd64 x) := by
  refine ⟨(C194_from_mjd x).2.1, ?_⟩
  obtain ⟨k, k1, k2, hc⟩ := fraction_exact hx (by linarith)
  have hk : 5 ≤ k := two_le (by norm_num; exact h) k2
  have hn : (fromMjd64 x).nanos = roundHalfEven (fl (fl (x - ⌊x⌋) * 86400000000000)) := by
    unfold fromMjd64; simp only; rw [day_q]
  rw [hn, DAY_eq]
  rcases hc with hc | ⟨-, m, -, he, hle⟩
  · rw [show x - ⌊x⌋ = 0 by linarith, fl_zero, zero_mul, fl_zero]
    rw [show roundHalfEven 0 = 0 by simpa using roundHalfEven_int 0]
    norm_num
  · rw [he]
    have h0 : 0 ≤ x - ⌊x⌋ := by linarith [Int.floor_le x]
    have hu : (2 : ℚ) ^ (-47 : ℤ) ≤ 2 ^ ((k : ℤ) - 52) := zpow_le_zpow_right₀ (by norm_num) (by omega)
    generalize (2 : ℚ) ^ ((k : ℤ) - 52) = u at *
    have hp := fl_ulp (q := (x - ⌊x⌋) * 86400000000000) (k := 47) (by
      rw [abs_of_nonneg (by positivity)]; norm_num [-Int.self_sub_floor] at hu ⊢; linarith)
    have hr := roundHalfEven_near (fl ((x - ⌊x⌋) * 86400000000000))
    generalize fl ((x - ⌊x⌋) * 86400000000000) = b at *
    have : ((roundHalfEven b : ℤ) : ℚ) < 86400000000000 := by
      norm_num [-Int.self_sub_floor] at hu hp
      rw [abs_le] at hp hr
      linarith
    exact_mod_cast this

example : fl 32 = 32 ∧ (32 : ℚ) ≤ |32| := by decide +kernel

/-- C194. Not true: that the row of every float64 is normalised. -/
theorem C194_normalised_false : ¬ ∀ x : ℚ, fl x = x → 0 ≤ x → Normal (fromMjd64 x) := by
  intro h
  have := (h (32 - 2 ^ (-48 : ℤ)) (by decide +kernel) (by norm_num)).2
  revert this
  decide +kernel

/-- C194. A float64 MJD that is 64 or more days from MJD 0 comes back unchanged from its row. -/
theorem C194_exact {x : ℚ} (hx : fl x = x) (h : 64 ≤ |x|) : (fromMjd64 x).mjd64 = x := by
  have hnorm := C194_normalised hx (by linarith)
  obtain ⟨k, k1, k2, hc⟩ := fraction_exact hx (by linarith)
  have hk : 6 ≤ k := two_le (by norm_num; exact h) k2
  have hn : (fromMjd64 x).nanos = roundHalfEven (fl (fl (x - ⌊x⌋) * 86400000000000)) := by
    unfold fromMjd64; simp only; rw [day_q]
  have hdays : (fromMjd64 x).days = ⌊x⌋ := rfl
  obtain ⟨f0, f1, f2⟩ := fraction64_near (r := fromMjd64 x) ⟨hnorm.1, hnorm.2.le⟩
  rcases hc with hc | ⟨hk2, m, hm, he, hle⟩
  · have hz : (fromMjd64 x).nanos = 0 := by
      rw [hn, show x - ⌊x⌋ = 0 by linarith, fl_zero, zero_mul, fl_zero]
      simpa using roundHalfEven_int 0
    have hf : (fromMjd64 x).fraction64 = 0 := by
      unfold Row.fraction64
      rw [hz]
      simp [fl_zero]
    unfold Row.mjd64
    rw [hf, hdays, ← hc, hx, add_zero, hx]
  · by_cases hint : x = ⌊x⌋
    · have hz : (fromMjd64 x).nanos = 0 := by
        rw [hn, show x - ⌊x⌋ = 0 by linarith, fl_zero, zero_mul, fl_zero]
        simpa using roundHalfEven_int 0
      have hf : (fromMjd64 x).fraction64 = 0 := by
        unfold Row.fraction64
        rw [hz]
        simp [fl_zero]
      unfold Row.mjd64
      rw [hf, hdays, ← hint, hx, add_zero, hx]
    have hd : fl ⌊x⌋ = ⌊x⌋ := by
      apply fl_int
      have hb : |x| < 2 ^ 52 := k2.trans_le (pow_le_pow_right₀ (by norm_num) (by omega))
      obtain ⟨b1, b2⟩ := abs_lt.mp hb
      have f1 := Int.floor_le x
      have f2 := Int.lt_floor_add_one x
      rw [abs_lt]
      constructor
      · have : (-(2 ^ 53 : ℤ) : ℚ) < ⌊x⌋ := by push_cast; norm_num [-Int.self_sub_floor] at b1 ⊢; linarith
        exact_mod_cast this
      · have : (⌊x⌋ : ℚ) < (2 ^ 53 : ℤ) := by push_cast; norm_num [-Int.self_sub_floor] at b2 ⊢; linarith
        exact_mod_cast this
    unfold Row.mjd64
    rw [hdays, hd]
    have key : fl ((⌊x⌋ : ℚ) + (fromMjd64 x).fraction64) = m * 2 ^ ((k : ℤ) - 52) := by
      apply fl_near
      · rw [← hm, zpow_natCast]
        refine lt_of_le_of_ne k1 fun e => hint ?_
        rcases abs_choice x with hx' | hx'
        · rw [hx'] at e
          have : x = ((2 ^ k : ℤ) : ℚ) := by push_cast; linarith
          rw [this, Int.floor_intCast]
        · rw [hx'] at e
          have : x = ((-(2 ^ k) : ℤ) : ℚ) := by push_cast; linarith
          rw [this, Int.floor_intCast]
      · rw [← hm]; exact_mod_cast k2
      · rw [← hm]
        rw [hn, he] at f2
        have h0 : 0 ≤ x - ⌊x⌋ := by linarith [Int.floor_le x]
        have hp := fl_ulp (q := (x - ⌊x⌋) * 86400000000000) (k := 47) (by
          have := Int.lt_floor_add_one x
          rw [abs_of_nonneg (by positivity)]; norm_num [-Int.self_sub_floor]; linarith)
        have hr := roundHalfEven_near (fl ((x - ⌊x⌋) * 86400000000000))
        have hu : (2 : ℚ) ^ (-47 : ℤ) ≤ 2 ^ ((k : ℤ) - 53) := zpow_le_zpow_right₀ (by norm_num) (by omega)
        refine lt_of_lt_of_le ?_ hu
        generalize (fromMjd64 x).fraction64 = f at *
        generalize ((roundHalfEven (fl ((x - ⌊x⌋) * 86400000000000)) : ℤ) : ℚ) = a at *
        generalize fl ((x - ⌊x⌋) * 86400000000000) = b at *
        norm_num [-Int.self_sub_floor] at f2 hp ⊢
        rw [abs_le] at *
        rw [abs_lt]
        constructor <;> linarith
    rw [key, ← hm]

example : fl (fl (60000 + 1 / 3)) = fl (60000 + 1 / 3) ∧ (64 : ℚ) ≤ |fl (60000 + 1 / 3)| := by decide +kernel

/-- C194. Not true: that every float64 MJD comes back unchanged. -/
theorem C194_exact_false : ¬ ∀ x : ℚ, fl x = x → 32 ≤ x → (fromMjd64 x).mjd64 = x := by
  intro h
  have := h (32 + 2 ^ (-47 : ℤ)) (by decide +kernel) (by norm_num)
  revert this
  decide +kernel

/-- C194. A later row never has a smaller MJD, and a larger one if it is more than a unit in the last place later. -/
theorem C194_order {a b : Row} {k : ℕ} (hk : k ≤ 53) (ha : Normal a) (hb : Normal b) (da : |a.days| < 2 ^ k) (db : |b.days| < 2 ^ k) :
    (instant a ≤ instant b → a.mjd64 ≤ b.mjd64) ∧
    ((DAY : ℚ) * (2 ^ ((k : ℤ) - 53) + 2 ^ (-53 : ℤ)) < ((instant b - instant a : ℤ) : ℚ) → a.mjd64 < b.mjd64) := by
  constructor
  · intro h
    obtain ⟨a0, a1, -⟩ := fraction64_near (r := a) ⟨ha.1, ha.2.le⟩
    obtain ⟨b0, b1, -⟩ := fraction64_near (r := b) ⟨hb.1, hb.2.le⟩
    unfold Row.mjd64
    apply fl_mono
    rw [days_fl hk da, days_fl hk db]
    have han := ha.1; have han2 := ha.2; have hbn := hb.1; have hbn2 := hb.2
    unfold instant at h
    rw [DAY_eq] at *
    rcases lt_trichotomy a.days b.days with hlt | heq | hgt
    · have : (a.days : ℚ) + 1 ≤ b.days := by exact_mod_cast hlt
      linarith
    · rw [heq]
      have hnn : a.nanos ≤ b.nanos := by rw [heq] at h; omega
      have : a.fraction64 ≤ b.fraction64 := by
        unfold Row.fraction64
        apply fl_mono
        rw [day_q]
        have : fl (a.nanos : ℚ) ≤ fl (b.nanos : ℚ) := fl_mono (by exact_mod_cast hnn)
        gcongr
      linarith
    · omega
  · intro h
    have h1 := C194_mjd hk ha da
    have h2 := C194_mjd hk hb db
    have hD : ((DAY : ℤ) : ℚ) = 86400000000000 := by rw [DAY_eq]; norm_num
    have e : (2 : ℚ) ^ ((k : ℤ) - 53) = 2 * 2 ^ ((k : ℤ) - 54) := by
      rw [show (k : ℤ) - 53 = 1 + ((k : ℤ) - 54) by ring, zpow_add₀ (by norm_num), zpow_one]
    rw [e] at h
    rw [hD] at h1 h2 h
    push_cast at h
    generalize (2 : ℚ) ^ ((k : ℤ) - 54) = u at *
    norm_num [-Int.self_sub_floor] at h1 h2 h
    rw [abs_le] at h1 h2
    linarith

/-- C194. Not true: that rows at different times have different MJDs, or that a row comes back from its MJD. -/
theorem C194_distinct_false : ∃ a b : Row, Normal a ∧ Normal b ∧ instant a < instant b ∧ a.mjd64 = b.mjd64 ∧ fromMjd64 a.mjd64 ≠ a :=
  ⟨⟨60000, 1⟩, ⟨60000, 300⟩, ⟨by decide, by decide⟩, ⟨by decide, by decide⟩, by decide +kernel, by decide +kernel, by decide +kernel⟩

/-- The half of a number of days. -/
theorem half_days (m : ℤ) : (m : ℚ) * 2 ^ (-31 : ℤ) - 4800001 / 2 = ((m - 4800001 * 2 ^ 30 : ℤ) : ℚ) * 2 ^ (-31 : ℤ) := by
  push_cast
  norm_num
  ring

theorem jd_sub {x : ℚ} (hx : fl x = x) (h1 : 2 ^ 21 ≤ x) (h2 : x < 2 ^ 22) :
    ∃ m : ℤ, x = m * 2 ^ ((21 : ℤ) - 52) ∧ fl (x - 4800001 / 2) = x - 4800001 / 2 := by
  have hp : 0 ≤ x := le_trans (by norm_num) h1
  obtain ⟨m, hm⟩ := digits (k := 21) hx (by rw [abs_of_nonneg hp]; exact_mod_cast h1) (by rw [abs_of_nonneg hp]; exact_mod_cast h2)
  refine ⟨m, hm, ?_⟩
  norm_num [-Int.self_sub_floor] at hm h1 h2
  have hm' : x = m * 2 ^ (-31 : ℤ) := by rw [hm]; norm_num
  rw [hm', half_days]
  apply fl_exact
  have l1 : (2 : ℚ) ^ 52 ≤ m := by rw [hm] at h1; norm_num [-Int.self_sub_floor] at h1 ⊢; linarith
  have l2 : (m : ℚ) < 2 ^ 53 := by rw [hm] at h2; norm_num [-Int.self_sub_floor] at h2 ⊢; linarith
  have l1' : (2 : ℤ) ^ 52 ≤ m := by exact_mod_cast l1
  have l2' : m < (2 : ℤ) ^ 53 := by exact_mod_cast l2
  rw [abs_lt]
  constructor <;> omega

/-- C194. A float64 JD from 2^21 to 2^22 (from 1029 to 6771) comes back unchanged from its row. -/
theorem C194_jd_exact {x : ℚ} (hx : fl x = x) (h1 : 2 ^ 21 ≤ x) (h2 : x < 2 ^ 22) : (fromJd64 x).jd64 = x := by
  obtain ⟨m, hm, hs⟩ := jd_sub hx h1 h2
  unfold fromJd64 Row.jd64
  rw [hs]
  by_cases h64 : 64 ≤ |x - 4800001 / 2|
  · rw [C194_exact hs h64, sub_add_cancel, hx]
  · push Not at h64
    obtain ⟨e1, e2, e3⟩ := C194_from_mjd (x - 4800001 / 2)
    obtain ⟨b1, b2⟩ := abs_lt.mp h64
    have hd : |(fromMjd64 (x - 4800001 / 2)).days| < 2 ^ 7 := by
      have hdays : (fromMjd64 (x - 4800001 / 2)).days = ⌊x - 4800001 / 2⌋ := rfl
      have f1 := Int.floor_le (x - 4800001 / 2)
      have f2 := Int.lt_floor_add_one (x - 4800001 / 2)
      rw [hdays, abs_lt]
      constructor
      · have : (-(2 ^ 7 : ℤ) : ℚ) < ⌊x - 4800001 / 2⌋ := by push_cast; linarith
        exact_mod_cast this
      · have : (⌊x - 4800001 / 2⌋ : ℚ) < (2 ^ 7 : ℤ) := by push_cast; linarith
        exact_mod_cast this
    have hmj := mjd_le (by norm_num) ⟨e2, e3⟩ hd
    have hinst : ((instant (fromMjd64 (x - 4800001 / 2)) : ℤ) : ℚ) = (fromMjd64 (x - 4800001 / 2)).mjd * 86400000000000 := by
      unfold instant Row.mjd
      rw [day_q, DAY_eq]
      push_cast
      field_simp
    rw [hinst, DAY_eq] at e1
    have key : fl ((fromMjd64 (x - 4800001 / 2)).mjd64 + 4800001 / 2) = m * 2 ^ ((21 : ℤ) - 52) := by
      apply fl_near
      · rw [← hm, abs_of_pos (by linarith)]; norm_num [-Int.self_sub_floor]; linarith
      · rw [← hm, abs_of_pos (by linarith)]; norm_num [-Int.self_sub_floor]; linarith
      · rw [← hm]
        generalize (fromMjd64 (x - 4800001 / 2)).mjd64 = f at *
        generalize (fromMjd64 (x - 4800001 / 2)).mjd = g at *
        norm_num [-Int.self_sub_floor] at hmj e1 ⊢
        rw [abs_le] at hmj e1
        rw [abs_lt]
        constructor <;> linarith
    rw [key, ← hm]

example : fl 2460000.5 = 2460000.5 ∧ (2 : ℚ) ^ 21 ≤ 2460000.5 ∧ (2460000.5 : ℚ) < 2 ^ 22 := by decide +kernel

/-- C194. The MJD of a float64 JD, as of the times of periapsis in the answers of SBDB and Horizons (sbdb.py:578, horizons.py:381), is exactly
2400000.5 less, if it is 64 or more days from MJD 0. -/
theorem C194_jd_mjd {x : ℚ} (hx : fl x = x) (h1 : 2 ^ 21 ≤ x) (h2 : x < 2 ^ 22) (h : 64 ≤ |x - 4800001 / 2|) :
    (fromJd64 x).mjd64 = x - 4800001 / 2 := by
  obtain ⟨-, -, hs⟩ := jd_sub hx h1 h2
  unfold fromJd64
  rw [hs, C194_exact hs h]

/-- C194. From a row to its JD and back at most 20.431 microseconds are lost, for MJDs below 2^16. -/
theorem C194_jd_round_trip {r : Row} (hr : Normal r) (hd : |r.days| < 2 ^ 16) : |instant (fromJd64 r.jd64) - instant r| ≤ 20431 := by
  have h1 := C194_mjd (k := 16) (by norm_num) hr hd
  obtain ⟨f0, f1, -⟩ := fraction64_near (r := r) ⟨hr.1, hr.2.le⟩
  obtain ⟨d1, d2⟩ := abs_lt.mp hd
  have d1' : -(2 : ℚ) ^ 16 + 1 ≤ r.days := by have : -(2 : ℤ) ^ 16 + 1 ≤ r.days := by omega
                                              exact_mod_cast this
  have d2' : (r.days : ℚ) + 1 ≤ 2 ^ 16 := by have : r.days + 1 ≤ (2 : ℤ) ^ 16 := by omega
                                             exact_mod_cast this
  have p16 : fl (2 ^ 16 : ℚ) = 2 ^ 16 := by decide +kernel
  have n16 : fl (-2 ^ 16 : ℚ) = -2 ^ 16 := by decide +kernel
  have m1 : r.mjd64 ≤ 2 ^ 16 := by
    unfold Row.mjd64; rw [days_fl (by norm_num : 16 ≤ 53) hd]; exact fl_le_of_le p16 (by linarith)
  have m2 : -2 ^ 16 ≤ r.mjd64 := by
    unfold Row.mjd64; rw [days_fl (by norm_num : 16 ≤ 53) hd]; exact le_fl_of_le n16 (by linarith)
  have hj := fl_ulp (q := r.mjd64 + 4800001 / 2) (k := 22) (by rw [abs_of_pos (by norm_num [-Int.self_sub_floor] at m2; linarith)]; norm_num [-Int.self_sub_floor] at m1 ⊢; linarith)
  have hf : fl r.jd64 = r.jd64 := fl_fl _
  have j1 : 2 ^ 21 ≤ r.jd64 := by
    unfold Row.jd64; exact le_fl_of_le (by decide +kernel) (by norm_num [-Int.self_sub_floor] at m2 ⊢; linarith)
  have j2 : r.jd64 ≤ 2 ^ 22 - 1 := by
    unfold Row.jd64; exact fl_le_of_le (by decide +kernel) (by norm_num [-Int.self_sub_floor] at m1 ⊢; linarith)
  obtain ⟨-, -, hs⟩ := jd_sub hf j1 (by linarith)
  have h2 := (C194_from_mjd (r.jd64 - 4800001 / 2)).1
  unfold fromJd64
  rw [hs]
  have e : fl (r.mjd64 + 4800001 / 2) = r.jd64 := rfl
  rw [e] at hj
  have hD : ((DAY : ℤ) : ℚ) = 86400000000000 := by rw [DAY_eq]; norm_num
  rw [hD] at h1 h2
  have : |((instant (fromMjd64 (r.jd64 - 4800001 / 2)) - instant r : ℤ) : ℚ)| < 20432 := by
    push_cast
    norm_num [-Int.self_sub_floor] at h1 h2 hj
    rw [abs_le] at h1 h2 hj
    rw [abs_lt]
    constructor <;> linarith
  have : |instant (fromMjd64 (r.jd64 - 4800001 / 2)) - instant r| < 20432 := by exact_mod_cast this
  omega

/-- C194. The ET of a TDB row of 1948 to 2038 is off by at most 0.44 microseconds. -/
theorem C194_et {r : Row} (hr : Normal r) (h1 : 2 ^ 15 ≤ r.days) (h2 : r.days < 2 ^ 16) :
    |r.et64 - (((instant r : ℤ) : ℚ) / 10 ^ 9 - 103089 / 2 * 86400)| ≤ 44 / 10 ^ 8 := by
  have hd : |r.days| < 2 ^ 16 := by rw [abs_lt]; constructor <;> omega
  have hm := C194_mjd (k := 16) (by norm_num) hr hd
  obtain ⟨f0, f1, -⟩ := fraction64_near (r := r) ⟨hr.1, hr.2.le⟩
  have d1' : (2 : ℚ) ^ 15 ≤ r.days := by exact_mod_cast h1
  have d2' : (r.days : ℚ) + 1 ≤ 2 ^ 16 := by have : r.days + 1 ≤ (2 : ℤ) ^ 16 := by omega
                                             exact_mod_cast this
  have m1 : r.mjd64 ≤ 2 ^ 16 := by
    unfold Row.mjd64; rw [days_fl (by norm_num : 16 ≤ 53) hd]; exact fl_le_of_le (by decide +kernel) (by linarith)
  have m2 : 2 ^ 15 ≤ r.mjd64 := by
    unfold Row.mjd64; rw [days_fl (by norm_num : 16 ≤ 53) hd]; exact le_fl_of_le (by decide +kernel) (by linarith)
  have m0 : 0 ≤ r.mjd64 := le_trans (by norm_num) m2
  have hs : fl (r.mjd64 - 103089 / 2) = r.mjd64 - 103089 / 2 := by
    rcases m1.lt_or_eq with hlt | heq
    · obtain ⟨m, hmm⟩ := digits (k := 15) (show fl r.mjd64 = r.mjd64 from fl_fl _) (by rw [abs_of_nonneg m0]; exact_mod_cast m2)
        (by rw [abs_of_nonneg m0]; exact_mod_cast hlt)
      have hmm' : r.mjd64 - 103089 / 2 = ((m - 103089 * 2 ^ 36 : ℤ) : ℚ) * 2 ^ (-37 : ℤ) := by
        rw [hmm]; push_cast; norm_num; ring
      rw [hmm']
      apply fl_exact
      norm_num [-Int.self_sub_floor] at hmm
      have l1 : (2 : ℚ) ^ 52 ≤ m := by rw [hmm] at m2; norm_num [-Int.self_sub_floor] at m2 ⊢; linarith
      have l2 : (m : ℚ) < 2 ^ 53 := by rw [hmm] at hlt; norm_num [-Int.self_sub_floor] at hlt ⊢; linarith
      have l1' : (2 : ℤ) ^ 52 ≤ m := by exact_mod_cast l1
      have l2' : m < (2 : ℤ) ^ 53 := by exact_mod_cast l2
      rw [abs_lt]
      constructor <;> omega
    · rw [heq]; decide +kernel
  have hp := fl_ulp (q := (r.mjd64 - 103089 / 2) * 86400) (k := 31) (by
    rw [abs_le]; norm_num [-Int.self_sub_floor] at m1 m2 ⊢; constructor <;> linarith)
  unfold Row.et64
  rw [hs]
  have hD : ((DAY : ℤ) : ℚ) = 86400000000000 := by rw [DAY_eq]; norm_num
  rw [hD] at hm
  norm_num [-Int.self_sub_floor] at hm hp ⊢
  rw [abs_le] at *
  constructor <;> linarith

example : (0 ≤ (1 : ℤ) ∧ 1 < DAY) ∧ 2 ^ 15 ≤ (⟨60000, 1⟩ : Row).days ∧ (⟨60000, 1⟩ : Row).days < 2 ^ 16 := by decide +kernel

/-- C194. `from_et` takes its number as seconds since MJD 0, and is off by less than 315 nanoseconds within 2^16 days. -/
theorem C194_from_et {x : ℚ} (h : |x| ≤ 86400 * 2 ^ 16) : |((instant (fromEt64 x) : ℤ) : ℚ) - x * 10 ^ 9| < 315 := by
  have hb : |x / 86400| ≤ 2 ^ (16 : ℤ) := by
    rw [abs_div, div_le_iff₀ (by norm_num)]
    norm_num at h ⊢
    exact h
  have h1 := fl_ulp hb
  have h2 := (C194_from_mjd (fl (x / 86400))).1
  unfold fromEt64
  have hD : ((DAY : ℤ) : ℚ) = 86400000000000 := by rw [DAY_eq]; norm_num
  rw [hD] at h2
  norm_num at h1 h2 ⊢
  rw [abs_le] at h1 h2
  rw [abs_lt]
  constructor <;> linarith

example : |(10 ^ 9 : ℚ)| ≤ 86400 * 2 ^ 16 := by decide +kernel

end Verif.Time.FloatProps
