import Verif.Kep.Lemmas
import Mathlib.Analysis.Real.Pi.Bounds

/-! # Properties of the anomalies (C36, C37, C97) -/

namespace Verif.Kep.Props

open Verif Verif.Kep Real

/-! ## C36: the mean anomaly -/

/-- C36. On an ellipse the result is the mean anomaly of the true anomaly, in `[0, 2π)`, for every real true anomaly; and every
other mean anomaly of the same true anomaly differs from it by full turns. -/
theorem C36_elliptic (e ν : ℝ) (he : 0 ≤ e ∧ e < 1) :
    ∃ M, calcMeanAnomaly ν e = some M ∧ 0 ≤ M ∧ M < 2 * π ∧ EllipticMean e ν M ∧
      ∀ M', EllipticMean e ν M' → ∃ k : ℤ, M' = M - k * (2 * π) := by
  have hp := ell_pos' he ν
  obtain ⟨hs, hq⟩ := sqrt_ell he
  have hν := Real.sin_sq_add_cos_sq ν
  obtain ⟨hc, hs', lo, hi⟩ := arctan2_spec (y := √(1 - e ^ 2) * sin ν) (x := e + cos ν) hp (by
    rw [mul_pow, hs]; linear_combination (1 - e ^ 2) * hν)
  set E := arctan2 (√(1 - e ^ 2) * sin ν) (e + cos ν) with hE
  have hat : EllipticAt e ν E := (elliptic_inv he).mpr ⟨hc, hs'⟩
  have hcode : calcMeanAnomaly ν e = some (lift (E - e * sin E)) := by
    unfold calcMeanAnomaly ellipticalAnomalies
    rw [if_pos he.2]
    simp only [cos_wrapNu, sin_wrapNu, ← hE]
  have hb := sin_bound he E
  have main : 0 ≤ lift (E - e * sin E) ∧ lift (E - e * sin E) < 2 * π ∧ EllipticMean e ν (lift (E - e * sin E)) := by
    have hp2 := Real.two_pi_pos
    have s1 := Real.sin_le_one E
    have s2 := Real.neg_one_le_sin E
    have hpi := Real.pi_gt_three
    unfold lift
    split
    · next hneg =>
      refine ⟨by nlinarith, by linarith, E + 2 * π, (elliptic_congr ⟨rfl, rfl⟩ ⟨?_, ?_⟩).mpr hat, ?_⟩
      · exact Real.cos_add_two_pi E
      · exact Real.sin_add_two_pi E
      · rw [Real.sin_add_two_pi]; ring
    · next hneg => exact ⟨not_lt.mp hneg, by nlinarith, E, hat, rfl⟩
  exact ⟨_, hcode, main.1, main.2.1, main.2.2, fun M' h => elliptic_mean_unique he main.2.2 h⟩

example : (0 : ℝ) ≤ 1 / 2 ∧ (1 / 2 : ℝ) < 1 := by norm_num

theorem hyperbolic_value (e ν : ℝ) (he : 1 < e) (h : 0 < 1 + e * cos ν) :
    ∃ H, HyperbolicAt e ν H ∧ calcMeanAnomaly ν e = some (lift (e * sinh H - H)) ∧ (H < 0 ↔ sin ν < 0) := by
  obtain ⟨hq, hp⟩ := sqrt_hyp he
  obtain ⟨k, hk⟩ := wrapNu_spec ν
  have hcw := cos_wrapNu ν
  have hsw := sin_wrapNu ν
  set w := wrapNu ν / 2 with hw
  have cw : cos ν = 2 * cos w ^ 2 - 1 := by
    rw [← hcw, ← Real.cos_two_mul]; congr 1; rw [hw]; ring
  have sw : sin ν = 2 * sin w * cos w := by
    rw [← hsw, ← Real.sin_two_mul]; congr 1; rw [hw]; ring
  have hww := Real.sin_sq_add_cos_sq w
  have hc0 : cos w ≠ 0 := by
    intro h0; rw [cw, h0] at h; nlinarith
  have e1 : 0 < e - 1 := by linarith
  have e2 : 0 < e + 1 := by linarith
  have hs := Real.sq_sqrt (show 0 ≤ (e - 1) / (e + 1) by positivity)
  set x := √((e - 1) / (e + 1)) * tan w with hx
  have hxx : x ^ 2 * ((e + 1) * cos w ^ 2) = (e - 1) * sin w ^ 2 := by
    rw [hx, mul_pow, hs, Real.tan_eq_sin_div_cos]; field_simp
  have hx1 : x ^ 2 < 1 := by
    have hpos : 0 < (e + 1) * cos w ^ 2 := by positivity
    have : x ^ 2 * ((e + 1) * cos w ^ 2) < 1 * ((e + 1) * cos w ^ 2) := by
      rw [hxx]; rw [cw] at h; nlinarith
    exact lt_of_mul_lt_mul_right this hpos.le
  have hxabs : |x| < 1 := by
    rw [← sq_lt_one_iff_abs_lt_one]; exact hx1
  have hmem : x ∈ Set.Ioo (-1 : ℝ) 1 := abs_lt.mp hxabs
  have h1x : 0 < 1 - x ^ 2 := by linarith
  have ss := Real.sqrt_pos.mpr h1x
  have ss2 := Real.sq_sqrt h1x.le
  have hcosh := Real.cosh_artanh hmem
  have hsinh := Real.sinh_artanh hmem
  have hC : cosh (2 * artanh x) * (1 - x ^ 2) = 1 + x ^ 2 := by
    rw [Real.cosh_two_mul, hcosh, hsinh, div_pow, div_pow, ss2]; field_simp
  have hS : sinh (2 * artanh x) * (1 - x ^ 2) = 2 * x := by
    rw [Real.sinh_two_mul, hcosh, hsinh]
    have : 2 * (x / √(1 - x ^ 2)) * (1 / √(1 - x ^ 2)) = 2 * x / √(1 - x ^ 2) ^ 2 := by field_simp
    rw [this, ss2]; field_simp
  have hD : (1 - x ^ 2) * ((e + 1) * cos w ^ 2) = 1 + e * cos ν := by
    rw [cw]; linear_combination -hxx + (1 - e) * hww
  have hN : (1 + x ^ 2) * ((e + 1) * cos w ^ 2) = e + cos ν := by
    rw [cw]; linear_combination hxx - (1 - e) * hww
  have hcw0 : (e + 1) * cos w ^ 2 ≠ 0 := by positivity
  have hX : x * ((e + 1) * cos w ^ 2) * 2 = √(e ^ 2 - 1) * sin ν := by
    have : √((e - 1) / (e + 1)) * (e + 1) = √(e ^ 2 - 1) := by
      rw [show e ^ 2 - 1 = (e - 1) / (e + 1) * (e + 1) ^ 2 by field_simp; ring, Real.sqrt_mul (by positivity),
        Real.sqrt_sq e2.le]
    rw [hx, Real.tan_eq_sin_div_cos, ← this, sw]; field_simp
  refine ⟨2 * artanh x, (hyperbolic_inv he h).mpr ⟨?_, ?_⟩, ?_, ?_⟩
  · rw [eq_div_iff h.ne', ← hD, ← hN, ← hC]; ring
  · rw [eq_div_iff h.ne', ← hD, ← hX]; linear_combination (e + 1) * cos w ^ 2 * hS
  · unfold calcMeanAnomaly hyperbolicAnomalies
    rw [if_neg (by linarith), if_pos he]
    simp only [← hw, ← hx]
    rw [if_neg (by rintro (h | h) <;> [exact hc0 h; exact h hxabs])]
    rfl
  · have h1 : (2 * artanh x < 0) ↔ sinh (2 * artanh x) < 0 := Real.sinh_neg_iff.symm
    rw [h1]
    have h2 : sinh (2 * artanh x) * (1 + e * cos ν) = √(e ^ 2 - 1) * sin ν := by
      rw [← hD, ← hX]; linear_combination (e + 1) * cos w ^ 2 * hS
    clear_value x w
    constructor
    · intro h4
      by_contra hcon
      have h5 := mul_nonneg hp.le (not_lt.mp hcon)
      have h6 := mul_neg_of_neg_of_pos h4 h
      linarith
    · intro h4
      by_contra hcon
      have h5 := mul_neg_of_pos_of_neg hp h4
      have h6 := mul_nonneg (not_lt.mp hcon) h.le
      linarith

/-- C36, the hyperbolic part: after periapsis the result is the mean anomaly of the true anomaly, before periapsis it is the mean
anomaly plus `2π`. -/
theorem C36_hyperbolic (e ν : ℝ) (he : 1 < e) (h : 0 < 1 + e * cos ν) :
    ∃ M, HyperbolicMean e ν M ∧ (∀ M', HyperbolicMean e ν M' → M' = M) ∧ (M < 0 ↔ sin ν < 0) ∧
      calcMeanAnomaly ν e = some (if sin ν < 0 then M + 2 * π else M) := by
  obtain ⟨H, hat, hcode, hsign⟩ := hyperbolic_value e ν he h
  have hb := sinh_bound he H
  have hm : e * sinh H - H < 0 ↔ sin ν < 0 := by
    rw [← hsign]
    constructor
    · intro h1
      by_contra hc
      linarith [hb.2 (not_lt.mp hc)]
    · exact hb.1
  refine ⟨e * sinh H - H, ⟨H, hat, rfl⟩, fun M' h' => hyperbolic_mean_unique he ⟨H, hat, rfl⟩ h', hm, ?_⟩
  rw [hcode]
  unfold lift
  by_cases hc : sin ν < 0
  · rw [if_pos hc, if_pos (hm.mpr hc)]
  · rw [if_neg hc, if_neg (fun h => hc (hm.mp h))]

example : (1 : ℝ) < 2 ∧ 0 < 1 + 2 * cos (-(π / 3)) := by
  refine ⟨by norm_num, ?_⟩
  rw [Real.cos_neg, Real.cos_pi_div_three]; norm_num

/-- C36 is false as stated: on no hyperbola is the result right before periapsis. -/
theorem C36_hyperbolic_false (e ν : ℝ) (he : 1 < e) (h : 0 < 1 + e * cos ν) (hneg : sin ν < 0) :
    ∃ M, calcMeanAnomaly ν e = some M ∧ ¬ HyperbolicMean e ν M := by
  obtain ⟨M, -, hu, -, hc⟩ := C36_hyperbolic e ν he h
  rw [if_pos hneg] at hc
  refine ⟨_, hc, fun hm => ?_⟩
  have := hu _ hm
  linarith [Real.two_pi_pos]

example : (1 : ℝ) < 2 ∧ 0 < 1 + 2 * cos (-(π / 3)) ∧ sin (-(π / 3)) < 0 := by
  refine ⟨by norm_num, ?_, ?_⟩
  · rw [Real.cos_neg, Real.cos_pi_div_three]; norm_num
  · rw [Real.sin_neg, Real.sin_pi_div_three]
    have : (0 : ℝ) < √3 := Real.sqrt_pos.mpr (by norm_num)
    linarith

/-- C36. A true anomaly that the hyperbola does not reach has no mean anomaly. -/
theorem C36_unreachable (e ν : ℝ) (he : 1 < e) (h : 1 + e * cos ν ≤ 0) :
    calcMeanAnomaly ν e = none ∧ ∀ M, ¬ HyperbolicMean e ν M := by
  constructor
  · unfold calcMeanAnomaly hyperbolicAnomalies
    rw [if_neg (by linarith), if_pos he]
    have hcw := cos_wrapNu ν
    simp only
    set w := wrapNu ν / 2 with hw
    have cw : cos ν = 2 * cos w ^ 2 - 1 := by
      rw [← hcw, ← Real.cos_two_mul]; congr 1; rw [hw]; ring
    have hww := Real.sin_sq_add_cos_sq w
    have e1 : 0 < e - 1 := by linarith
    have e2 : 0 < e + 1 := by linarith
    have hs := Real.sq_sqrt (show 0 ≤ (e - 1) / (e + 1) by positivity)
    rw [if_pos]
    · rfl
    by_cases hc0 : cos w = 0
    · exact Or.inl hc0
    · right
      intro hlt
      rw [← sq_lt_one_iff_abs_lt_one, mul_pow, hs, Real.tan_eq_sin_div_cos] at hlt
      have hpos : 0 < (e + 1) * cos w ^ 2 := by positivity
      have : (e - 1) / (e + 1) * (sin w / cos w) ^ 2 * ((e + 1) * cos w ^ 2) = (e - 1) * sin w ^ 2 := by field_simp
      rw [cw] at h
      nlinarith [mul_lt_mul_of_pos_right hlt hpos]
  · rintro M ⟨H, hH, -⟩
    linarith [hyperbolic_range he hH]

example : (1 : ℝ) < 2 ∧ 1 + 2 * cos π ≤ 0 := by rw [Real.cos_pi]; norm_num

/-- C36 is false as stated: on a parabola the result is below the mean anomaly at every true anomaly after periapsis. -/
theorem C36_parabolic_false (ν : ℝ) (h : 0 < ν ∧ ν < π) :
    ∃ M, calcMeanAnomaly ν 1 = some M ∧ (∀ M', ParabolicMean ν M' → M < M') ∧ ∃ M', ParabolicMean ν M' := by
  have hw : wrapNu ν = ν := by
    unfold wrapNu; rw [if_neg (by linarith [Real.pi_pos])]
  have h0 : 0 < ν / 2 := by linarith
  have h1 : ν / 2 < π / 2 := by linarith
  have ht : ν / 2 < tan (ν / 2) := Real.lt_tan h0 h1
  have ha : arctan (ν / 2) < ν / 2 := by
    have := Real.arctan_strictMono ht
    rwa [Real.arctan_tan (by linarith) h1] at this
  have hpos : 0 < arctan (ν / 2) := Real.arctan_pos.mpr h0
  have hcode : calcMeanAnomaly ν 1 = some (arctan (ν / 2) + arctan (ν / 2) ^ 3 / 3) := by
    unfold calcMeanAnomaly parabolicAnomalies lift
    rw [if_neg (lt_irrefl 1), if_neg (lt_irrefl 1)]
    simp only [hw]
    rw [if_neg (not_lt.mpr (by positivity))]
  refine ⟨_, hcode, ?_, _, (Real.cos_pos_of_mem_Ioo ⟨by linarith, h1⟩).ne', rfl⟩
  rintro M' ⟨-, rfl⟩
  have hlt : arctan (ν / 2) < tan (ν / 2) := ha.trans ht
  have := pow_lt_pow_left₀ hlt hpos.le (n := 3) (by norm_num)
  linarith

example : 0 < π / 2 ∧ π / 2 < π := ⟨by positivity, by linarith [Real.pi_pos]⟩

/-! ## C37: Barker's equation -/

/-- C37, what the function does: it solves Barker's equation for twice its argument, with a true anomaly in `(-π, π)`. -/
theorem C37_twice (M : ℝ) : ParabolicMean (solveBarker M) (2 * M) ∧ -π < solveBarker M ∧ solveBarker M < π := by
  set z := 3 * M + √((3 * M) ^ 2 + 1) with hz
  have hq := Real.sq_sqrt (show 0 ≤ (3 * M) ^ 2 + 1 by positivity)
  have hz0 : 0 < z := by
    have h1 : |3 * M| < √((3 * M) ^ 2 + 1) := by
      rw [← Real.sqrt_sq_eq_abs]
      exact Real.sqrt_lt_sqrt (by positivity) (by linarith)
    have h2 := neg_abs_le (3 * M)
    rw [hz]; linarith
  have hinv : z ^ (-(1 : ℝ) / 3) = (z ^ ((1 : ℝ) / 3))⁻¹ := by
    rw [← Real.rpow_neg hz0.le]; norm_num
  set c := z ^ ((1 : ℝ) / 3) with hc
  have hc0 : 0 < c := Real.rpow_pos_of_pos hz0 _
  have hc3 : c ^ 3 = z := by
    rw [hc, ← Real.rpow_natCast, ← Real.rpow_mul hz0.le]; norm_num
  have hzz : z * (√((3 * M) ^ 2 + 1) - 3 * M) = 1 := by rw [hz]; linear_combination hq
  have hb : solveBarker M = 2 * arctan (c - c⁻¹) := by
    unfold solveBarker
    rw [← hz, hinv]
  rw [hb]
  refine ⟨⟨?_, ?_⟩, by linarith [Real.neg_pi_div_two_lt_arctan (c - c⁻¹)], by linarith [Real.arctan_lt_pi_div_two (c - c⁻¹)]⟩
  · rw [mul_div_cancel_left₀ _ two_ne_zero]; exact (Real.cos_arctan_pos _).ne'
  · rw [mul_div_cancel_left₀ _ two_ne_zero, Real.tan_arctan]
    have h1 : (c - c⁻¹) + (c - c⁻¹) ^ 3 / 3 = (c ^ 3 - (c ^ 3)⁻¹) / 3 := by field_simp; ring
    have h2 : z⁻¹ = √((3 * M) ^ 2 + 1) - 3 * M := (eq_inv_of_mul_eq_one_right hzz).symm
    rw [h1, hc3, h2, hz]; ring

/-- C37 is false as stated: for no argument but zero does the function solve Barker's equation. -/
theorem C37_false (M : ℝ) (h : M ≠ 0) : ¬ ParabolicMean (solveBarker M) M := by
  intro hm
  have h2 := (C37_twice M).1.2
  rw [hm.2] at h2
  exact h (by linarith)

/-! ## C97: solving Kepler's equation -/

/-- C97. The result is in `[0, 2π)`, for every eccentricity, mean anomaly and tolerance. -/
theorem C97_range (e M : ℝ) (he : 0 ≤ e) (maxIter : Nat) (tol : ℝ) :
    0 ≤ solveKepler e M maxIter tol ∧ solveKepler e M maxIter tol < 2 * π := by
  have hp := Real.pi_pos
  have : -(2 * π) ≤ rawNu e M (solveIter e M maxIter tol).x := by
    rcases lt_trichotomy e 1 with h | h | h
    · exact (rawNu_elliptic ⟨he, h⟩).2
    · unfold rawNu
      rw [if_neg (by linarith), if_neg (by linarith)]
      linarith [(C37_twice M).2.1]
    · linarith [(rawNu_hyperbolic (m := M) (H := (solveIter e M maxIter tol).x) h).2.1]
  exact ⟨(wrapTrue_spec this).1, (wrapTrue_spec this).2.1⟩

/-- C97. When the iteration stops before it exhausts its steps, the result on an ellipse is the true anomaly of a mean anomaly
that differs from the requested one by at most `e tol²`. -/
theorem C97_elliptic (e M : ℝ) (he : 0 ≤ e ∧ e < 1) (maxIter : Nat) (tol : ℝ) (ht : tol < 1e15)
    (hconv : (solveIter e M maxIter tol).iterations ≤ maxIter) :
    ∃ M', EllipticMean e (solveKepler e M maxIter tol) M' ∧ |M' - M| ≤ e * tol ^ 2 := by
  have hs : solveIter e M maxIter tol = iterate (ellF e M) (ellFp e) M maxIter tol := by
    unfold solveIter; rw [if_pos he.2]
  obtain ⟨⟨x, hx, hr⟩, hend, -⟩ := iterate_spec (ellF e M) (ellFp e) M maxIter ht
  rw [← hs] at hx hr hend
  obtain ⟨hat, hlo⟩ := rawNu_elliptic (m := M) (E := (solveIter e M maxIter tol).x) he
  set E := (solveIter e M maxIter tol).x with hE
  refine ⟨E - e * sin E, ⟨E, ?_, rfl⟩, ?_⟩
  · exact (elliptic_congr (angle_congr (wrapTrue_spec hlo).2.2) ⟨rfl, rfl⟩).mpr hat
  · have hn := ell_newton (m := M) (E := x) he
    rw [← hx, ← hr] at hn
    have h1 : |(solveIter e M maxIter tol).ratio| ≤ tol := by
      rcases hend with h | h
      · exact h
      · omega
    refine hn.trans (mul_le_mul_of_nonneg_left ?_ he.1)
    rw [← sq_abs]
    exact pow_le_pow_left₀ (abs_nonneg _) h1 2

/-- C97. The same on a hyperbola; the bound is `e tol² sinh(|H| + tol)` for the hyperbolic anomaly `H` of the result. -/
theorem C97_hyperbolic (e M : ℝ) (he : 1 < e) (maxIter : Nat) (tol : ℝ) (ht : tol < 1e15)
    (hconv : (solveIter e M maxIter tol).iterations ≤ maxIter) :
    ∃ H, HyperbolicAt e (solveKepler e M maxIter tol) H ∧
      |e * sinh H - H - M| ≤ e * (tol ^ 2 * sinh (|H| + tol)) := by
  have hs : solveIter e M maxIter tol = iterate (hypF e M) (hypFp e) M maxIter tol := by
    unfold solveIter; rw [if_neg (by linarith), if_pos he]
  obtain ⟨⟨x, hx, hr⟩, hend, -⟩ := iterate_spec (hypF e M) (hypFp e) M maxIter ht
  rw [← hs] at hx hr hend
  obtain ⟨hat, hlo, -⟩ := rawNu_hyperbolic (m := M) (H := (solveIter e M maxIter tol).x) he
  set H := (solveIter e M maxIter tol).x with hH
  refine ⟨H, ?_, ?_⟩
  · obtain ⟨hc, hs⟩ := angle_congr (wrapTrue_spec (nu := rawNu e M H) (by linarith [Real.pi_pos])).2.2
    unfold HyperbolicAt solveKepler
    rw [← hH, hc, hs]
    exact hat
  · have hn := hyp_newton (m := M) (E := x) he
    rw [← hx, ← hr] at hn
    have h1 : |(solveIter e M maxIter tol).ratio| ≤ tol := by
      rcases hend with h | h
      · exact h
      · omega
    refine hn.trans (mul_le_mul_of_nonneg_left ?_ (by linarith))
    have h2 : (solveIter e M maxIter tol).ratio ^ 2 ≤ tol ^ 2 := by
      rw [← sq_abs]; exact pow_le_pow_left₀ (abs_nonneg _) h1 2
    refine mul_le_mul h2 (Real.sinh_le_sinh.mpr (by linarith)) ?_ (by positivity)
    exact Real.sinh_nonneg_iff.mpr (by positivity)

/-- C97. There is one true anomaly in `[0, 2π)` for each mean anomaly on an ellipse. -/
theorem C97_unique (e M : ℝ) (he : 0 ≤ e ∧ e < 1) : ∃! ν, (0 ≤ ν ∧ ν < 2 * π) ∧ EllipticMean e ν M := by
  obtain ⟨E, hE⟩ := ell_surjective he M
  obtain ⟨hat, hlo⟩ := rawNu_elliptic (m := M) (E := E) he
  obtain ⟨h0, h1, h2⟩ := wrapTrue_spec hlo
  refine ⟨wrapTrue (rawNu e M E), ⟨⟨h0, h1⟩, E, (elliptic_congr (angle_congr h2) ⟨rfl, rfl⟩).mpr hat, hE.symm⟩, ?_⟩
  rintro ν ⟨hν, E', hE', hM⟩
  have hEE : E' = E := (ell_strictMono he).injective (show E' - e * sin E' = E - e * sin E by rw [← hM]; exact hE.symm)
  rw [hEE] at hE'
  have hp := (ell_pos he E).ne'
  have hat' := (elliptic_congr (e := e) (E := E) (E' := E) (angle_congr h2) ⟨rfl, rfl⟩).mpr hat
  exact angle_unique hν ⟨h0, h1⟩ (mul_left_cancel₀ hp (hE'.1.trans hat'.1.symm)) (mul_left_cancel₀ hp (hE'.2.trans hat'.2.symm))

/-- C97. The two functions undo each other on ellipses: when the iteration ends on a root of Kepler's equation, the mean anomaly of
the true anomaly is the mean anomaly, and the true anomaly of the mean anomaly is the true anomaly. -/
theorem C97_round_trip (e : ℝ) (he : 0 ≤ e ∧ e < 1) (maxIter : Nat) (tol : ℝ) (M : ℝ) (hM : 0 ≤ M ∧ M < 2 * π)
    (hroot : EllipticMean e (solveKepler e M maxIter tol) M) :
    calcMeanAnomaly (solveKepler e M maxIter tol) e = some M ∧
    ∀ ν, 0 ≤ ν ∧ ν < 2 * π → calcMeanAnomaly ν e = some M → solveKepler e M maxIter tol = ν := by
  obtain ⟨M', hc, h0, h1, -, hu⟩ := C36_elliptic e (solveKepler e M maxIter tol) he
  obtain ⟨k, hk⟩ := hu M hroot
  have hp := Real.two_pi_pos
  have k1 : (k : ℝ) < 1 := by nlinarith
  have k2 : (-1 : ℝ) < k := by nlinarith
  have k1' : k < 1 := by exact_mod_cast k1
  have k2' : -1 < k := by exact_mod_cast k2
  have hk0 : k = 0 := by omega
  have hMM : M' = M := by rw [hk, hk0]; simp
  refine ⟨by rw [hc, hMM], fun ν hν h => ?_⟩
  obtain ⟨M2, hc2, -, -, hm2, -⟩ := C36_elliptic e ν he
  rw [h] at hc2
  have : M2 = M := (Option.some_inj.mp hc2).symm
  rw [this] at hm2
  obtain ⟨ν0, -, huniq⟩ := C97_unique e M he
  rw [huniq ν ⟨hν, hm2⟩, huniq _ ⟨C97_range e M he.1 maxIter tol, hroot⟩]

/-- C97. The number of steps is at most one more than `max_iter`. -/
theorem C97_iterations (e M : ℝ) (maxIter : Nat) (tol : ℝ) (ht : tol < 1e15) :
    (solveIter e M maxIter tol).iterations ≤ maxIter + 1 := by
  unfold solveIter
  split
  · exact (iterate_spec _ _ M maxIter ht).2.2
  · split
    · exact (iterate_spec _ _ M maxIter ht).2.2
    · exact Nat.zero_le _

/-- A run that meets the hypotheses of `C97_elliptic` and `C97_round_trip`: apoapsis, in two steps at most. -/
theorem apoapsis_run (e : ℝ) (he : 0 ≤ e ∧ e < 1) :
    (solveIter e π 100 1e-15).iterations ≤ 100 ∧ EllipticMean e (solveKepler e π 100 1e-15) π := by
  have hit : solveIter e π 100 1e-15 = ⟨π, 0, 1⟩ := by
    have hs : step (ellF e π) (ellFp e) ⟨π, 1e15, 0⟩ = ⟨π, 0, 1⟩ := by
      unfold step ellF; simp
    unfold solveIter iterate
    rw [if_pos he.2]
    show loop _ _ _ _ (99 + 1 + 1) _ = _
    rw [loop, if_pos ⟨by
      show |(1e15 : ℝ)| > 1e-15
      rw [abs_of_pos (by norm_num)]; norm_num, by norm_num⟩, hs, loop, if_neg]
    simp only [abs_zero, not_and]
    intro h; norm_num at h
  refine ⟨by rw [hit]; norm_num, ?_⟩
  obtain ⟨hat, hlo⟩ := rawNu_elliptic (m := π) (E := π) he
  refine ⟨π, ?_, by simp⟩
  unfold solveKepler
  rw [hit]
  exact (elliptic_congr (angle_congr (wrapTrue_spec hlo).2.2) ⟨rfl, rfl⟩).mpr hat

/-- C97 needs the iteration to have converged: a result of exhausted iterations is returned all the same, and it can be wrong. -/
theorem C97_unconverged_false :
    ¬ ∀ (e M : ℝ) (maxIter : Nat) (tol : ℝ), 0 ≤ e ∧ e < 1 → 0 < tol ∧ tol < 1e-3 →
      ∃ M', EllipticMean e (solveKepler e M maxIter tol) M' ∧ |M' - M| ≤ e * tol ^ 2 := by
  intro hall
  have he : (0 : ℝ) ≤ 1 / 2 ∧ (1 / 2 : ℝ) < 1 := by norm_num
  obtain ⟨M', hm, hb⟩ := hall (1 / 2) (π / 2) 0 1e-4 he (by norm_num)
  have hit : (solveIter (1 / 2) (π / 2) 0 1e-4).x = π / 2 + 1 / 2 := by
    unfold solveIter iterate
    rw [if_pos he.2]
    show (loop _ _ _ _ (0 + 1) _).x = _
    rw [loop, if_pos ⟨by
      show |(1e15 : ℝ)| > 1e-4
      rw [abs_of_pos (by norm_num)]; norm_num, le_rfl⟩]
    simp only [loop, step, ellF, ellFp, Real.sin_pi_div_two, Real.cos_pi_div_two]
    norm_num
  obtain ⟨hat, hlo⟩ := rawNu_elliptic (m := π / 2) (E := π / 2 + 1 / 2) he
  have hm2 : EllipticMean (1 / 2) (solveKepler (1 / 2) (π / 2) 0 1e-4) (π / 2 + 1 / 2 - 1 / 2 * sin (π / 2 + 1 / 2)) := by
    refine ⟨π / 2 + 1 / 2, ?_, rfl⟩
    unfold solveKepler
    rw [hit]
    exact (elliptic_congr (angle_congr (wrapTrue_spec hlo).2.2) ⟨rfl, rfl⟩).mpr hat
  obtain ⟨k, hk⟩ := elliptic_mean_unique he hm2 hm
  have hsin : sin (π / 2 + 1 / 2) = cos (1 / 2) := by rw [add_comm, Real.sin_add_pi_div_two]
  rw [hsin] at hk
  have hpi := Real.pi_gt_three
  have c1 : cos (1 / 2 : ℝ) ≤ 1 - 2 / π ^ 2 * (1 / 2) ^ 2 := Real.cos_le_one_sub_mul_cos_sq (by
    rw [abs_of_pos (by norm_num)]; linarith)
  have hpi2 := Real.pi_lt_d2
  have c2 : (1 : ℝ) / 40 ≤ 2 / π ^ 2 * (1 / 2) ^ 2 := by
    rw [div_mul_eq_mul_div, le_div_iff₀ (by positivity)]
    nlinarith
  have c3 := Real.neg_one_le_cos (1 / 2 : ℝ)
  rw [hk, abs_le] at hb
  rcases lt_trichotomy k 0 with h | h | h
  · have : (k : ℝ) ≤ -1 := by exact_mod_cast Int.le_sub_one_of_lt h
    nlinarith
  · rw [h] at hb; push_cast at hb; norm_num at hb; linarith
  · have : (1 : ℝ) ≤ k := by exact_mod_cast h
    nlinarith

end Verif.Kep.Props
