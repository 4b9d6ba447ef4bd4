import Verif.Lambert.Time
import Mathlib.Analysis.SpecialFunctions.Trigonometric.DerivHyp
import Mathlib.Analysis.SpecialFunctions.Trigonometric.Deriv
import Mathlib.Analysis.Calculus.Deriv.MeanValue

/-! # The series used near the parabola -/

namespace Verif.Lambert

/-- The coefficients of 2F1(3, 1, 5/2, ·). -/
noncomputable def coef : Nat → ℝ
  | 0 => 1
  | n + 1 => coef n * ((n + 3) / (n + 5 / 2))

/-- The partial sums. -/
noncomputable def H (N : Nat) (z : ℝ) : ℝ := ∑ i ∈ Finset.range (N + 1), coef i * z ^ i

theorem H_succ (N : Nat) (z : ℝ) : H (N + 1) z = H N z + coef (N + 1) * z ^ (N + 1) := Finset.sum_range_succ _ _

theorem fold_eq (x : ℝ) (n : Nat) : (List.range n).foldl (hypStep x) (1, 1) = (coef n * x ^ n, H n x) := by
  induction n with
  | zero => simp [coef, H]
  | succ n ih =>
    rw [List.range_succ, List.foldl_append, ih]
    simp only [List.foldl_cons, List.foldl_nil, hypStep]
    have h1 : (n : ℝ) + 1 ≠ 0 := by positivity
    have h2 : (n : ℝ) + 5 / 2 ≠ 0 := by positivity
    have e : coef n * x ^ n * (3 + (n : ℝ)) * (1 + n) / (5 / 2 + n) * x / (n + 1) = coef (n + 1) * x ^ (n + 1) := by
      rw [show (5 : ℝ) / 2 + n = n + 5 / 2 by ring]
      simp only [coef]
      field_simp
      ring
    rw [e, H_succ]

theorem hyp_eq (x : ℝ) : hyp2f1b x = H 100 x := by
  unfold hyp2f1b
  rw [fold_eq]

theorem coef_pos (n : Nat) : 0 < coef n := by
  induction n with
  | zero => simp [coef]
  | succ n ih => simp only [coef]; positivity

theorem coef_le (n : Nat) : coef n ≤ n + 1 := by
  induction n with
  | zero => simp [coef]
  | succ n ih =>
    simp only [coef]
    rw [mul_div_assoc', div_le_iff₀ (by positivity)]
    push_cast
    have hn : (0 : ℝ) ≤ n := Nat.cast_nonneg n
    have : coef n * ((n : ℝ) + 3) ≤ (n + 1) * (n + 3) := mul_le_mul_of_nonneg_right ih (by positivity)
    nlinarith

/-- The derivative of the partial sum. -/
noncomputable def dH (N : Nat) (z : ℝ) : ℝ := ∑ i ∈ Finset.range (N + 1), coef i * (i * z ^ (i - 1))

theorem H_deriv (N : Nat) (z : ℝ) : HasDerivAt (H N) (dH N z) z := by
  unfold H dH
  apply HasDerivAt.fun_sum
  intro i _
  exact (hasDerivAt_pow i z).const_mul (coef i)

theorem H_ode (N : Nat) (z : ℝ) : z * (1 - z) * dH N z + (3 / 2 - 3 * z) * H N z = 3 / 2 - (N + 3) * coef N * z ^ (N + 1) := by
  induction N with
  | zero => simp [H, dH, coef]
  | succ N ih =>
    have e1 : dH (N + 1) z = dH N z + coef (N + 1) * ((N + 1 : ℕ) * z ^ N) := by
      unfold dH
      rw [Finset.sum_range_succ]
      simp
    rw [e1, H_succ]
    have e2 : coef (N + 1) * ((N : ℝ) + 5 / 2) = coef N * (N + 3) := by
      simp only [coef]
      have : (N : ℝ) + 5 / 2 ≠ 0 := by positivity
      field_simp
    push_cast
    rw [pow_succ z (N + 1), pow_succ z N] at *
    linear_combination ih + z ^ N * z * e2

theorem H_bound {z : ℝ} (hz : |z| ≤ 1) : |H 100 z| ≤ 10201 := by
  unfold H
  refine (Finset.abs_sum_le_sum_abs _ _).trans ?_
  have : ∀ i ∈ Finset.range 101, |coef i * z ^ i| ≤ 101 := by
    intro i hi
    rw [abs_mul, abs_of_pos (coef_pos i), abs_pow]
    have h1 : coef i ≤ 101 := (coef_le i).trans (by
      have : i ≤ 100 := by simp at hi; omega
      have : (i : ℝ) ≤ 100 := by exact_mod_cast this
      linarith)
    calc coef i * |z| ^ i ≤ 101 * 1 := mul_le_mul h1 (pow_le_one₀ (abs_nonneg _) hz) (by positivity) (by norm_num)
      _ = 101 := by norm_num
  refine (Finset.sum_le_sum this).trans ?_
  rw [Finset.sum_const, Finset.card_range]
  norm_num

theorem H_zero (N : Nat) : H N 0 = 1 := by
  unfold H
  rw [Finset.sum_eq_single 0]
  · simp [coef]
  · intro i _ hi
    rw [zero_pow hi, mul_zero]
  · simp

/-! ### the ellipse -/

theorem trig_deriv (t : ℝ) : HasDerivAt (fun t => Real.sin t ^ 3 * Real.cos t ^ 3 * H 100 (Real.sin t ^ 2))
    (2 * (Real.sin t ^ 2 * Real.cos t ^ 2) * (3 / 2 - 103 * coef 100 * (Real.sin t ^ 2) ^ 101)) t := by
  have hs := Real.hasDerivAt_sin t
  have hc := Real.hasDerivAt_cos t
  have h2 : HasDerivAt (fun t => Real.sin t ^ 2) (2 * Real.sin t * Real.cos t) t := (hs.fun_pow 2).congr_deriv (by norm_num)
  have hH := (H_deriv 100 (Real.sin t ^ 2)).comp t h2
  have h3 := ((hs.fun_pow 3).fun_mul (hc.fun_pow 3)).fun_mul hH
  refine h3.congr_deriv ?_
  have ode := H_ode 100 (Real.sin t ^ 2)
  norm_num at ode
  have e1 : 1 - Real.sin t ^ 2 = Real.cos t ^ 2 := by rw [Real.cos_sq']
  have e2 := Real.sin_sq_add_cos_sq t
  simp only [Function.comp]
  norm_num
  linear_combination 2 * (Real.sin t ^ 2 * Real.cos t ^ 2) * ode +
    (3 * Real.sin t ^ 2 * Real.cos t ^ 2 * H 100 (Real.sin t ^ 2) + 2 * Real.sin t ^ 4 * Real.cos t ^ 2 * dH 100 (Real.sin t ^ 2)) * e2

theorem D_deriv (t : ℝ) : HasDerivAt (fun t => 3 / 2 * (t / 4 - Real.sin (4 * t) / 16)) (3 * (Real.sin t ^ 2 * Real.cos t ^ 2)) t := by
  have h1 : HasDerivAt (fun t : ℝ => 4 * t) 4 t := ((hasDerivAt_id t).const_mul 4).congr_deriv (by norm_num)
  have h2 := (Real.hasDerivAt_sin (4 * t)).comp t h1
  have h3 := (((hasDerivAt_id t).div_const 4).fun_sub (h2.div_const 16)).const_mul (3 / 2)
  refine h3.congr_deriv ?_
  have e : Real.cos (4 * t) = 1 - 8 * (Real.sin t ^ 2 * Real.cos t ^ 2) := by
    rw [show 4 * t = 2 * (2 * t) by ring, Real.cos_two_mul, Real.cos_two_mul]
    have := Real.sin_sq_add_cos_sq t
    linear_combination 8 * Real.cos t ^ 2 * this
  rw [e]
  ring

/-- The closed form of the series, up to the truncation, on an ellipse. -/
theorem trig_close {t : ℝ} (h0 : 0 ≤ t) (h1 : t ≤ Real.pi / 2) :
    |Real.sin t ^ 3 * Real.cos t ^ 3 * H 100 (Real.sin t ^ 2) - 3 / 2 * (t / 4 - Real.sin (4 * t) / 16)| ≤
      2 / 3 * (103 * coef 100 * (Real.sin t ^ 2) ^ 101) * (3 / 2 * (t / 4 - Real.sin (4 * t) / 16)) := by
  set K := 103 * coef 100 * (Real.sin t ^ 2) ^ 101 with hK
  have hc := coef_pos 100
  have hmono : ∀ u ∈ Set.Icc 0 t, 0 ≤ Real.sin u ^ 2 ∧ Real.sin u ^ 2 ≤ Real.sin t ^ 2 := by
    intro u hu
    refine ⟨sq_nonneg _, ?_⟩
    have s1 := Real.sin_nonneg_of_nonneg_of_le_pi hu.1 (by linarith [hu.2, Real.pi_pos])
    have s2 := Real.sin_le_sin_of_le_of_le_pi_div_two (by linarith [hu.1, Real.pi_pos]) h1 hu.2
    exact pow_le_pow_left₀ s1 s2 2
  have hlow : ∀ u ∈ Set.Icc 0 t, 0 ≤ 103 * coef 100 * (Real.sin u ^ 2) ^ 101 ∧ 103 * coef 100 * (Real.sin u ^ 2) ^ 101 ≤ K := by
    intro u hu
    obtain ⟨a, b⟩ := hmono u hu
    refine ⟨mul_nonneg (mul_nonneg (by norm_num) hc.le) (pow_nonneg (sq_nonneg _) _), ?_⟩
    rw [hK]
    exact mul_le_mul_of_nonneg_left (pow_le_pow_left₀ a b 101) (mul_nonneg (by norm_num) hc.le)
  have key1 : MonotoneOn (fun t => 3 / 2 * (t / 4 - Real.sin (4 * t) / 16) - Real.sin t ^ 3 * Real.cos t ^ 3 * H 100 (Real.sin t ^ 2))
      (Set.Icc 0 t) := by
    apply monotoneOn_of_deriv_nonneg (convex_Icc 0 t)
    · exact fun u _ => ((D_deriv u).fun_sub (trig_deriv u)).continuousAt.continuousWithinAt
    · exact fun u _ => ((D_deriv u).fun_sub (trig_deriv u)).differentiableAt.differentiableWithinAt
    · intro u hu
      rw [((D_deriv u).fun_sub (trig_deriv u)).deriv]
      obtain ⟨a, -⟩ := hlow u (interior_subset hu)
      generalize 103 * coef 100 * _ = k at a ⊢
      have := mul_nonneg (mul_nonneg (sq_nonneg (Real.sin u)) (sq_nonneg (Real.cos u))) a
      nlinarith
  have key2 : MonotoneOn (fun t => 2 / 3 * K * (3 / 2 * (t / 4 - Real.sin (4 * t) / 16)) -
      (3 / 2 * (t / 4 - Real.sin (4 * t) / 16) - Real.sin t ^ 3 * Real.cos t ^ 3 * H 100 (Real.sin t ^ 2))) (Set.Icc 0 t) := by
    have hd : ∀ u, HasDerivAt (fun t => 2 / 3 * K * (3 / 2 * (t / 4 - Real.sin (4 * t) / 16)) -
      (3 / 2 * (t / 4 - Real.sin (4 * t) / 16) - Real.sin t ^ 3 * Real.cos t ^ 3 * H 100 (Real.sin t ^ 2))) _ u :=
      fun u => ((D_deriv u).const_mul (2 / 3 * K)).fun_sub ((D_deriv u).fun_sub (trig_deriv u))
    apply monotoneOn_of_deriv_nonneg (convex_Icc 0 t)
    · exact fun u _ => (hd u).continuousAt.continuousWithinAt
    · exact fun u _ => (hd u).differentiableAt.differentiableWithinAt
    · intro u hu
      rw [(hd u).deriv]
      obtain ⟨-, b⟩ := hlow u (interior_subset hu)
      clear_value K
      generalize 103 * coef 100 * _ = k at b ⊢
      have := mul_le_mul_of_nonneg_left b (mul_nonneg (sq_nonneg (Real.sin u)) (sq_nonneg (Real.cos u)))
      nlinarith
  have m1 := key1 (Set.left_mem_Icc.mpr h0) (Set.right_mem_Icc.mpr h0) h0
  have m2 := key2 (Set.left_mem_Icc.mpr h0) (Set.right_mem_Icc.mpr h0) h0
  simp only [Real.sin_zero, mul_zero, zero_div, ne_eq, OfNat.ofNat_ne_zero, not_false_eq_true, zero_pow, zero_mul, sub_self] at m1 m2
  rw [abs_le]
  constructor <;> linarith

/-! ### the hyperbola -/

theorem hyp_deriv (t : ℝ) : HasDerivAt (fun t => Real.sinh t ^ 3 * Real.cosh t ^ 3 * H 100 (-Real.sinh t ^ 2))
    (2 * (Real.sinh t ^ 2 * Real.cosh t ^ 2) * (3 / 2 + 103 * coef 100 * (Real.sinh t ^ 2) ^ 101)) t := by
  have hs := Real.hasDerivAt_sinh t
  have hc := Real.hasDerivAt_cosh t
  have h2 : HasDerivAt (fun t => -Real.sinh t ^ 2) (-(2 * Real.sinh t * Real.cosh t)) t :=
    ((hs.fun_pow 2).fun_neg).congr_deriv (by norm_num)
  have hH := (H_deriv 100 (-Real.sinh t ^ 2)).comp t h2
  have h3 := ((hs.fun_pow 3).fun_mul (hc.fun_pow 3)).fun_mul hH
  refine h3.congr_deriv ?_
  have ode := H_ode 100 (-Real.sinh t ^ 2)
  have e2 := Real.cosh_sq t
  have e3 : (-Real.sinh t ^ 2) ^ 101 = -(Real.sinh t ^ 2) ^ 101 := by rw [Odd.neg_pow (by decide)]
  rw [e3] at ode
  norm_num at ode
  simp only [Function.comp]
  norm_num
  linear_combination 2 * (Real.sinh t ^ 2 * Real.cosh t ^ 2) * ode +
    (3 * Real.sinh t ^ 2 * Real.cosh t ^ 2 * H 100 (-Real.sinh t ^ 2) - 2 * Real.sinh t ^ 4 * Real.cosh t ^ 2 * dH 100 (-Real.sinh t ^ 2)) * e2

theorem Dh_deriv (t : ℝ) : HasDerivAt (fun t => 3 / 2 * (Real.sinh (4 * t) / 16 - t / 4)) (3 * (Real.sinh t ^ 2 * Real.cosh t ^ 2)) t := by
  have h1 : HasDerivAt (fun t : ℝ => 4 * t) 4 t := ((hasDerivAt_id t).const_mul 4).congr_deriv (by norm_num)
  have h2 := (Real.hasDerivAt_sinh (4 * t)).comp t h1
  have h3 := ((h2.div_const 16).fun_sub ((hasDerivAt_id t).div_const 4)).const_mul (3 / 2)
  refine h3.congr_deriv ?_
  have e : Real.cosh (4 * t) = 1 + 8 * (Real.sinh t ^ 2 * Real.cosh t ^ 2) := by
    rw [show 4 * t = 2 * (2 * t) by ring, Real.cosh_two_mul, Real.sinh_two_mul, Real.cosh_two_mul]
    have := Real.cosh_sq t
    linear_combination (Real.cosh t ^ 2 - Real.sinh t ^ 2 + 1) * this
  rw [e]
  ring

/-- The closed form of the series, up to the truncation, on a hyperbola. -/
theorem hyp_close {t : ℝ} (h0 : 0 ≤ t) :
    |Real.sinh t ^ 3 * Real.cosh t ^ 3 * H 100 (-Real.sinh t ^ 2) - 3 / 2 * (Real.sinh (4 * t) / 16 - t / 4)| ≤
      2 / 3 * (103 * coef 100 * (Real.sinh t ^ 2) ^ 101) * (3 / 2 * (Real.sinh (4 * t) / 16 - t / 4)) := by
  set K := 103 * coef 100 * (Real.sinh t ^ 2) ^ 101 with hK
  have hc := coef_pos 100
  have hlow : ∀ u ∈ Set.Icc 0 t, 0 ≤ 103 * coef 100 * (Real.sinh u ^ 2) ^ 101 ∧ 103 * coef 100 * (Real.sinh u ^ 2) ^ 101 ≤ K := by
    intro u hu
    have s1 : 0 ≤ Real.sinh u := Real.sinh_nonneg_iff.mpr hu.1
    have s2 : Real.sinh u ≤ Real.sinh t := Real.sinh_le_sinh.mpr hu.2
    refine ⟨mul_nonneg (mul_nonneg (by norm_num) hc.le) (pow_nonneg (sq_nonneg _) _), ?_⟩
    rw [hK]
    exact mul_le_mul_of_nonneg_left (pow_le_pow_left₀ (sq_nonneg _) (pow_le_pow_left₀ s1 s2 2) 101) (mul_nonneg (by norm_num) hc.le)
  have key1 : MonotoneOn (fun t => Real.sinh t ^ 3 * Real.cosh t ^ 3 * H 100 (-Real.sinh t ^ 2) - 3 / 2 * (Real.sinh (4 * t) / 16 - t / 4))
      (Set.Icc 0 t) := by
    apply monotoneOn_of_deriv_nonneg (convex_Icc 0 t)
    · exact fun u _ => ((hyp_deriv u).fun_sub (Dh_deriv u)).continuousAt.continuousWithinAt
    · exact fun u _ => ((hyp_deriv u).fun_sub (Dh_deriv u)).differentiableAt.differentiableWithinAt
    · intro u hu
      rw [((hyp_deriv u).fun_sub (Dh_deriv u)).deriv]
      obtain ⟨a, -⟩ := hlow u (interior_subset hu)
      generalize 103 * coef 100 * _ = k at a ⊢
      have := mul_nonneg (mul_nonneg (sq_nonneg (Real.sinh u)) (sq_nonneg (Real.cosh u))) a
      nlinarith
  have key2 : MonotoneOn (fun t => 2 / 3 * K * (3 / 2 * (Real.sinh (4 * t) / 16 - t / 4)) -
      (Real.sinh t ^ 3 * Real.cosh t ^ 3 * H 100 (-Real.sinh t ^ 2) - 3 / 2 * (Real.sinh (4 * t) / 16 - t / 4))) (Set.Icc 0 t) := by
    have hd : ∀ u, HasDerivAt (fun t => 2 / 3 * K * (3 / 2 * (Real.sinh (4 * t) / 16 - t / 4)) -
      (Real.sinh t ^ 3 * Real.cosh t ^ 3 * H 100 (-Real.sinh t ^ 2) - 3 / 2 * (Real.sinh (4 * t) / 16 - t / 4))) _ u :=
      fun u => ((Dh_deriv u).const_mul (2 / 3 * K)).fun_sub ((hyp_deriv u).fun_sub (Dh_deriv u))
    apply monotoneOn_of_deriv_nonneg (convex_Icc 0 t)
    · exact fun u _ => (hd u).continuousAt.continuousWithinAt
    · exact fun u _ => (hd u).differentiableAt.differentiableWithinAt
    · intro u hu
      rw [(hd u).deriv]
      obtain ⟨-, b⟩ := hlow u (interior_subset hu)
      clear_value K
      generalize 103 * coef 100 * _ = k at b ⊢
      have := mul_le_mul_of_nonneg_left b (mul_nonneg (sq_nonneg (Real.sinh u)) (sq_nonneg (Real.cosh u)))
      nlinarith
  have m1 := key1 (Set.left_mem_Icc.mpr h0) (Set.right_mem_Icc.mpr h0) h0
  have m2 := key2 (Set.left_mem_Icc.mpr h0) (Set.right_mem_Icc.mpr h0) h0
  simp only [Real.sinh_zero, mul_zero, zero_div, ne_eq, OfNat.ofNat_ne_zero, not_false_eq_true, zero_pow, zero_mul, sub_self] at m1 m2
  rw [abs_le]
  constructor <;> linarith

attribute [irreducible] coef H dH

end Verif.Lambert
