import Verif.Lambert.Deriv
import Mathlib.Analysis.Calculus.Deriv.MeanValue

/-! # The time of flight of less than one revolution decreases from infinity to zero -/

namespace Verif.Lambert

open Verif Verif.Univ Filter Topology

/-- The time at which the derivative with respect to `x` would vanish. -/
noncomputable def flat (l x : ℝ) : ℝ := 2 / 3 * (1 / x - l ^ 3 / computeY x l)

theorem computeY_one (l : ℝ) : computeY 1 l = 1 := by unfold computeY; norm_num

theorem flat_one (l : ℝ) : flat l 1 = 2 / 3 * (1 - l ^ 3) := by unfold flat; rw [computeY_one]; norm_num

theorem hasDerivAt_flat {l x : ℝ} (hl : l ^ 2 < 1) (hx : 0 < x) :
    HasDerivAt (flat l) (2 / 3 * (l ^ 5 * x / computeY x l ^ 3 - 1 / x ^ 2)) x := by
  have hy := y_pos x hl
  have h1 := (((hasDerivAt_inv hx.ne').sub (((hasDerivAt_y x hl).inv hy.ne').const_mul (l ^ 3))).const_mul (2 / 3))
  refine (h1.congr_of_eventuallyEq (Eventually.of_forall fun z => ?_)).congr_deriv ?_
  · simp [flat, div_eq_mul_inv]
  · field_simp
    ring

theorem flat_anti {l a b : ℝ} (hl : l ^ 2 < 1) (ha : 0 < a) (hab : a < b) : flat l b < flat l a := by
  have hanti : StrictAntiOn (flat l) (Set.Icc a b) := by
    apply strictAntiOn_of_deriv_neg (convex_Icc a b)
    · exact fun x hx => (hasDerivAt_flat hl (ha.trans_le hx.1)).continuousAt.continuousWithinAt
    · intro x hx
      rw [interior_Icc] at hx
      have hx0 : 0 < x := ha.trans hx.1
      rw [(hasDerivAt_flat hl hx0).deriv]
      have hy := y_pos x hl
      have hgt := y_gt x hl
      have h5 : |l ^ 5 * x ^ 3| < computeY x l ^ 3 := by
        have e : |l ^ 5 * x ^ 3| = l ^ 2 * |l * x| ^ 3 := by
          rw [show l ^ 5 * x ^ 3 = l ^ 2 * (l * x) ^ 3 by ring, abs_mul, abs_of_nonneg (sq_nonneg l), abs_pow]
        rw [e]
        have h6 : |l * x| ^ 3 < computeY x l ^ 3 := pow_lt_pow_left₀ hgt (abs_nonneg _) (by norm_num)
        have h7 : 0 ≤ |l * x| ^ 3 := by positivity
        nlinarith
      have h8 : l ^ 5 * x ^ 3 < computeY x l ^ 3 := (le_abs_self _).trans_lt h5
      have h9 : l ^ 5 * x / computeY x l ^ 3 < 1 / x ^ 2 := by
        rw [div_lt_div_iff₀ (by positivity) (by positivity)]
        linarith
      linarith
  exact hanti ⟨le_rfl, hab.le⟩ ⟨hab.le, le_rfl⟩ hab

theorem slope_flat {l x T : ℝ} (hx : 0 < x) : (1 - x ^ 2 ≠ 0) → tofEquationP x (computeY x l) T l = 3 * x * (T - flat l x) / (1 - x ^ 2) := by
  intro h
  unfold tofEquationP flat
  congr 1
  field_simp
  ring

/-- The numerator of the time of flight, less a constant. -/
noncomputable def numE (l c x : ℝ) : ℝ :=
  Real.arccos (x * computeY x l + l * (1 - x ^ 2)) - (x - l * computeY x l) * √(1 - x ^ 2) - c * ((1 - x ^ 2) * √(1 - x ^ 2))

theorem numE_eq {l c x : ℝ} (h1 : -1 < x) (h2 : x < 1) : numE l c x = (1 - x ^ 2) * √(1 - x ^ 2) * (exactTime x l 0 - c) := by
  have hx : 0 < 1 - x ^ 2 := by nlinarith
  have hw := Real.sqrt_pos.mpr hx
  rw [exactTime_elliptic h1 h2]
  unfold numE
  simp only [Nat.cast_zero, zero_mul, add_zero]
  generalize √(1 - x ^ 2) = w at *
  field_simp
  ring

theorem numE_one (l c : ℝ) : numE l c 1 = 0 := by unfold numE; rw [computeY_one]; norm_num

theorem hasDerivAt_numE {l c x : ℝ} (hl : l ^ 2 < 1) (h1 : 0 < x) (h2 : x < 1) :
    HasDerivAt (numE l c) (3 * x * √(1 - x ^ 2) * (c - flat l x)) x := by
  have hx : 0 < 1 - x ^ 2 := by nlinarith
  have hw := Real.sqrt_pos.mpr hx
  have hw2 := Real.sq_sqrt hx.le
  have hd := ((hasDerivAt_w x).mul ((hasDerivAt_w x).sqrt hx.ne')).mul ((hasDerivAt_time (M := 0) hl (by linarith) h2.ne).sub_const c)
  have hev : numE l c =ᶠ[𝓝 x] fun z => (1 - z ^ 2) * √(1 - z ^ 2) * (exactTime z l 0 - c) := by
    filter_upwards [Ioo_mem_nhds (by linarith : -1 < x) h2] with z hz
    exact numE_eq hz.1 hz.2
  refine (hd.congr_of_eventuallyEq hev).congr_deriv ?_
  simp only [Pi.mul_apply]
  rw [slope_flat h1 hx.ne']
  generalize exactTime x l 0 = T
  generalize flat l x = f
  generalize √(1 - x ^ 2) = w at *
  rw [← hw2]
  field_simp
  ring

theorem continuous_numE {l c : ℝ} (hl : l ^ 2 < 1) : Continuous (numE l c) := by
  have hy : Continuous fun x => computeY x l := continuous_iff_continuousAt.mpr fun x => (hasDerivAt_y x hl).continuousAt
  unfold numE
  fun_prop

/-- On an ellipse, the time of less than one revolution lies between that on the parabola and `flat`. -/
theorem time_between {l x : ℝ} (hl : l ^ 2 < 1) (h1 : 0 < x) (h2 : x < 1) : flat l 1 < exactTime x l 0 ∧ exactTime x l 0 < flat l x := by
  have hx : 0 < (1 - x ^ 2) * √(1 - x ^ 2) := by
    have : 0 < 1 - x ^ 2 := by nlinarith
    exact mul_pos this (Real.sqrt_pos.mpr this)
  constructor
  · have hanti : StrictAntiOn (numE l (flat l 1)) (Set.Icc x 1) := by
      apply strictAntiOn_of_deriv_neg (convex_Icc x 1) (continuous_numE hl).continuousOn
      intro z hz
      rw [interior_Icc] at hz
      have hz0 := h1.trans hz.1
      rw [(hasDerivAt_numE hl hz0 hz.2).deriv]
      have hw : 0 < √(1 - z ^ 2) := Real.sqrt_pos.mpr (by nlinarith [hz.2])
      exact mul_neg_of_pos_of_neg (by positivity) (sub_neg.mpr (flat_anti hl hz0 hz.2))
    have := hanti ⟨le_rfl, h2.le⟩ ⟨h2.le, le_rfl⟩ h2
    rw [numE_one, numE_eq (by linarith) h2] at this
    exact sub_pos.mp ((mul_pos_iff_of_pos_left hx).mp this)
  · have hmono : StrictMonoOn (numE l (flat l x)) (Set.Icc x 1) := by
      apply strictMonoOn_of_deriv_pos (convex_Icc x 1) (continuous_numE hl).continuousOn
      intro z hz
      rw [interior_Icc] at hz
      have hz0 := h1.trans hz.1
      rw [(hasDerivAt_numE hl hz0 hz.2).deriv]
      have hw : 0 < √(1 - z ^ 2) := Real.sqrt_pos.mpr (by nlinarith [hz.2])
      exact mul_pos (by positivity) (sub_pos.mpr (flat_anti hl h1 hz.1))
    have := hmono ⟨le_rfl, h2.le⟩ ⟨h2.le, le_rfl⟩ h2
    rw [numE_one, numE_eq (by linarith) h2] at this
    by_contra hn
    push Not at hn
    exact absurd (mul_nonneg hx.le (sub_nonneg.mpr hn)) (not_le.mpr this)

/-- The same for a hyperbola. -/
noncomputable def numH (l c x : ℝ) : ℝ :=
  (x - l * computeY x l) * √(x ^ 2 - 1) - Real.arsinh ((computeY x l - x * l) * √(x ^ 2 - 1)) - c * ((x ^ 2 - 1) * √(x ^ 2 - 1))

theorem numH_eq {l c x : ℝ} (h1 : 1 < x) : numH l c x = (x ^ 2 - 1) * √(x ^ 2 - 1) * (exactTime x l 0 - c) := by
  have hx : 0 < x ^ 2 - 1 := by nlinarith
  have hw := Real.sqrt_pos.mpr hx
  rw [exactTime_hyperbolic h1, show 1 - x ^ 2 = -(x ^ 2 - 1) by ring]
  unfold numH
  simp only [Nat.cast_zero, zero_mul, add_zero]
  generalize Real.arsinh ((computeY x l - x * l) * √(x ^ 2 - 1)) = A
  generalize √(x ^ 2 - 1) = w at *
  field_simp
  ring

theorem numH_one (l c : ℝ) : numH l c 1 = 0 := by unfold numH; rw [computeY_one]; norm_num

theorem hasDerivAt_numH {l c x : ℝ} (hl : l ^ 2 < 1) (h1 : 1 < x) :
    HasDerivAt (numH l c) (3 * x * √(x ^ 2 - 1) * (flat l x - c)) x := by
  have hx : 0 < x ^ 2 - 1 := by nlinarith
  have hw := Real.sqrt_pos.mpr hx
  have hw2 := Real.sq_sqrt hx.le
  have hv : HasDerivAt (fun x : ℝ => √(x ^ 2 - 1)) (x / √(x ^ 2 - 1)) x := by
    have := ((hasDerivAt_pow 2 x).sub_const 1).sqrt hx.ne'
    exact this.congr_deriv (by simp; field_simp)
  have hd := (((hasDerivAt_pow 2 x).sub_const 1).mul hv).mul ((hasDerivAt_time (M := 0) hl (by linarith) h1.ne').sub_const c)
  have hev : numH l c =ᶠ[𝓝 x] fun z => (z ^ 2 - 1) * √(z ^ 2 - 1) * (exactTime z l 0 - c) := by
    filter_upwards [Ioi_mem_nhds h1] with z hz
    exact numH_eq hz
  refine (hd.congr_of_eventuallyEq hev).congr_deriv ?_
  simp only [Pi.mul_apply]
  rw [slope_flat (by linarith) (by linarith), show 1 - x ^ 2 = -(x ^ 2 - 1) by ring]
  generalize exactTime x l 0 = T
  generalize flat l x = f
  generalize √(x ^ 2 - 1) = w at *
  rw [← hw2]
  push_cast
  field_simp
  ring

theorem continuous_numH {l c : ℝ} (hl : l ^ 2 < 1) : Continuous (numH l c) := by
  have hy : Continuous fun x => computeY x l := continuous_iff_continuousAt.mpr fun x => (hasDerivAt_y x hl).continuousAt
  have ha : Continuous Real.arsinh := Real.continuous_arsinh
  unfold numH
  fun_prop

theorem time_between_hyperbolic {l x : ℝ} (hl : l ^ 2 < 1) (h1 : 1 < x) : flat l x < exactTime x l 0 ∧ exactTime x l 0 < flat l 1 := by
  have hx : 0 < (x ^ 2 - 1) * √(x ^ 2 - 1) := by
    have : 0 < x ^ 2 - 1 := by nlinarith
    exact mul_pos this (Real.sqrt_pos.mpr this)
  constructor
  · have hmono : StrictMonoOn (numH l (flat l x)) (Set.Icc 1 x) := by
      apply strictMonoOn_of_deriv_pos (convex_Icc 1 x) (continuous_numH hl).continuousOn
      intro z hz
      rw [interior_Icc] at hz
      have hz0 : 0 < z := one_pos.trans hz.1
      rw [(hasDerivAt_numH hl hz.1).deriv]
      have hw : 0 < √(z ^ 2 - 1) := Real.sqrt_pos.mpr (by nlinarith [hz.1])
      exact mul_pos (by positivity) (sub_pos.mpr (flat_anti hl hz0 hz.2))
    have := hmono ⟨le_rfl, h1.le⟩ ⟨h1.le, le_rfl⟩ h1
    rw [numH_one, numH_eq h1] at this
    exact sub_pos.mp ((mul_pos_iff_of_pos_left hx).mp this)
  · have hanti : StrictAntiOn (numH l (flat l 1)) (Set.Icc 1 x) := by
      apply strictAntiOn_of_deriv_neg (convex_Icc 1 x) (continuous_numH hl).continuousOn
      intro z hz
      rw [interior_Icc] at hz
      have hz0 : 0 < z := one_pos.trans hz.1
      rw [(hasDerivAt_numH hl hz.1).deriv]
      have hw : 0 < √(z ^ 2 - 1) := Real.sqrt_pos.mpr (by nlinarith [hz.1])
      exact mul_neg_of_pos_of_neg (by positivity) (sub_neg.mpr (flat_anti hl one_pos hz.1))
    have := hanti ⟨le_rfl, h1.le⟩ ⟨h1.le, le_rfl⟩ h1
    rw [numH_one, numH_eq h1] at this
    by_contra hn
    push Not at hn
    exact absurd (mul_nonneg hx.le (sub_nonneg.mpr hn)) (not_le.mpr this)

theorem time_one (l : ℝ) : exactTime 1 l 0 = flat l 1 := by unfold exactTime; rw [if_pos rfl, flat_one]

theorem slope_neg {l x : ℝ} (hl : l ^ 2 < 1) (h1 : -1 < x) (h2 : x ≠ 1) : tofEquationP x (computeY x l) (exactTime x l 0) l < 0 := by
  rcases le_or_gt x 0 with h0 | h0
  · have hx : 0 < 1 - x ^ 2 := by nlinarith
    have hT := time_pos (M := 0) hl h1 (by linarith)
    have hy := y_pos x hl
    have hgt := y_gt x hl
    have hb : |l ^ 3 * x| ≤ |l * x| := by
      rw [show l ^ 3 * x = l ^ 2 * (l * x) by ring, abs_mul, abs_of_nonneg (sq_nonneg l)]
      nlinarith [abs_nonneg (l * x)]
    have h4 : l ^ 3 * x / computeY x l < 1 := by rw [div_lt_one hy]; linarith [le_abs_self (l ^ 3 * x)]
    unfold tofEquationP
    apply div_neg_of_neg_of_pos _ hx
    have : 3 * exactTime x l 0 * x ≤ 0 := mul_nonpos_of_nonneg_of_nonpos (by positivity) h0
    rw [show 2 * l ^ 3 * x / computeY x l = 2 * (l ^ 3 * x / computeY x l) by ring]
    linarith
  · rcases lt_or_gt_of_ne h2 with h2 | h2
    · have hx : 0 < 1 - x ^ 2 := by nlinarith
      rw [slope_flat h0 hx.ne']
      exact div_neg_of_neg_of_pos (mul_neg_of_pos_of_neg (by positivity) (sub_neg.mpr (time_between hl h0 h2).2)) hx
    · have hx : 1 - x ^ 2 < 0 := by nlinarith
      rw [slope_flat h0 hx.ne]
      exact div_neg_of_pos_of_neg (mul_pos (by positivity) (sub_pos.mpr (time_between_hyperbolic hl h2).1)) hx

/-- The time of less than one revolution decreases. -/
theorem time_anti {l : ℝ} (hl : l ^ 2 < 1) : StrictAntiOn (fun x => exactTime x l 0) (Set.Ioi (-1)) := by
  have hE : StrictAntiOn (fun x => exactTime x l 0) (Set.Ioo (-1) 1) := by
    apply strictAntiOn_of_deriv_neg (convex_Ioo _ _)
    · exact fun x hx => (hasDerivAt_time hl hx.1 hx.2.ne).continuousAt.continuousWithinAt
    · intro x hx
      rw [interior_Ioo] at hx
      rw [(hasDerivAt_time hl hx.1 hx.2.ne).deriv]
      exact slope_neg hl hx.1 hx.2.ne
  have hH : StrictAntiOn (fun x => exactTime x l 0) (Set.Ioi 1) := by
    apply strictAntiOn_of_deriv_neg (convex_Ioi _)
    · exact fun x (hx : 1 < x) => (hasDerivAt_time hl (by linarith) hx.ne').continuousAt.continuousWithinAt
    · intro x hx
      rw [interior_Ioi] at hx
      have hx : 1 < x := hx
      rw [(hasDerivAt_time hl (by linarith) hx.ne').deriv]
      exact slope_neg hl (by linarith) hx.ne'
  have lo : ∀ x, -1 < x → x < 1 → exactTime 1 l 0 < exactTime x l 0 := by
    intro x h1 h2
    rw [time_one]
    rcases le_or_gt x 0 with h0 | h0
    · have := (time_between hl (show (0 : ℝ) < 1 / 2 by norm_num) (by norm_num)).1
      have h3 := hE (a := x) (b := 1 / 2) ⟨h1, h2⟩ ⟨by norm_num, by norm_num⟩ (by linarith)
      exact this.trans h3
    · exact (time_between hl h0 h2).1
  have hi : ∀ x, 1 < x → exactTime x l 0 < exactTime 1 l 0 := fun x h => by rw [time_one]; exact (time_between_hyperbolic hl h).2
  intro a ha b hb hab
  simp only [Set.mem_Ioi] at ha hb
  simp only
  rcases lt_trichotomy b 1 with h | h | h
  · exact hE ⟨ha, by linarith⟩ ⟨hb, h⟩ hab
  · subst h; exact lo a ha hab
  · rcases lt_trichotomy a 1 with h' | h' | h'
    · exact (hi b h).trans (lo a ha h')
    · subst h'; exact hi b h
    · exact hH h' h hab

theorem continuousAt_time {l : ℝ} (hl : l ^ 2 < 1) {x : ℝ} (hx : -1 < x) : ContinuousAt (fun x => exactTime x l 0) x := by
  rcases eq_or_ne x 1 with rfl | h
  · have hf : Tendsto (flat l) (𝓝 1) (𝓝 (flat l 1)) := (hasDerivAt_flat hl one_pos).continuousAt
    have hc : Tendsto (fun _ : ℝ => flat l 1) (𝓝 1) (𝓝 (flat l 1)) := tendsto_const_nhds
    show Tendsto (fun x => exactTime x l 0) (𝓝 1) (𝓝 (exactTime 1 l 0))
    rw [time_one]
    refine tendsto_of_tendsto_of_tendsto_of_le_of_le' (hf.min hc |>.trans (by rw [min_self])) (hf.max hc |>.trans (by rw [max_self])) ?_ ?_
    · filter_upwards [Ioi_mem_nhds (show (0 : ℝ) < 1 by norm_num)] with z hz
      rcases lt_trichotomy z 1 with h | h | h
      · exact (min_le_right _ _).trans (time_between hl hz h).1.le
      · subst h; rw [time_one]; exact min_le_right _ _
      · exact (min_le_left _ _).trans (time_between_hyperbolic hl h).1.le
    · filter_upwards [Ioi_mem_nhds (show (0 : ℝ) < 1 by norm_num)] with z hz
      rcases lt_trichotomy z 1 with h | h | h
      · exact (time_between hl hz h).2.le.trans (le_max_left _ _)
      · subst h; rw [time_one]; exact le_max_right _ _
      · exact (time_between_hyperbolic hl h).2.le.trans (le_max_right _ _)
  · exact (hasDerivAt_time hl hx h).continuousAt

/-- Times as long as wanted. -/
theorem time_large {l : ℝ} (M : ℕ) (hl : l ^ 2 < 1) (T : ℝ) : ∃ x, -1 < x ∧ x < 0 ∧ T < exactTime x l M := by
  have hll := (sq_lt_one_iff_abs_lt_one l).mp hl
  have h0 := abs_nonneg l
  set d := (1 - |l|) / (4 * (|T| + 1)) with hd
  have hT := abs_nonneg T
  have hdp : 0 < d := div_pos (by linarith) (by linarith)
  have hd2 : d ≤ (1 - |l|) / 4 := by
    rw [hd]
    exact div_le_div_of_nonneg_left (by linarith) (by norm_num) (by linarith)
  have hdT : 4 * d * (|T| + 1) = 1 - |l| := by rw [hd]; field_simp
  refine ⟨-1 + d, by linarith, by linarith, ?_⟩
  have hx : 0 < 1 - (-1 + d) ^ 2 := by nlinarith
  have hy := y_pos (-1 + d) hl
  have hy2 := y_sq (x := -1 + d) hl
  have hy1 : computeY (-1 + d) l ≤ 1 := by nlinarith [mul_nonneg (sq_nonneg l) hx.le]
  rw [exactTime_elliptic (by linarith) (by linarith), lt_div_iff₀ hx]
  have hA : 0 ≤ (Real.arccos ((-1 + d) * computeY (-1 + d) l + l * (1 - (-1 + d) ^ 2)) + M * Real.pi) / √(1 - (-1 + d) ^ 2) :=
    div_nonneg (add_nonneg (Real.arccos_nonneg _) (mul_nonneg (Nat.cast_nonneg M) Real.pi_pos.le)) (Real.sqrt_nonneg _)
  have hly : -|l| ≤ l * computeY (-1 + d) l := by
    have := neg_abs_le (l * computeY (-1 + d) l)
    rw [abs_mul, abs_of_pos hy] at this
    nlinarith
  have h1 : T * (1 - (-1 + d) ^ 2) ≤ |T| * (2 * d) := by
    have a : T * (1 - (-1 + d) ^ 2) ≤ |T| * (1 - (-1 + d) ^ 2) := mul_le_mul_of_nonneg_right (le_abs_self T) hx.le
    have b : |T| * (1 - (-1 + d) ^ 2) ≤ |T| * (2 * d) := mul_le_mul_of_nonneg_left (by nlinarith) hT
    linarith
  nlinarith

/-- Times as short as wanted. -/
theorem time_small {l : ℝ} (hl : l ^ 2 < 1) {T : ℝ} (hT : 0 < T) : ∃ x, 1 < x ∧ exactTime x l 0 < T := by
  refine ⟨2 + 4 / T, by have : 0 < 4 / T := by positivity
                        linarith, ?_⟩
  set x := 2 + 4 / T with hx
  have h4 : 0 < 4 / T := by positivity
  have hx1 : 2 < x := by linarith
  have hTx : T * (x - 2) = 4 := by rw [hx]; field_simp; ring
  have hy := y_pos x hl
  have hy2 := y_sq (x := x) hl
  have hw2 : 0 < x ^ 2 - 1 := by nlinarith
  have hyx : computeY x l ≤ x := by nlinarith [mul_pos (sub_pos.mpr hl) hw2]
  have hll := abs_lt.mp ((sq_lt_one_iff_abs_lt_one l).mp hl)
  have he := eta_pos x hl
  rw [exactTime_hyperbolic (by linarith), show 1 - x ^ 2 = -(x ^ 2 - 1) by ring, div_neg, ← neg_div, div_lt_iff₀ hw2]
  have hA : 0 ≤ (Real.arsinh ((computeY x l - x * l) * √(x ^ 2 - 1)) + (0 : ℕ) * Real.pi) / √(x ^ 2 - 1) := by
    apply div_nonneg _ (Real.sqrt_nonneg _)
    rw [Nat.cast_zero, zero_mul, add_zero, Real.arsinh_nonneg_iff]
    exact mul_nonneg (by linarith) (Real.sqrt_nonneg _)
  have h5 : -(l * computeY x l) ≤ x := by nlinarith
  have h6 : 2 * x < T * (x ^ 2 - 1) := by nlinarith
  linarith

/-- For every positive time there is exactly one `x`. -/
theorem time_bijective {l T : ℝ} (hl : l ^ 2 < 1) (hT : 0 < T) : ∃! x, -1 < x ∧ exactTime x l 0 = T := by
  obtain ⟨a, a1, a2, a3⟩ := time_large 0 hl T
  obtain ⟨b, b1, b2⟩ := time_small hl hT
  have hcont : ContinuousOn (fun x => exactTime x l 0) (Set.Icc a b) := fun x hx =>
    (continuousAt_time hl (a1.trans_le hx.1)).continuousWithinAt
  obtain ⟨x, hx, hxT⟩ := intermediate_value_Icc' (by linarith : a ≤ b) hcont ⟨b2.le, a3.le⟩
  refine ⟨x, ⟨a1.trans_le hx.1, hxT⟩, ?_⟩
  rintro z ⟨hz, hzT⟩
  exact (time_anti hl).injOn hz (a1.trans_le hx.1) (hzT.trans hxT.symm)

end Verif.Lambert
