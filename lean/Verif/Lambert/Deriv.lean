import Verif.Lambert.Time
import Mathlib.Analysis.SpecialFunctions.Trigonometric.InverseDeriv
import Mathlib.Analysis.SpecialFunctions.Sqrt
import Mathlib.Analysis.SpecialFunctions.Arsinh
import Mathlib.Analysis.Calculus.Deriv.Inv

/-! # Derivatives of the time of flight -/

namespace Verif.Lambert

open Verif Verif.Univ Filter

theorem y_pos {l : ℝ} (x : ℝ) (hl : l ^ 2 < 1) : 0 < computeY x l := lt_of_le_of_lt (abs_nonneg _) (y_gt x hl)

theorem hasDerivAt_w (x : ℝ) : HasDerivAt (fun x : ℝ => 1 - x ^ 2) (-(2 * x)) x := by
  have := ((hasDerivAt_pow 2 x).const_sub 1)
  simpa using this

theorem hasDerivAt_y {l : ℝ} (x : ℝ) (hl : l ^ 2 < 1) :
    HasDerivAt (fun x => computeY x l) (l ^ 2 * x / computeY x l) x := by
  have hy := y_pos x hl
  have h1 : HasDerivAt (fun x : ℝ => 1 - l ^ 2 * (1 - x ^ 2)) (2 * l ^ 2 * x) x := by
    have := ((hasDerivAt_w x).const_mul (l ^ 2)).const_sub 1
    exact this.congr_deriv (by ring)
  have hne : 1 - l ^ 2 * (1 - x ^ 2) ≠ 0 := by rw [← y_sq hl]; positivity
  have := h1.sqrt hne
  unfold computeY at hy ⊢
  exact this.congr_deriv (by field_simp)

/-- The time of flight with a positive semi-major axis. -/
theorem exactTime_elliptic {x l : ℝ} {M : Nat} (h1 : -1 < x) (h2 : x < 1) : exactTime x l M =
    ((Real.arccos (x * computeY x l + l * (1 - x ^ 2)) + M * Real.pi) / √(1 - x ^ 2) - x + l * computeY x l) / (1 - x ^ 2) := by
  have hx : 0 < 1 - x ^ 2 := by nlinarith
  have hcl : ∀ k : ℝ, Real.arccos (max (-1) (min 1 k)) = Real.arccos k := by
    intro k
    unfold Real.arccos
    rcases le_total k (-1) with h | h
    · rw [min_eq_right (by linarith), max_eq_left h, Real.arcsin_of_le_neg_one h, Real.arcsin_neg_one]
    · rcases le_total k 1 with h' | h'
      · rw [min_eq_right h', max_eq_right h]
      · rw [min_eq_left h', max_eq_right (by norm_num), Real.arcsin_of_one_le h', Real.arcsin_one]
  unfold exactTime computePsi
  rw [if_neg h2.ne, if_pos h2, hcl, abs_of_pos hx]

theorem exactTime_hyperbolic {x l : ℝ} {M : Nat} (h1 : 1 < x) : exactTime x l M =
    ((Real.arsinh ((computeY x l - x * l) * √(x ^ 2 - 1)) + M * Real.pi) / √(x ^ 2 - 1) - x + l * computeY x l) / (1 - x ^ 2) := by
  have hx : 0 < x ^ 2 - 1 := by nlinarith
  unfold exactTime computePsi
  rw [if_neg h1.ne', if_neg (by linarith), if_pos h1, ← abs_neg, neg_sub, abs_of_pos hx]

theorem hasDerivAt_psi_elliptic {x l : ℝ} (hl : l ^ 2 < 1) (h1 : -1 < x) (h2 : x < 1) :
    HasDerivAt (fun x => Real.arccos (x * computeY x l + l * (1 - x ^ 2)))
      (-((computeY x l - l * x) / (computeY x l * √(1 - x ^ 2)))) x := by
  have hx : 0 < 1 - x ^ 2 := by nlinarith
  have hy := y_pos x hl
  have hy2 := y_sq (x := x) hl
  have he := eta_pos x hl
  have hw := Real.sqrt_pos.mpr hx
  have k := kappa_sq hy2
  have hk : HasDerivAt (fun x => x * computeY x l + l * (1 - x ^ 2)) ((computeY x l - l * x) ^ 2 / computeY x l) x := by
    have := ((hasDerivAt_id x).mul (hasDerivAt_y x hl)).add ((hasDerivAt_w x).const_mul l)
    refine (this.congr_of_eventuallyEq (Eventually.of_forall fun z => ?_)).congr_deriv ?_
    · simp
    · simp only [id]; field_simp; nlinarith [hy2]
  have hpos : 0 < (computeY x l - l * x) ^ 2 * (1 - x ^ 2) := by positivity
  have hne1 : x * computeY x l + l * (1 - x ^ 2) ≠ -1 := by intro h; rw [h] at k; linarith
  have hne2 : x * computeY x l + l * (1 - x ^ 2) ≠ 1 := by intro h; rw [h] at k; linarith
  have := (Real.hasDerivAt_arccos hne1 hne2).comp x hk
  refine this.congr_deriv ?_
  rw [show 1 - (x * computeY x l + l * (1 - x ^ 2)) ^ 2 = ((computeY x l - l * x) * √(1 - x ^ 2)) ^ 2 by
    rw [mul_pow, Real.sq_sqrt hx.le]; linarith, Real.sqrt_sq (by positivity)]
  field_simp

theorem hasDerivAt_psi_hyperbolic {x l : ℝ} (hl : l ^ 2 < 1) (h1 : 1 < x) :
    HasDerivAt (fun x => Real.arsinh ((computeY x l - x * l) * √(x ^ 2 - 1)))
      ((computeY x l - l * x) / (computeY x l * √(x ^ 2 - 1))) x := by
  have hx : 0 < x ^ 2 - 1 := by nlinarith
  have hy := y_pos x hl
  have hy2 := y_sq (x := x) hl
  have he := eta_pos x hl
  have hw := Real.sqrt_pos.mpr hx
  have hw2 := Real.sq_sqrt hx.le
  have hch := (psi_hyperbolic hl h1).1
  unfold computePsi at hch
  rw [if_neg (by linarith), if_pos h1] at hch
  have hkap : 0 < x * computeY x l + l * (1 - x ^ 2) := hch ▸ Real.cosh_pos _
  have hv : HasDerivAt (fun x : ℝ => √(x ^ 2 - 1)) (x / √(x ^ 2 - 1)) x := by
    have := ((hasDerivAt_pow 2 x).sub_const 1).sqrt hx.ne'
    exact this.congr_deriv (by simp; field_simp)
  have hu := (((hasDerivAt_y x hl).sub ((hasDerivAt_id x).mul_const l)).mul hv)
  have := hu.arsinh
  refine (this.congr_of_eventuallyEq (Eventually.of_forall fun z => ?_)).congr_deriv ?_
  · simp
  · have hs : √(1 + ((computeY x l - x * l) * √(x ^ 2 - 1)) ^ 2) = x * computeY x l + l * (1 - x ^ 2) := by
      rw [← hch, Real.cosh_arsinh]
    simp only [Pi.sub_apply, Pi.mul_apply, id, smul_eq_mul] at *
    rw [hs]
    rw [inv_mul_eq_iff_eq_mul₀ hkap.ne']
    field_simp
    rw [hw2]
    ring_nf

theorem hasDerivAt_time {x l : ℝ} {M : Nat} (hl : l ^ 2 < 1) (h1 : -1 < x) (h2 : x ≠ 1) :
    HasDerivAt (fun x => exactTime x l M) (tofEquationP x (computeY x l) (exactTime x l M) l) x := by
  have hy := y_pos x hl
  have hy2 := y_sq (x := x) hl
  rcases lt_or_gt_of_ne h2 with h2 | h2
  · have hx : 0 < 1 - x ^ 2 := by nlinarith
    have hw := Real.sqrt_pos.mpr hx
    have hw2 := Real.sq_sqrt hx.le
    have hv := (hasDerivAt_w x).sqrt hx.ne'
    have hd := (((((hasDerivAt_psi_elliptic hl h1 h2).add_const (M * Real.pi)).div hv hw.ne').sub (hasDerivAt_id x)).add
      ((hasDerivAt_y x hl).const_mul l)).div (hasDerivAt_w x) hx.ne'
    have hev : (fun x => exactTime x l M) =ᶠ[nhds x] fun x =>
        ((Real.arccos (x * computeY x l + l * (1 - x ^ 2)) + M * Real.pi) / √(1 - x ^ 2) - x + l * computeY x l) / (1 - x ^ 2) := by
      filter_upwards [Ioo_mem_nhds h1 h2] with z hz
      exact exactTime_elliptic hz.1 hz.2
    refine (hd.congr_of_eventuallyEq ?_).congr_deriv ?_
    · exact hev
    · rw [exactTime_elliptic h1 h2]
      unfold tofEquationP
      simp only [Pi.div_apply, Pi.sub_apply, Pi.add_apply, id]
      generalize Real.arccos (x * computeY x l + l * (1 - x ^ 2)) + M * Real.pi = A
      generalize computeY x l = y at *
      generalize √(1 - x ^ 2) = w at *
      have hx2 : x ^ 2 = 1 - w ^ 2 := by linarith
      rw [← hw2]
      field_simp
      linear_combination (w * y - l ^ 3 * x * w) * hx2 - l * x * w * hy2
  · have hx : 0 < x ^ 2 - 1 := by nlinarith
    have hw := Real.sqrt_pos.mpr hx
    have hw2 := Real.sq_sqrt hx.le
    have hv : HasDerivAt (fun x : ℝ => √(x ^ 2 - 1)) (x / √(x ^ 2 - 1)) x := by
      have := ((hasDerivAt_pow 2 x).sub_const 1).sqrt hx.ne'
      exact this.congr_deriv (by simp; field_simp)
    have hd := (((((hasDerivAt_psi_hyperbolic hl h2).add_const (M * Real.pi)).div hv hw.ne').sub (hasDerivAt_id x)).add
      ((hasDerivAt_y x hl).const_mul l)).div (hasDerivAt_w x) (by linarith : 1 - x ^ 2 ≠ 0)
    have hev : (fun x => exactTime x l M) =ᶠ[nhds x] fun x =>
        ((Real.arsinh ((computeY x l - x * l) * √(x ^ 2 - 1)) + M * Real.pi) / √(x ^ 2 - 1) - x + l * computeY x l) / (1 - x ^ 2) := by
      filter_upwards [Ioi_mem_nhds h2] with z hz
      exact exactTime_hyperbolic hz
    refine (hd.congr_of_eventuallyEq ?_).congr_deriv ?_
    · exact hev
    · rw [exactTime_hyperbolic h2]
      unfold tofEquationP
      simp only [Pi.div_apply, Pi.sub_apply, Pi.add_apply, id]
      generalize Real.arsinh ((computeY x l - x * l) * √(x ^ 2 - 1)) + M * Real.pi = A
      generalize computeY x l = y at *
      generalize √(x ^ 2 - 1) = w at *
      have hx2 : x ^ 2 = 1 + w ^ 2 := by linarith
      rw [show 1 - x ^ 2 = -w ^ 2 by linarith]
      field_simp
      linear_combination (w * y - l ^ 3 * x * w) * hx2 - l * x * w * hy2

theorem hasDerivAt_time2 {f : ℝ → ℝ} {x l : ℝ} (hl : l ^ 2 < 1) (hx : 1 - x ^ 2 ≠ 0)
    (hf : HasDerivAt f (tofEquationP x (computeY x l) (f x) l) x) :
    HasDerivAt (fun x => tofEquationP x (computeY x l) (f x) l)
      (tofEquationP2 x (computeY x l) (f x) (tofEquationP x (computeY x l) (f x) l) l) x := by
  have hy := y_pos x hl
  have hy2 := y_sq (x := x) hl
  have hd := (((((hf.const_mul 3).mul (hasDerivAt_id x)).sub_const 2).add
    (((hasDerivAt_id x).const_mul (2 * l ^ 3)).div (hasDerivAt_y x hl) hy.ne')).div (hasDerivAt_w x) hx)
  refine (hd.congr_of_eventuallyEq (Eventually.of_forall fun z => ?_)).congr_deriv ?_
  · simp [tofEquationP]
  · simp only [Pi.add_apply, Pi.mul_apply, Pi.div_apply, id]
    unfold tofEquationP2 tofEquationP
    generalize computeY x l = y at *
    generalize f x = T at *
    field_simp
    linear_combination (2 * l ^ 3 * (1 - x ^ 2)) * hy2

theorem hasDerivAt_time3 {f g : ℝ → ℝ} {x l : ℝ} (hl : l ^ 2 < 1) (hx : 1 - x ^ 2 ≠ 0)
    (hf : HasDerivAt f (g x) x)
    (hg : HasDerivAt g (tofEquationP2 x (computeY x l) (f x) (g x) l) x) :
    HasDerivAt (fun x => tofEquationP2 x (computeY x l) (f x) (g x) l)
      (tofEquationP3 x (computeY x l) (g x) (tofEquationP2 x (computeY x l) (f x) (g x) l) l) x := by
  have hy := y_pos x hl
  have hy2 := y_sq (x := x) hl
  have hd := (((hf.const_mul 3).add (((hasDerivAt_id x).const_mul 5).mul hg)).add
    ((((hasDerivAt_y x hl).pow 3).inv (pow_pos hy 3).ne').const_mul (2 * (1 - l ^ 2) * l ^ 3))).div (hasDerivAt_w x) hx
  refine (hd.congr_of_eventuallyEq (Eventually.of_forall fun z => ?_)).congr_deriv ?_
  · simp [tofEquationP2, div_eq_mul_inv]
  · simp only [Pi.add_apply, Pi.mul_apply, Pi.pow_apply, Pi.inv_apply, id]
    unfold tofEquationP3 tofEquationP2
    generalize computeY x l = y at *
    generalize f x = T at *
    generalize g x = T1 at *
    push_cast
    field_simp
    ring

theorem one_sub_sq_ne {x : ℝ} (h1 : -1 < x) (h2 : x ≠ 1) : 1 - x ^ 2 ≠ 0 := by
  intro h
  rcases mul_eq_zero.mp (show (1 - x) * (1 + x) = 0 by linarith) with h | h
  · exact h2 (by linarith)
  · linarith

theorem time_pos {x l : ℝ} {M : Nat} (hl : l ^ 2 < 1) (h1 : -1 < x) (h2 : x < 1) : 0 < exactTime x l M := by
  have hx : 0 < 1 - x ^ 2 := by nlinarith
  have hy := y_pos x hl
  have hy2 := y_sq (x := x) hl
  have he := eta_pos x hl
  have hw := Real.sqrt_pos.mpr hx
  obtain ⟨-, hsin⟩ := psi_elliptic hl h1 h2
  have hp : 0 ≤ computePsi x (computeY x l) l := by unfold computePsi; rw [if_pos h2]; exact Real.arccos_nonneg _
  have hs := Real.sin_le hp
  rw [hsin] at hs
  have hM : 0 ≤ M * Real.pi := by positivity
  unfold exactTime
  rw [if_neg h2.ne, abs_of_pos hx]
  apply div_pos _ hx
  have hle : computeY x l - l * x ≤ (computePsi x (computeY x l) l + M * Real.pi) / √(1 - x ^ 2) := by
    rw [le_div_iff₀ hw]; linarith
  have hl' := abs_lt.mp ((sq_lt_one_iff_abs_lt_one l).mp hl)
  have hyx : x < computeY x l := by
    by_contra hn
    push Not at hn
    nlinarith [mul_pos (sub_pos.mpr hl) hx]
  nlinarith [mul_pos (by linarith : (0:ℝ) < 1 + l) (sub_pos.mpr hyx)]

/-- Where the derivative vanishes, `x` is positive and so is the second derivative. -/
theorem critical {x l T : ℝ} (hl : l ^ 2 < 1) (h1 : -1 < x) (h2 : x < 1) (hT : 0 < T)
    (h : tofEquationP x (computeY x l) T l = 0) : 0 < x ∧ 0 < tofEquationP2 x (computeY x l) T 0 l := by
  have hx : 0 < 1 - x ^ 2 := by nlinarith
  have hy := y_pos x hl
  have hy2 := y_sq (x := x) hl
  have hgt := y_gt x hl
  unfold tofEquationP at h
  have h0 := (div_eq_zero_iff.mp h).resolve_right hx.ne'
  generalize computeY x l = y at *
  have h3 : 3 * T * x * y = 2 * (y - l ^ 3 * x) := by
    field_simp at h0
    linarith
  have hb : |l ^ 3 * x| ≤ |l * x| := by
    rw [show l ^ 3 * x = l ^ 2 * (l * x) by ring, abs_mul, abs_of_nonneg (sq_nonneg l)]
    nlinarith [abs_nonneg (l * x)]
  have h4 : 0 < y - l ^ 3 * x := by linarith [le_abs_self (l ^ 3 * x)]
  have hxp : 0 < x := by
    by_contra hn
    push Not at hn
    have : 3 * T * x * y ≤ 0 := by
      have := mul_nonneg (mul_nonneg hT.le hy.le) (neg_nonneg.mpr hn)
      linarith
    linarith
  refine ⟨hxp, ?_⟩
  unfold tofEquationP2
  apply div_pos _ hx
  have h5 : |l ^ 5 * x ^ 3| < y ^ 3 := by
    have e : |l ^ 5 * x ^ 3| = l ^ 2 * |l * x| ^ 3 := by
      rw [show l ^ 5 * x ^ 3 = l ^ 2 * (l * x) ^ 3 by ring, abs_mul, abs_of_nonneg (sq_nonneg l), abs_pow]
    rw [e]
    have h6 : |l * x| ^ 3 < y ^ 3 := pow_lt_pow_left₀ hgt (abs_nonneg _) (by norm_num)
    have h7 : 0 ≤ |l * x| ^ 3 := by positivity
    nlinarith
  have h8 : l ^ 5 * x ^ 3 < y ^ 3 := (le_abs_self _).trans_lt h5
  have e : 3 * T + 5 * x * 0 + 2 * (1 - l ^ 2) * l ^ 3 / y ^ 3 = 2 * (y ^ 3 - l ^ 5 * x ^ 3) / (x * y ^ 3) := by
    rw [eq_div_iff (by positivity)]
    field_simp
    linear_combination y ^ 2 * h3 - 2 * l ^ 3 * x * hy2
  rw [e]
  exact div_pos (by linarith) (by positivity)

/-- A function with a positive derivative at all of its zeros has no more than one zero. -/
theorem unique_zero {f f' : ℝ → ℝ} {u v a b : ℝ} (hf : ∀ x, u < x → x < v → HasDerivAt f (f' x) x)
    (hpos : ∀ x, u < x → x < v → f x = 0 → 0 < f' x) (ha : u < a) (hb : b < v) (hab : a < b) (ha0 : f a = 0) (hb0 : f b = 0) : False := by
  have hcont : ContinuousOn f (Set.Icc a b) := fun x hx =>
    (hf x (ha.trans_le hx.1) (hx.2.trans_lt hb)).continuousAt.continuousWithinAt
  -- just after `a` the function is positive
  have hra : ∀ᶠ x in nhdsWithin a (Set.Ioi a), 0 < f x := by
    have hd := (hf a ha (hab.trans hb)).hasDerivWithinAt (s := Set.Ioi a)
    rw [hasDerivWithinAt_iff_tendsto_slope] at hd
    have hp := hpos a ha (hab.trans hb) ha0
    have h1 := hd.eventually (lt_mem_nhds hp)
    rw [show Set.Ioi a \ {a} = Set.Ioi a by ext; simp] at h1
    filter_upwards [h1, self_mem_nhdsWithin] with x hx hxa
    rw [slope_def_field, ha0, sub_zero] at hx
    exact (div_pos_iff_of_pos_right (sub_pos.mpr hxa)).mp hx
  obtain ⟨a1, h1, h2⟩ : ∃ a1, 0 < f a1 ∧ a < a1 ∧ a1 < b := by
    have h3 : ∀ᶠ x in nhdsWithin a (Set.Ioi a), x ∈ Set.Ioo a b := Ioo_mem_nhdsGT hab
    obtain ⟨a1, h4, h5⟩ := (hra.and h3).exists
    exact ⟨a1, h4, h5⟩
  -- the first point after it where it is not
  have hcomp : IsCompact (Set.Icc a1 b ∩ f ⁻¹' Set.Iic 0) := by
    apply (isCompact_Icc (a := a1) (b := b)).of_isClosed_subset _ Set.inter_subset_left
    exact (hcont.mono (Set.Icc_subset_Icc_left h2.1.le)).preimage_isClosed_of_isClosed isClosed_Icc isClosed_Iic
  obtain ⟨c, ⟨hc1, hc2⟩, hmin⟩ := hcomp.exists_isLeast ⟨b, ⟨h2.2.le, le_rfl⟩, hb0.le⟩
  have hca : a1 < c := lt_of_le_of_ne hc1.1 (by rintro rfl; exact absurd hc2 (not_le.mpr h1))
  have hbefore : ∀ x, a1 ≤ x → x < c → 0 < f x := by
    intro x hx hxc
    by_contra hn
    push Not at hn
    exact absurd (hmin ⟨⟨hx, hxc.le.trans hc1.2⟩, hn⟩) (not_le.mpr hxc)
  have hcv : u < c ∧ c < v := ⟨ha.trans (h2.1.trans hca), hc1.2.trans_lt hb⟩
  have hdc := hf c hcv.1 hcv.2
  have hIio : ∀ᶠ x in nhdsWithin c (Set.Iio c), 0 < f x := by
    have : ∀ᶠ x in nhdsWithin c (Set.Iio c), x ∈ Set.Ioo a1 c := Ioo_mem_nhdsLT hca
    filter_upwards [this] with x hx
    exact hbefore x hx.1.le hx.2
  have hc0 : f c = 0 := by
    apply le_antisymm hc2
    exact ge_of_tendsto (hdc.continuousAt.tendsto.mono_left nhdsWithin_le_nhds) (hIio.mono fun _ h => h.le)
  have hd := hdc.hasDerivWithinAt (s := Set.Iio c)
  rw [hasDerivWithinAt_iff_tendsto_slope] at hd
  have h3 := hd.eventually (lt_mem_nhds (hpos c hcv.1 hcv.2 hc0))
  rw [show Set.Iio c \ {c} = Set.Iio c by ext; simp] at h3
  obtain ⟨x, hx1, hx2, hx3⟩ := (h3.and (hIio.and self_mem_nhdsWithin)).exists
  rw [slope_def_field, hc0, sub_zero] at hx1
  have : f x / (x - c) < 0 := div_neg_of_pos_of_neg hx2 (sub_neg.mpr hx3)
  linarith

end Verif.Lambert
