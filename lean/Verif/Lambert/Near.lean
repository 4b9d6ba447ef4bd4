import Verif.Lambert.Series

/-! # The time of flight near the parabola -/

namespace Verif.Lambert

/-- The bound on the truncation error, relative to the closed form. -/
theorem small_K {z : ℝ} (h0 : 0 ≤ z) (h : z ≤ 0.4) : 2 / 3 * (103 * coef 100 * z ^ 101) ≤ 1 / 10 ^ 36 := by
  have h1 : z ^ 101 ≤ 0.4 ^ 101 := pow_le_pow_left₀ h0 h 101
  have h2 : coef 100 ≤ 101 := (coef_le 100).trans (by norm_num)
  have h3 : coef 100 * z ^ 101 ≤ 101 * 0.4 ^ 101 := mul_le_mul h2 h1 (pow_nonneg h0 _) (by norm_num)
  have h4 : 2 / 3 * (103 * (101 * (0.4 : ℝ) ^ 101)) ≤ 1 / 10 ^ 36 := by norm_num
  have h5 : 2 / 3 * (103 * coef 100 * z ^ 101) = 2 / 3 * (103 * (coef 100 * z ^ 101)) := by ring
  rw [h5]
  refine le_trans ?_ h4
  gcongr

/-- A closed form `F` close to the sum relative to itself is close to it. -/
theorem close_abs {P Hv F k : ℝ} (hP : 0 < P) (hF : |P * Hv - F| ≤ k * F) (hk : k ≤ 1 / 10 ^ 36) (hF0 : 0 ≤ F) (hH : |Hv| ≤ 10201) :
    |Hv - F / P| ≤ 1 / 10 ^ 31 := by
  have h1 : |P * Hv - F| ≤ 1 / 10 ^ 36 * F := hF.trans (mul_le_mul_of_nonneg_right hk hF0)
  have h2 : F ≤ 2 * (P * 10201) := by
    have a := (abs_le.mp h1).1
    have b := mul_le_mul_of_nonneg_left (abs_le.mp hH).2 hP.le
    norm_num at a ⊢
    nlinarith
  have h3 : Hv - F / P = (P * Hv - F) / P := by field_simp
  rw [h3, abs_div, abs_of_pos hP, div_le_iff₀ hP]
  refine h1.trans ?_
  norm_num
  nlinarith

variable {l x : ℝ}

theorem eta_le (hl : l ^ 2 < 1) (hx : x ^ 2 ≤ 1.4) : computeY x l - l * x ≤ 2.4 := by
  have hy := y_sq (x := x) hl
  have h0 : 0 ≤ computeY x l := Real.sqrt_nonneg _
  have h1 : computeY x l ≤ 1.2 := by
    apply le_of_sq_le_sq _ (by norm_num : (0 : ℝ) ≤ 1.2) |> fun h => h
    nlinarith [mul_nonneg (sq_nonneg l) (sub_nonneg.mpr hx)]
  have h2 : (l * x) ^ 2 ≤ 1.2 ^ 2 := by
    rw [mul_pow]
    nlinarith [mul_nonneg (sub_nonneg.mpr hl.le) (sq_nonneg x)]
  have h3 := (abs_le_of_sq_le_sq' h2 (by norm_num)).1
  linarith

/-- The argument of the series. -/
theorem hyp_argument (hl : l ^ 2 < 1) (h1 : 0.6 < x ^ 2) (h2 : x ^ 2 < 1.4) (h0 : 0 < x) :
    |(1 - l - x * (computeY x l - l * x)) * 0.5| ≤ 0.4 := by
  have hy := y_sq (x := x) hl
  have hy0 : 0 ≤ computeY x l := Real.sqrt_nonneg _
  set y := computeY x l
  have hll := abs_lt.mp ((sq_lt_one_iff_abs_lt_one l).mp hl)
  rw [abs_le]
  rcases le_total (x ^ 2) 1 with hx | hx
  · have hyx : x ≤ y := by
      apply le_of_sq_le_sq _ hy0 |> fun h => h
      nlinarith [mul_nonneg (sub_nonneg.mpr hl.le) (sub_nonneg.mpr hx)]
    have hy1 : y ≤ 1 := by
      apply le_of_sq_le_sq _ (by norm_num : (0:ℝ) ≤ 1) |> fun h => h
      nlinarith [mul_nonneg (sq_nonneg l) (sub_nonneg.mpr hx)]
    have hx1 : x ≤ 1 := by nlinarith
    constructor
    · nlinarith [mul_nonneg (sub_nonneg.mpr hll.2.le) (sub_nonneg.mpr hx), mul_le_mul hx1 hy1 hy0 (by norm_num)]
    · nlinarith [mul_nonneg (by linarith [hll.1] : 0 ≤ 1 + l) (sub_nonneg.mpr hx), mul_le_mul_of_nonneg_left hyx h0.le]
  · have hyx : y ≤ x := by
      apply le_of_sq_le_sq _ h0.le |> fun h => h
      nlinarith [mul_nonneg (sub_nonneg.mpr hl.le) (sub_nonneg.mpr hx)]
    have hy1 : 1 ≤ y := by
      apply le_of_sq_le_sq _ hy0 |> fun h => h
      nlinarith [mul_nonneg (sq_nonneg l) (sub_nonneg.mpr hx)]
    have hx1 : 1 ≤ x := by nlinarith
    constructor
    · nlinarith [mul_nonneg (by linarith [hll.1] : 0 ≤ 1 + l) (sub_nonneg.mpr hx), mul_le_mul_of_nonneg_left hyx h0.le]
    · nlinarith [mul_nonneg (sub_nonneg.mpr hll.2.le) (sub_nonneg.mpr hx), mul_le_mul hx1 hy1 (by norm_num) h0.le]

theorem ell_alg {η w x y psi kap : ℝ} (hη : η ≠ 0) (hw : w ≠ 0) (k : η * (2 * l * w ^ 2 - kap) = l * y - x) :
    (psi / w - x + l * y) / w ^ 2 = 2 / 3 * η ^ 3 * (3 / 16 * (psi - η * w * kap) / ((η * w) ^ 3 / 8)) + 2 * l * η := by
  field_simp
  linear_combination (-16 * w) * k

theorem hyp_alg {η w x y psi kap : ℝ} (hη : η ≠ 0) (hw : w ≠ 0) (k : η * (2 * l * -w ^ 2 - kap) = l * y - x) :
    (psi / w - x + l * y) / -w ^ 2 = 2 / 3 * η ^ 3 * (3 / 16 * (η * w * kap - psi) / ((η * w) ^ 3 / 8)) + 2 * l * η := by
  field_simp
  linear_combination (16 * w) * k

/-- The two ways of computing the time of flight agree where the series is used. -/
theorem near (hl : l ^ 2 < 1) (hs : useSmall x 0) : |timeOfFlight x (computeY x l) l 0 - exactTime x l 0| ≤ 1 / 10 ^ 30 := by
  obtain ⟨-, a1, a2⟩ := id hs
  have h0 : 0 < x := lt_of_le_of_lt (Real.sqrt_nonneg _) a1
  have b1 : 0.6 < x ^ 2 := by
    have := Real.sq_sqrt (show (0 : ℝ) ≤ 0.6 by norm_num)
    nlinarith [Real.sqrt_nonneg (0.6 : ℝ)]
  have b2 : x ^ 2 < 1.4 := by
    have := Real.sq_sqrt (show (0 : ℝ) ≤ 1.4 by norm_num)
    nlinarith [Real.sqrt_nonneg (1.4 : ℝ)]
  have arg := hyp_argument hl b1 b2 h0
  have hy := y_sq (x := x) hl
  have he := eta_pos x hl
  have hele := eta_le hl b2.le
  have k3 := K3 hy
  unfold timeOfFlight
  rw [if_pos hs]
  simp only []
  rw [hyp_eq]
  obtain ⟨z, hzd⟩ : ∃ z, z = (1 - l - x * (computeY x l - l * x)) * 0.5 := ⟨_, rfl⟩
  rw [← hzd] at arg ⊢
  have hHb := H_bound (z := z) (arg.trans (by norm_num))
  have hfin : ∀ F : ℝ, |H 100 z - F| ≤ 1 / 10 ^ 31 →
      exactTime x l 0 = 2 / 3 * (computeY x l - l * x) ^ 3 * F + 2 * l * (computeY x l - l * x) →
      |((computeY x l - l * x) ^ 3 * (4 / 3 * H 100 z) + 4 * l * (computeY x l - l * x)) * 0.5 -
        exactTime x l 0| ≤ 1 / 10 ^ 30 := by
    intro F hF he2
    rw [he2]
    have e : ((computeY x l - l * x) ^ 3 * (4 / 3 * H 100 z) + 4 * l * (computeY x l - l * x)) * 0.5 -
        (2 / 3 * (computeY x l - l * x) ^ 3 * F + 2 * l * (computeY x l - l * x)) =
        2 / 3 * (computeY x l - l * x) ^ 3 * (H 100 z - F) := by ring
    rw [e, abs_mul, abs_of_pos (by positivity)]
    have h3 : (computeY x l - l * x) ^ 3 ≤ 2.4 ^ 3 := pow_le_pow_left₀ he.le hele 3
    calc _ ≤ 2 / 3 * 2.4 ^ 3 * (1 / 10 ^ 31 : ℝ) := by gcongr
      _ ≤ 1 / 10 ^ 30 := by norm_num
  rcases lt_trichotomy x 1 with hx | hx | hx
  · -- an ellipse
    have hw : 0 < 1 - x ^ 2 := by nlinarith
    obtain ⟨hc, hsn⟩ := psi_elliptic hl (by linarith) hx
    set psi := computePsi x (computeY x l) l with hpsi
    set y := computeY x l
    set w := √(1 - x ^ 2) with hwd
    have hwp : 0 < w := Real.sqrt_pos.mpr hw
    have hw2 : w ^ 2 = 1 - x ^ 2 := Real.sq_sqrt hw.le
    have hp0 : 0 ≤ psi := by rw [hpsi]; unfold computePsi; rw [if_pos hx]; exact Real.arccos_nonneg _
    have hp1 : psi ≤ Real.pi := by rw [hpsi]; unfold computePsi; rw [if_pos hx]; exact Real.arccos_le_pi _
    have hz : z = Real.sin (psi / 2) ^ 2 := by
      have : Real.sin (psi / 2) ^ 2 = 1 / 2 - Real.cos psi / 2 := by
        rw [Real.sin_sq_eq_half_sub, show 2 * (psi / 2) = psi by ring]
      rw [hzd, this, hc]; ring
    have hsp : Real.sin psi = 2 * Real.sin (psi / 2) * Real.cos (psi / 2) := by
      rw [← Real.sin_two_mul, show 2 * (psi / 2) = psi by ring]
    have hP : Real.sin (psi / 2) ^ 3 * Real.cos (psi / 2) ^ 3 = ((y - l * x) * w) ^ 3 / 8 := by
      rw [← hsn, hsp]; ring
    have cl := trig_close (t := psi / 2) (by linarith) (by linarith)
    rw [hP, ← hz] at cl
    have harg0 : 0 ≤ z := by rw [hz]; positivity
    have hK := small_K harg0 (abs_le.mp arg).2
    set F := 3 / 2 * (psi / 2 / 4 - Real.sin (4 * (psi / 2)) / 16) with hFd
    have hF0 : 0 ≤ F := by
      have : Real.sin (4 * (psi / 2)) ≤ 4 * (psi / 2) := Real.sin_le (by linarith)
      rw [hFd]; linarith
    have hPpos : 0 < ((y - l * x) * w) ^ 3 / 8 := by positivity
    refine hfin _ (close_abs hPpos cl hK hF0 hHb) ?_
    unfold exactTime
    rw [if_neg hx.ne, abs_of_pos hw, ← hpsi, ← hwd, ← hw2]
    have hF : F = 3 / 16 * (psi - (y - l * x) * w * (x * y + l * (1 - x ^ 2))) := by
      rw [hFd, show 4 * (psi / 2) = 2 * psi by ring, Real.sin_two_mul, hsn, hc]
      ring
    rw [hF, Nat.cast_zero, zero_mul, add_zero]
    rw [← hw2] at k3 ⊢
    exact ell_alg he.ne' hwp.ne' k3
  · -- the parabola
    subst hx
    have hy1 : computeY 1 l = 1 := by unfold computeY; norm_num
    refine hfin 1 ?_ ?_
    · rw [hzd, hy1, show (1 - l - 1 * (1 - l * 1)) * (0.5 : ℝ) = 0 by ring, H_zero]; norm_num
    · unfold exactTime
      rw [if_pos rfl, hy1]; ring
  · -- a hyperbola
    have hw : 0 < x ^ 2 - 1 := by nlinarith
    obtain ⟨hc, hsn⟩ := psi_hyperbolic hl hx
    set psi := computePsi x (computeY x l) l with hpsi
    set y := computeY x l
    set w := √(x ^ 2 - 1) with hwd
    have hwp : 0 < w := Real.sqrt_pos.mpr hw
    have hw2 : w ^ 2 = x ^ 2 - 1 := Real.sq_sqrt hw.le
    have hp0 : 0 ≤ psi := by
      rw [← Real.sinh_nonneg_iff, hsn]; positivity
    have hz : z = -Real.sinh (psi / 2) ^ 2 := by
      have h1 : Real.cosh psi = Real.cosh (psi / 2) ^ 2 + Real.sinh (psi / 2) ^ 2 := by
        rw [← Real.cosh_two_mul, show 2 * (psi / 2) = psi by ring]
      have h2 := Real.cosh_sq (psi / 2)
      rw [h2, hc] at h1
      rw [hzd]
      linear_combination (-1 / 2) * h1
    have hsp : Real.sinh psi = 2 * Real.sinh (psi / 2) * Real.cosh (psi / 2) := by
      rw [← Real.sinh_two_mul, show 2 * (psi / 2) = psi by ring]
    have hP : Real.sinh (psi / 2) ^ 3 * Real.cosh (psi / 2) ^ 3 = ((y - l * x) * w) ^ 3 / 8 := by
      rw [← hsn, hsp]; ring
    have cl := hyp_close (t := psi / 2) (by linarith)
    rw [hP, ← hz] at cl
    have harg0 : 0 ≤ Real.sinh (psi / 2) ^ 2 := sq_nonneg _
    have hK := small_K harg0 (by have := (abs_le.mp arg).1; linarith)
    set F := 3 / 2 * (Real.sinh (4 * (psi / 2)) / 16 - psi / 2 / 4) with hFd
    have hF0 : 0 ≤ F := by
      have : 4 * (psi / 2) ≤ Real.sinh (4 * (psi / 2)) := Real.self_le_sinh_iff.mpr (by linarith)
      rw [hFd]; linarith
    have hPpos : 0 < ((y - l * x) * w) ^ 3 / 8 := by positivity
    refine hfin _ (close_abs hPpos cl hK hF0 hHb) ?_
    unfold exactTime
    rw [if_neg hx.ne', abs_of_neg (by linarith : 1 - x ^ 2 < 0), neg_sub, ← hpsi, ← hwd]
    have hF : F = 3 / 16 * ((y - l * x) * w * (x * y + l * (1 - x ^ 2)) - psi) := by
      rw [hFd, show 4 * (psi / 2) = 2 * psi by ring, Real.sinh_two_mul, hsn, hc]
      ring
    rw [hF]
    have e : 1 - x ^ 2 = -w ^ 2 := by rw [hw2]; ring
    rw [e] at k3 ⊢
    rw [Nat.cast_zero, zero_mul, add_zero]
    exact hyp_alg he.ne' hwp.ne' k3

end Verif.Lambert
