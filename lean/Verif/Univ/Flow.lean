import Verif.Univ.Stumpff
import Mathlib.Analysis.Calculus.Deriv.MeanValue
import Mathlib.Analysis.Calculus.Deriv.Inverse
import Mathlib.Analysis.Calculus.Deriv.Slope
import Mathlib.Topology.Order.MonotoneContinuity
import Mathlib.Topology.Order.IntermediateValue
import Mathlib.Tactic.Positivity
import Mathlib.Order.Filter.AtTopBot.Field

/-! # The universal Kepler equation and the motion it describes -/

namespace Verif.Univ

/-- `2 - ρα`, i.e. `ρ v² / μ`. -/
noncomputable def bcoef (mu : ℝ) (r v : V3) : ℝ := 2 - V3.norm r * alpha mu r v

/-- The left side of the universal Kepler equation in universal functions. -/
noncomputable def FF (rho s a x : ℝ) : ℝ := s * U2 a x + U3 a x + rho * U1 a x

/-- Its derivative: the distance. -/
noncomputable def RR (rho s a x : ℝ) : ℝ := rho * U0 a x + s * U1 a x + U2 a x

theorem keplerF_eq (mu : ℝ) (r v : V3) (dt x : ℝ) :
    keplerF mu r v dt x = FF (V3.norm r) (sigma mu r v) (alpha mu r v) x - Real.sqrt mu * dt := by
  obtain ⟨-, h, -⟩ := U_rel (alpha mu r v) x
  unfold keplerF FF
  simp only
  unfold U1 U2 U3 at *
  linear_combination (V3.norm r) * h

theorem keplerFp_eq (mu : ℝ) (r v : V3) (x : ℝ) :
    keplerFp mu r v x = RR (V3.norm r) (sigma mu r v) (alpha mu r v) x := by
  obtain ⟨h0, h, -⟩ := U_rel (alpha mu r v) x
  unfold keplerFp RR
  simp only
  rw [h0]
  unfold U1 U2 U3 at *
  linear_combination (sigma mu r v) * h

theorem FF_deriv (rho s a x : ℝ) : HasDerivAt (FF rho s a) (RR rho s a x) x := by
  obtain ⟨-, h1, h2, h3⟩ := U_deriv a x
  refine (((h2.const_mul s).add h3).add (h1.const_mul rho)).congr_deriv ?_
  unfold RR
  ring

theorem FF_zero (rho s a : ℝ) : FF rho s a 0 = 0 := by
  unfold FF U1 U2 U3
  ring

/-- A lower bound of the distance along the motion. -/
noncomputable def floorR (rho s a : ℝ) : ℝ := (rho * (2 - rho * a) - s ^ 2) / ((rho + (2 - rho * a)) * max 1 |a|)

theorem RR_half (rho s a x : ℝ) : RR rho s a x =
    rho * U0 a (x / 2) ^ 2 + 2 * s * U1 a (x / 2) * U0 a (x / 2) + (2 - rho * a) * U1 a (x / 2) ^ 2 ∧
    U0 a (x / 2) ^ 2 + a * U1 a (x / 2) ^ 2 = 1 := by
  obtain ⟨a0, a1, a2, -⟩ := U_add a (x / 2) (x / 2)
  obtain ⟨r0, -, r2⟩ := U_rel a (x / 2)
  rw [add_halves] at a0 a1 a2
  constructor
  · unfold RR
    rw [a0, a1, a2]
    linear_combination U2 a (x / 2) * r0 - r2
  · rw [r0]
    linear_combination a * r2

section bounds

variable {rho s a : ℝ} (hr : 0 < rho) (hD : 0 < rho * (2 - rho * a) - s ^ 2)

include hr hD

theorem b_pos : 0 < 2 - rho * a := by
  have h : 0 < rho * (2 - rho * a) := by nlinarith [sq_nonneg s]
  exact (pos_iff_pos_of_mul_pos h).mp hr

theorem floorR_pos : 0 < floorR rho s a := by
  have hb := b_pos hr hD
  unfold floorR
  have : 0 < max 1 |a| := lt_of_lt_of_le one_pos (le_max_left _ _)
  positivity

theorem floorR_le (x : ℝ) : floorR rho s a ≤ RR rho s a x := by
  obtain ⟨h, h1⟩ := RR_half rho s a x
  have hb := b_pos hr hD
  set u := U1 a (x / 2)
  set w := U0 a (x / 2)
  set b := 2 - rho * a with hbdef
  have hm1 : 1 ≤ max 1 |a| := le_max_left _ _
  have hma : |a| ≤ max 1 |a| := le_max_right _ _
  set m := max 1 |a|
  have hmpos : 0 < m := lt_of_lt_of_le one_pos hm1
  have hw : 1 ≤ m * (w ^ 2 + u ^ 2) := by
    have : a * u ^ 2 ≤ m * u ^ 2 := mul_le_mul_of_nonneg_right (le_trans (le_abs_self a) hma) (sq_nonneg u)
    have : 1 * w ^ 2 ≤ m * w ^ 2 := mul_le_mul_of_nonneg_right hm1 (sq_nonneg w)
    nlinarith
  have hR : (rho * b - s ^ 2) * (w ^ 2 + u ^ 2) ≤ (rho + b) * RR rho s a x := by
    rw [h]
    nlinarith [sq_nonneg (rho * w + s * u), sq_nonneg (s * w + b * u)]
  unfold floorR
  rw [div_le_iff₀ (by positivity)]
  have hk : (rho * b - s ^ 2) * 1 ≤ (rho * b - s ^ 2) * (m * (w ^ 2 + u ^ 2)) := mul_le_mul_of_nonneg_left hw hD.le
  have hk2 := mul_le_mul_of_nonneg_left hR hmpos.le
  rw [← hbdef]
  nlinarith

theorem RR_pos (x : ℝ) : 0 < RR rho s a x := lt_of_lt_of_le (floorR_pos hr hD) (floorR_le hr hD x)

theorem FF_gap {x y : ℝ} (h : x ≤ y) : floorR rho s a * (y - x) ≤ FF rho s a y - FF rho s a x := by
  have hd : ∀ z, HasDerivAt (fun z => FF rho s a z - floorR rho s a * z) (RR rho s a z - floorR rho s a) z := fun z => by
    exact ((FF_deriv rho s a z).sub ((hasDerivAt_id z).const_mul (floorR rho s a))).congr_deriv (by rw [mul_one])
  have hm := monotone_of_hasDerivAt_nonneg hd (fun z => sub_nonneg.mpr (floorR_le hr hD z)) h
  simp only at hm
  linarith

theorem FF_gap_abs (x y : ℝ) : floorR rho s a * |y - x| ≤ |FF rho s a y - FF rho s a x| := by
  rcases le_total x y with h | h
  · rw [abs_of_nonneg (sub_nonneg.mpr h)]
    exact le_trans (FF_gap hr hD h) (le_abs_self _)
  · rw [abs_sub_comm, abs_of_nonneg (sub_nonneg.mpr h), abs_sub_comm]
    exact le_trans (FF_gap hr hD h) (le_abs_self _)

theorem FF_strictMono : StrictMono (FF rho s a) := fun x y h => by
  have := FF_gap hr hD h.le
  have := mul_pos (floorR_pos hr hD) (sub_pos.mpr h)
  linarith

omit hr hD in
theorem FF_continuous : Continuous (FF rho s a) := continuous_iff_continuousAt.mpr fun x => (FF_deriv rho s a x).continuousAt

theorem FF_surjective : Function.Surjective (FF rho s a) := by
  have hc := floorR_pos hr hD
  refine FF_continuous.surjective ?_ ?_
  · refine Filter.tendsto_atTop_mono' (f₁ := fun x => floorR rho s a * x) _ ?_ (Filter.tendsto_id.const_mul_atTop hc)
    filter_upwards [Filter.eventually_ge_atTop 0] with x hx
    have := FF_gap hr hD hx
    rw [FF_zero] at this
    linarith
  · refine Filter.tendsto_atBot_mono' (f₁ := fun x => floorR rho s a * x) _ ?_ (Filter.tendsto_id.const_mul_atBot hc)
    filter_upwards [Filter.eventually_le_atBot 0] with x hx
    have := FF_gap hr hD hx
    rw [FF_zero] at this
    linarith

end bounds

/-! ### initial states -/

theorem sigma_eq {mu : ℝ} {r v : V3} (hmu : 0 < mu) (hr : r ≠ ⟨0, 0, 0⟩) : V3.dot r v = sigma mu r v * Real.sqrt mu := by
  have h0 : V3.norm r ≠ 0 := fun h => hr (V3.norm_eq_zero.mp h)
  have hm : Real.sqrt mu ≠ 0 := (Real.sqrt_pos.mpr hmu).ne'
  unfold sigma
  field_simp

theorem vv_eq {mu : ℝ} {r v : V3} (hmu : 0 < mu) (hr : r ≠ ⟨0, 0, 0⟩) :
    V3.norm r * V3.dot v v = mu * (2 - V3.norm r * alpha mu r v) := by
  have h0 : V3.norm r ≠ 0 := fun h => hr (V3.norm_eq_zero.mp h)
  unfold alpha
  rw [V3.norm_sq]
  field_simp
  ring

theorem lagrange_id (a b : V3) : V3.dot (V3.cross a b) (V3.cross a b) = V3.dot a a * V3.dot b b - V3.dot a b ^ 2 := by
  unfold V3.cross V3.dot
  ring

theorem disc_eq {mu : ℝ} {r v : V3} (hmu : 0 < mu) (hr : r ≠ ⟨0, 0, 0⟩) :
    mu * (V3.norm r * (2 - V3.norm r * alpha mu r v) - sigma mu r v ^ 2) = V3.dot (V3.cross r v) (V3.cross r v) := by
  have h1 := sigma_eq (v := v) hmu hr
  have h2 := vv_eq (v := v) hmu hr
  have h3 := V3.norm_sq r
  have h4 := Real.sq_sqrt hmu.le
  rw [lagrange_id, h1, ← h3]
  linear_combination -V3.norm r * h2 + sigma mu r v ^ 2 * h4

theorem norm_pos' {r : V3} (hr : r ≠ ⟨0, 0, 0⟩) : 0 < V3.norm r :=
  lt_of_le_of_ne (V3.norm_nonneg r) fun h => hr (V3.norm_eq_zero.mp h.symm)

/-- A state that does not move along a line through the attracting body. -/
theorem ne_zero_of_cross {r v : V3} (h : V3.cross r v ≠ ⟨0, 0, 0⟩) : r ≠ ⟨0, 0, 0⟩ := by
  rintro rfl
  apply h
  simp [V3.cross]

theorem disc_pos {mu : ℝ} {r v : V3} (hmu : 0 < mu) (h : V3.cross r v ≠ ⟨0, 0, 0⟩) :
    0 < V3.norm r * (2 - V3.norm r * alpha mu r v) - sigma mu r v ^ 2 := by
  have h1 := disc_eq (v := v) hmu (ne_zero_of_cross h)
  have h2 : 0 < V3.dot (V3.cross r v) (V3.cross r v) := by
    rw [← V3.norm_sq]
    exact pow_pos (norm_pos' h) 2
  rw [← h1] at h2
  exact (pos_iff_pos_of_mul_pos h2).mp hmu

theorem RR_nonneg {mu : ℝ} {r v : V3} (hmu : 0 < mu) (hr : r ≠ ⟨0, 0, 0⟩) (x : ℝ) :
    0 ≤ RR (V3.norm r) (sigma mu r v) (alpha mu r v) x := by
  have h1 := disc_eq (v := v) hmu hr
  have h2 : 0 ≤ V3.dot (V3.cross r v) (V3.cross r v) := by
    rw [← V3.norm_sq]
    exact sq_nonneg _
  rw [← h1] at h2
  have h3 : 0 ≤ V3.norm r * (2 - V3.norm r * alpha mu r v) - sigma mu r v ^ 2 := nonneg_of_mul_nonneg_right h2 hmu
  obtain ⟨h4, -⟩ := RR_half (V3.norm r) (sigma mu r v) (alpha mu r v) x
  have h5 := norm_pos' hr
  have h6 : 0 ≤ V3.norm r * RR (V3.norm r) (sigma mu r v) (alpha mu r v) x := by
    rw [h4]
    nlinarith [sq_nonneg (V3.norm r * U0 (alpha mu r v) (x / 2) + sigma mu r v * U1 (alpha mu r v) (x / 2)),
      mul_nonneg h3 (sq_nonneg (U1 (alpha mu r v) (x / 2)))]
  exact nonneg_of_mul_nonneg_right h6 h5

/-! ### the exact step -/

/-- The state that the Lagrange coefficients give for an anomaly `x` and its own Stumpff functions. -/
noncomputable def stateAt (mu : ℝ) (r v : V3) (dt x : ℝ) : V3 × V3 :=
  applyLagrange r v (lagrange mu r v dt x (calcStumpff (alpha mu r v * x ^ 2)))

theorem pos_dot {mu : ℝ} {r v : V3} {dt x : ℝ} (hmu : 0 < mu) (hr : r ≠ ⟨0, 0, 0⟩) (hx : keplerF mu r v dt x = 0) :
    (lagrange mu r v dt x (calcStumpff (alpha mu r v * x ^ 2))).f = 1 - U2 (alpha mu r v) x / V3.norm r ∧
    (lagrange mu r v dt x (calcStumpff (alpha mu r v * x ^ 2))).g =
      (sigma mu r v * U2 (alpha mu r v) x + V3.norm r * U1 (alpha mu r v) x) / Real.sqrt mu ∧
    V3.dot (stateAt mu r v dt x).1 (stateAt mu r v dt x).1 = RR (V3.norm r) (sigma mu r v) (alpha mu r v) x ^ 2 := by
  have h0 := norm_pos' hr
  have hm := Real.sqrt_pos.mpr hmu
  have hq := Real.sq_sqrt hmu.le
  rw [keplerF_eq] at hx
  have e1 : (lagrange mu r v dt x (calcStumpff (alpha mu r v * x ^ 2))).f = 1 - U2 (alpha mu r v) x / V3.norm r := by
    unfold lagrange U2
    simp only
    ring
  have e2 : (lagrange mu r v dt x (calcStumpff (alpha mu r v * x ^ 2))).g =
      (sigma mu r v * U2 (alpha mu r v) x + V3.norm r * U1 (alpha mu r v) x) / Real.sqrt mu := by
    unfold lagrange
    simp only
    have : x ^ 3 * (calcStumpff (alpha mu r v * x ^ 2)).c3 = U3 (alpha mu r v) x := rfl
    rw [mul_assoc, this]
    unfold FF at hx
    field_simp
    linear_combination -hx
  refine ⟨e1, e2, ?_⟩
  have e3 : ∀ f g : ℝ, V3.dot (V3.add (V3.smul f r) (V3.smul g v)) (V3.add (V3.smul f r) (V3.smul g v)) =
      f ^ 2 * V3.dot r r + 2 * f * g * V3.dot r v + g ^ 2 * V3.dot v v := by
    intro f g
    unfold V3.dot V3.add V3.smul
    ring
  unfold stateAt applyLagrange
  simp only
  rw [e3, e1, e2, ← V3.norm_sq, sigma_eq hmu hr]
  have hv : V3.dot v v = mu * (2 - V3.norm r * alpha mu r v) / V3.norm r := by
    rw [← vv_eq hmu hr]
    field_simp
  rw [hv]
  obtain ⟨u0, -, u2⟩ := U_rel (alpha mu r v) x
  unfold RR
  rw [u0]
  generalize V3.norm r = rho at *
  generalize sigma mu r v = s at *
  generalize alpha mu r v = a at *
  generalize U1 a x = p1 at *
  generalize U2 a x = p2 at *
  generalize hsm : Real.sqrt mu = m at *
  have hm' : m ≠ 0 := hm.ne'
  have h0' : rho ≠ 0 := h0.ne'
  rw [← hq]
  field_simp
  linear_combination (rho ^ 2 * (2 - rho * a) - rho * s ^ 2) * u2

end Verif.Univ
