import Verif.Univ.Props
import Mathlib.Analysis.SpecialFunctions.Trigonometric.Bounds

/-! # Newton's iteration for the universal Kepler equation of an ellipse

With `θ = √α χ` the equation is `θ + A (1 - cos θ) - B sin θ = N`, where `A² + B²` is the square of the eccentricity. -/

namespace Verif.Univ

/-- The left side of the equation in `θ`. -/
noncomputable def GG (A B t : ℝ) : ℝ := t + A * (1 - Real.cos t) - B * Real.sin t

/-- Its derivative. -/
noncomputable def GGp (A B t : ℝ) : ℝ := 1 + A * Real.sin t - B * Real.cos t

theorem cs_bound {C D p q e m : ℝ} (h : C ^ 2 + D ^ 2 ≤ e ^ 2) (he : 0 ≤ e) (hm : 0 ≤ m) (hpq : p ^ 2 + q ^ 2 ≤ m ^ 2) :
    |C * p + D * q| ≤ e * m := by
  apply abs_le_of_sq_le_sq _ (mul_nonneg he hm)
  have h1 : (C * p + D * q) ^ 2 ≤ (C ^ 2 + D ^ 2) * (p ^ 2 + q ^ 2) := by nlinarith [sq_nonneg (C * q - D * p)]
  have h2 : (C ^ 2 + D ^ 2) * (p ^ 2 + q ^ 2) ≤ e ^ 2 * m ^ 2 := mul_le_mul h hpq (by positivity) (by positivity)
  nlinarith

/-- `|exp (i d) - 1 - i d| ≤ d² / 2`, squared. -/
theorem second_order (d : ℝ) : (1 - Real.cos d) ^ 2 + (d - Real.sin d) ^ 2 ≤ (d ^ 2 / 2) ^ 2 := by
  have main : ∀ x : ℝ, 0 ≤ x → 0 ≤ x ^ 4 / 4 - (2 - 2 * Real.cos x + x ^ 2 - 2 * x * Real.sin x) := by
    let F : ℝ → ℝ := fun x => x ^ 4 / 4 - (2 - 2 * Real.cos x + x ^ 2 - 2 * x * Real.sin x)
    have hd : ∀ x, HasDerivAt F (x ^ 3 - 2 * x * (1 - Real.cos x)) x := by
      intro x
      have h4 := ((hasDerivAt_id x).pow 4).div_const 4
      have hc := (Real.hasDerivAt_cos x).const_mul 2
      have h2 := (hasDerivAt_id x).pow 2
      have hs := ((hasDerivAt_id x).const_mul 2).mul (Real.hasDerivAt_sin x)
      have := h4.sub (((hc.const_sub 2).add h2).sub hs)
      refine this.congr_deriv ?_
      simp only [id]
      push_cast
      ring
    have hmono : MonotoneOn F (Set.Ici 0) := by
      apply monotoneOn_of_deriv_nonneg (convex_Ici 0)
      · exact fun x _ => (hd x).continuousAt.continuousWithinAt
      · exact fun x _ => (hd x).differentiableAt.differentiableWithinAt
      · intro x hx
        rw [interior_Ici] at hx
        have hx0 : 0 < x := hx
        rw [(hd x).deriv]
        have := Real.one_sub_sq_div_two_le_cos (x := x)
        nlinarith
    intro x hx
    have h0 : F 0 = 0 := by simp [F]
    have := hmono (Set.self_mem_Ici) hx hx
    rw [h0] at this
    exact this
  have h := main |d| (abs_nonneg d)
  have e1 : Real.cos |d| = Real.cos d := Real.cos_abs d
  have e2 : |d| * Real.sin |d| = d * Real.sin d := by
    rcases abs_choice d with h | h <;> rw [h]
    rw [Real.sin_neg]; ring
  have e3 : |d| ^ 2 = d ^ 2 := sq_abs d
  have e4 : |d| ^ 4 = d ^ 4 := by rw [show (4 : ℕ) = 2 * 2 from rfl, pow_mul, pow_mul, sq_abs]
  have e5 : 2 * |d| * Real.sin |d| = 2 * (d * Real.sin d) := by rw [mul_assoc, e2]
  rw [e1, e3, e4, e5] at h
  nlinarith [Real.sin_sq_add_cos_sq d]

section step
variable {A B e : ℝ} (hAB : A ^ 2 + B ^ 2 ≤ e ^ 2) (he : 0 ≤ e)
include hAB he

theorem GGp_lower (t : ℝ) : 1 - e ≤ GGp A B t := by
  have h : |A * Real.sin t + B * -Real.cos t| ≤ e * 1 := cs_bound hAB he zero_le_one (by nlinarith [Real.sin_sq_add_cos_sq t])
  unfold GGp
  linarith [(abs_le.mp h).1]

theorem GGp_upper (t : ℝ) : GGp A B t ≤ 1 + e := by
  have h : |A * Real.sin t + B * -Real.cos t| ≤ e * 1 := cs_bound hAB he zero_le_one (by nlinarith [Real.sin_sq_add_cos_sq t])
  unfold GGp
  linarith [(abs_le.mp h).2]

/-- How far the equation is from its tangent. -/
theorem GG_taylor (x y : ℝ) : |GGp A B x * (x - y) - (GG A B x - GG A B y)| ≤ e * ((x - y) ^ 2 / 2) := by
  obtain ⟨d, rfl⟩ : ∃ d, y = x + d := ⟨y - x, by ring⟩
  have h1 : (A * Real.cos x + B * Real.sin x) ^ 2 + (B * Real.cos x - A * Real.sin x) ^ 2 ≤ e ^ 2 := by
    have : (A * Real.cos x + B * Real.sin x) ^ 2 + (B * Real.cos x - A * Real.sin x) ^ 2 = (A ^ 2 + B ^ 2) * (Real.sin x ^ 2 + Real.cos x ^ 2) := by ring
    rw [this, Real.sin_sq_add_cos_sq, mul_one]
    exact hAB
  have h2 := cs_bound h1 he (by positivity) (second_order d)
  have e1 : GGp A B x * (x - (x + d)) - (GG A B x - GG A B (x + d)) =
      (A * Real.cos x + B * Real.sin x) * (1 - Real.cos d) + (B * Real.cos x - A * Real.sin x) * (d - Real.sin d) := by
    unfold GG GGp
    rw [Real.cos_add, Real.sin_add]
    ring
  rw [e1]
  refine h2.trans (le_of_eq ?_)
  ring

/-- The start is at most two eccentricities away. -/
theorem GG_start {t N : ℝ} (h : GG A B t = N) : |N - t| ≤ 2 * e := by
  have h1 : |A * Real.cos t + B * Real.sin t| ≤ e * 1 := cs_bound hAB he zero_le_one (by nlinarith [Real.sin_sq_add_cos_sq t])
  have h2 : |A| ≤ e := abs_le_of_sq_le_sq (by nlinarith [sq_nonneg B]) he
  have e1 : N - t = A - (A * Real.cos t + B * Real.sin t) := by rw [← h]; unfold GG; ring
  rw [e1]
  refine (abs_sub _ _).trans ?_
  linarith

theorem GG_newton (he1 : e < 1) {t N : ℝ} (h : GG A B t = N) (x : ℝ) :
    |x - (GG A B x - N) / GGp A B x - t| ≤ e / (2 * (1 - e)) * (x - t) ^ 2 := by
  have hp : 0 < GGp A B x := lt_of_lt_of_le (by linarith) (GGp_lower hAB he x)
  have ht := GG_taylor hAB he x t
  rw [h] at ht
  have e1 : x - (GG A B x - N) / GGp A B x - t = (GGp A B x * (x - t) - (GG A B x - N)) / GGp A B x := by
    field_simp
    ring
  rw [e1, abs_div, abs_of_pos hp, div_le_iff₀ hp]
  refine ht.trans ?_
  have h1 : 1 - e ≤ GGp A B x := GGp_lower hAB he x
  have h2 : 0 < 1 - e := by linarith
  have e2 : e * ((x - t) ^ 2 / 2) = e / (2 * (1 - e)) * (x - t) ^ 2 * (1 - e) := by field_simp
  rw [e2]
  exact mul_le_mul_of_nonneg_left h1 (by positivity)

end step

/-! ### in the anomaly -/

section anomaly
variable {mu : ℝ} {r v : V3}

/-- `A` -/
noncomputable def cA (mu : ℝ) (r v : V3) : ℝ := sigma mu r v * Real.sqrt (alpha mu r v)

/-- `B` -/
noncomputable def cB (mu : ℝ) (r v : V3) : ℝ := 1 - alpha mu r v * V3.norm r

theorem keplerF_theta (ha : 0 < alpha mu r v) (dt x : ℝ) : keplerF mu r v dt x * (alpha mu r v * Real.sqrt (alpha mu r v)) =
    GG (cA mu r v) (cB mu r v) (Real.sqrt (alpha mu r v) * x) - Real.sqrt (alpha mu r v) * (Real.sqrt mu * |alpha mu r v| * dt) := by
  rw [keplerF_eq, abs_of_pos ha]
  obtain ⟨-, h1, h2, h3⟩ := pos_form ha x
  unfold FF GG cA cB
  rw [h1, h2, h3]
  have hs : Real.sqrt (alpha mu r v) ≠ 0 := (Real.sqrt_pos.mpr ha).ne'
  have h0 := ha.ne'
  generalize alpha mu r v = a at *
  have hq : Real.sqrt a * Real.sqrt a = a := Real.mul_self_sqrt ha.le
  field_simp
  ring

theorem keplerFp_theta (ha : 0 < alpha mu r v) (x : ℝ) : keplerFp mu r v x * alpha mu r v =
    GGp (cA mu r v) (cB mu r v) (Real.sqrt (alpha mu r v) * x) := by
  rw [keplerFp_eq]
  obtain ⟨h0, h1, h2, -⟩ := pos_form ha x
  unfold RR GGp cA cB
  rw [h0, h1, h2]
  have hs : Real.sqrt (alpha mu r v) ≠ 0 := (Real.sqrt_pos.mpr ha).ne'
  have h0 := ha.ne'
  generalize alpha mu r v = a at *
  have hq : Real.sqrt a * Real.sqrt a = a := Real.mul_self_sqrt ha.le
  field_simp
  linear_combination (-(sigma mu r v * Real.sin (Real.sqrt a * x))) * hq

end anomaly

end Verif.Univ
