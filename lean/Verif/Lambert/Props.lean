import Verif.Lambert.Near
import Verif.Univ.Props

/-! # C40: Lambert's problem -/

namespace Verif.Lambert.Props

open Verif Verif.Univ Verif.Univ.Props Classical

/-- The conserved quantities after a step with Lagrange coefficients built from any `p0 p1 p2` that satisfy the relations between
the universal functions. -/
theorem conserved_of {mu : ℝ} {r v r' v' : V3} (hmu : 0 < mu) (hr : r ≠ ⟨0, 0, 0⟩) {p0 p1 p2 R : ℝ} (u0 : p0 = 1 - alpha mu r v * p2)
    (u2 : p1 ^ 2 = 2 * p2 - alpha mu r v * p2 ^ 2) (hR : 0 < R) (hRd : R = V3.norm r * p0 + Univ.sigma mu r v * p1 + p2)
    (e1 : r' = V3.add (V3.smul (1 - p2 / V3.norm r) r) (V3.smul ((Univ.sigma mu r v * p2 + V3.norm r * p1) / √mu) v))
    (e2 : v' = V3.add (V3.smul (√mu / R * -(p1 / V3.norm r)) r)
      (V3.smul (√mu / R * ((Univ.sigma mu r v * p1 + V3.norm r * p0) / √mu)) v)) (e3 : V3.norm r' = R) :
    V3.cross r' v' = V3.cross r v ∧ energy mu (r', v') = energy mu (r, v) ∧ laplace mu (r', v') = laplace mu (r, v) := by
  have h0 := norm_pos' hr
  have hm := Real.sqrt_pos.mpr hmu
  have hq := Real.sq_sqrt hmu.le
  have hrv := sigma_eq (v := v) hmu hr
  have hvv : V3.dot v v = mu * (2 - V3.norm r * alpha mu r v) / V3.norm r := by
    rw [← vv_eq hmu hr]
    field_simp
  have hrr := V3.norm_sq r
  obtain ⟨k1, k2, k3, k4, k5⟩ := algebra (rho := V3.norm r) (s := Univ.sigma mu r v) (m := √mu) h0.ne' hm.ne' u0 u2 hR.ne' hRd
  have c1 : ∀ A B C D : ℝ, V3.dot (V3.add (V3.smul A r) (V3.smul B v)) (V3.add (V3.smul C r) (V3.smul D v)) =
      A * C * V3.norm r ^ 2 + (A * D + B * C) * (Univ.sigma mu r v * √mu) +
        B * D * (√mu ^ 2 * (2 - V3.norm r * alpha mu r v) / V3.norm r) := by
    intro A B C D
    rw [hq, ← hvv, ← hrv, hrr]
    unfold V3.dot V3.add V3.smul
    ring
  have c2 : ∀ A B C D : ℝ, V3.cross (V3.add (V3.smul A r) (V3.smul B v)) (V3.add (V3.smul C r) (V3.smul D v)) =
      V3.smul (A * D - C * B) (V3.cross r v) := by
    intro A B C D
    unfold V3.cross V3.add V3.smul
    ext <;> simp only <;> ring
  have hvn : V3.dot v' v' = mu * (2 / R - alpha mu r v) := by
    rw [e2, c1]
    rw [hq] at k2 ⊢
    rw [← k2]
    ring
  have hrn : V3.dot r' v' = √mu * (-V3.norm r * alpha mu r v * p1 + Univ.sigma mu r v * p0 + p1) := by
    rw [e1, e2, c1, ← k3]
  refine ⟨?_, ?_, ?_⟩
  · rw [e1, e2, c2, k1]
    unfold V3.smul
    simp only [one_mul]
  · unfold energy
    simp only
    rw [hvn, e3, hvv]
    field_simp
    ring
  · unfold laplace
    simp only
    rw [hvn, hrn, hvv, e3, hrv, e1, e2]
    rw [hq] at k4 k5
    have : ∀ X Y A B C D : ℝ, V3.sub (V3.smul X (V3.add (V3.smul A r) (V3.smul B v))) (V3.smul Y (V3.add (V3.smul C r) (V3.smul D v))) =
        V3.add (V3.smul (X * A - Y * C) r) (V3.smul (X * B - Y * D) v) := by
      intro X Y A B C D
      unfold V3.sub V3.add V3.smul
      ext <;> simp only <;> ring
    rw [this, k4, k5]
    unfold V3.sub V3.add V3.smul
    ext <;> simp only <;> ring

/-- What `izzo_lambert` returns, when it returns numbers. -/
theorem izzo_some {r1 r2 v1 v2 : V3} {tof mu : ℝ} {M : Nat} {prograde lowPath : Bool} {maxiter : Nat} {atol rtol : ℝ}
    (h : izzoLambert r1 r2 tof mu M prograde lowPath maxiter atol rtol = some (v1, v2)) :
    let g := geometry r1 r2 prograde; let T := √(2 * mu / g.s ^ 3) * tof
    let x := householder (initialGuess T g.ll M lowPath) T g.ll M atol rtol maxiter
    (v1, v2) = velocities mu g x (computeY x g.ll) := by
  unfold izzoLambert findXY at h
  simp only at h ⊢
  split at h
  · cases h
  · rename_i x y heq
    split at heq
    · cases heq
      exact (Option.some.inj h).symm
    · cases heq

theorem conic_x {r1 r2 v1 v2 : V3} {mu : ℝ} {prograde : Bool} (hmu : 0 < mu) (hc : V3.cross r1 r2 ≠ ⟨0, 0, 0⟩)
    {x : ℝ} (hv : (v1, v2) = velocities mu (geometry r1 r2 prograde) x (computeY x (geometry r1 r2 prograde).ll)) :
    V3.cross r2 v2 = V3.cross r1 v1 ∧ energy mu (r2, v2) = energy mu (r1, v1) ∧ laplace mu (r2, v2) = laplace mu (r1, v1) := by
  obtain ⟨rho, sg, C, S, F⟩ := geometry_facts r1 r2 hc prograde
  set g := geometry r1 r2 prograde
  obtain ⟨t1, t2, -, t4, t5⟩ := transfer F hmu (x := x)
  have ha := alpha_eq F hmu (x := x)
  rw [← sigma_eq' F hmu, ← norm_r1 F] at t2 t4 t5
  rw [← ha] at t1 t2 t5
  rw [← hv] at t1 t2 t4 t5
  exact conserved_of hmu (ne_zero_of_cross hc) rfl t1 F.r2pos t2 t4 t5 (norm_r2 F)

/-- C40. Whatever number the iteration ends with, the two velocities belong to one Kepler orbit through the two positions: both
states have the same angular momentum, the same energy and the same eccentricity vector. -/
theorem C40_conic {r1 r2 v1 v2 : V3} {tof mu : ℝ} {M : Nat} {prograde lowPath : Bool} {maxiter : Nat} {atol rtol : ℝ} (hmu : 0 < mu)
    (hc : V3.cross r1 r2 ≠ ⟨0, 0, 0⟩) (h : izzoLambert r1 r2 tof mu M prograde lowPath maxiter atol rtol = some (v1, v2)) :
    V3.cross r2 v2 = V3.cross r1 v1 ∧ energy mu (r2, v2) = energy mu (r1, v1) ∧ laplace mu (r2, v2) = laplace mu (r1, v1) := conic_x hmu hc (izzo_some h)

theorem direction_x {r1 r2 v1 v2 : V3} {mu : ℝ} {prograde : Bool} (hmu : 0 < mu) (hc : V3.cross r1 r2 ≠ ⟨0, 0, 0⟩)
    {x : ℝ} (hv : (v1, v2) = velocities mu (geometry r1 r2 prograde) x (computeY x (geometry r1 r2 prograde).ll)) :
    (∃ k : ℝ, k ≠ 0 ∧ V3.cross r1 v1 = V3.smul k (V3.cross r1 r2) ∧ (0 < k ↔ (prograde = true ↔ 0 ≤ (V3.cross r1 r2).z))) ∧
    (prograde = true → 0 ≤ (V3.cross r1 v1).z) ∧ (prograde = false → (V3.cross r1 v1).z ≤ 0) := by
  obtain ⟨rho, sg, C, S, F⟩ := geometry_facts r1 r2 hc prograde
  set g := geometry r1 r2 prograde
  have e := (cross_eq F hmu (x := x) (computeY x g.ll)).1
  rw [← hv] at e
  simp only at e
  have hz := zeta_pos x F.hl
  have p1 := F.r1pos; have p2 := F.r2pos; have p3 := F.sgpos; have p4 := Real.sqrt_pos.mpr hmu; have p5 := (halfs F).2
  have hnum : 0 < √mu * √(g.s / 2) * sg * (computeY x g.ll + g.ll * x) / (g.r1Norm * g.r2Norm) := by positivity
  have hk : √mu * √(g.s / 2) * sg * (computeY x g.ll + g.ll * x) / (g.r1Norm * g.r2Norm * S) =
      √mu * √(g.s / 2) * sg * (computeY x g.ll + g.ll * x) / (g.r1Norm * g.r2Norm) / S := by rw [div_div]
  rw [hk] at e
  generalize √mu * √(g.s / 2) * sg * (computeY x g.ll + g.ll * x) / (g.r1Norm * g.r2Norm) = n at e hnum
  have hpos : 0 < n / S ↔ (prograde = true ↔ 0 ≤ (V3.cross r1 r2).z) := by
    rw [← F.sign]
    constructor
    · intro h
      by_contra hS
      exact absurd h (not_lt.mpr (div_nonpos_of_nonneg_of_nonpos hnum.le (not_lt.mp hS)))
    · exact fun h => div_pos hnum h
  have hne : n / S ≠ 0 := div_ne_zero hnum.ne' F.S0
  have hzz : (V3.cross r1 v1).z = n / S * (V3.cross r1 r2).z := by rw [e]; rfl
  refine ⟨⟨n / S, hne, e, hpos⟩, ?_, ?_⟩
  · intro hp
    rw [hzz]
    simp only [hp, true_iff] at hpos
    rcases le_or_gt 0 (V3.cross r1 r2).z with hz | hz
    · exact mul_nonneg (hpos.mpr hz).le hz
    · have : ¬ 0 < n / S := fun h => absurd (hpos.mp h) (not_le.mpr hz)
      exact mul_nonneg_of_nonpos_of_nonpos (not_lt.mp this) hz.le
  · intro hp
    rw [hzz]
    simp only [hp, Bool.false_eq_true, false_iff, not_le] at hpos
    rcases le_or_gt 0 (V3.cross r1 r2).z with hz | hz
    · have : ¬ 0 < n / S := fun h => absurd (hpos.mp h) (not_lt.mpr hz)
      exact mul_nonpos_of_nonpos_of_nonneg (not_lt.mp this) hz
    · exact mul_nonpos_of_nonneg_of_nonpos (hpos.mpr hz).le hz.le

/-- C40. The plane and sense of the motion: the angular momentum is along the normal of the two positions, never zero, and points
to positive `z` for a prograde transfer and to negative `z` for a retrograde one. -/
theorem C40_direction {r1 r2 v1 v2 : V3} {tof mu : ℝ} {M : Nat} {prograde lowPath : Bool} {maxiter : Nat} {atol rtol : ℝ} (hmu : 0 < mu)
    (hc : V3.cross r1 r2 ≠ ⟨0, 0, 0⟩) (h : izzoLambert r1 r2 tof mu M prograde lowPath maxiter atol rtol = some (v1, v2)) :
    (∃ k : ℝ, k ≠ 0 ∧ V3.cross r1 v1 = V3.smul k (V3.cross r1 r2) ∧ (0 < k ↔ (prograde = true ↔ 0 ≤ (V3.cross r1 r2).z))) ∧
    (prograde = true → 0 ≤ (V3.cross r1 v1).z) ∧ (prograde = false → (V3.cross r1 v1).z ≤ 0) := direction_x hmu hc (izzo_some h)

/-- C40. A negative time of flight is answered with NaN. -/
theorem C40_negative {r1 r2 : V3} {tof mu : ℝ} {M : Nat} {prograde lowPath : Bool} {maxiter : Nat} {atol rtol : ℝ} (hmu : 0 < mu)
    (hc : V3.cross r1 r2 ≠ ⟨0, 0, 0⟩) (ht : tof < 0) : izzoLambert r1 r2 tof mu M prograde lowPath maxiter atol rtol = none := by
  obtain ⟨rho, sg, C, S, F⟩ := geometry_facts r1 r2 hc prograde
  unfold izzoLambert findXY
  simp only
  set g := geometry r1 r2 prograde
  have hs := F.spos
  have hT : √(2 * mu / g.s ^ 3) * tof < 0 := mul_neg_of_pos_of_neg (Real.sqrt_pos.mpr (by positivity)) ht
  rw [if_neg]
  rintro ⟨-, hM⟩
  have hfl : ⌊√(2 * mu / g.s ^ 3) * tof / Real.pi⌋ < 0 := by
    rw [Int.floor_lt]
    exact_mod_cast div_neg_of_neg_of_pos hT Real.pi_pos
  unfold mMax at hM
  simp only at hM
  rw [if_neg (by rintro ⟨-, h⟩; omega)] at hM
  omega

theorem mMax_nonneg {ll T : ℝ} (hT : 0 ≤ T) (maxiter : Nat) (atol rtol : ℝ) : 0 ≤ mMax ll T maxiter atol rtol := by
  have hfl : 0 ≤ ⌊T / Real.pi⌋ := Int.floor_nonneg.mpr (div_nonneg hT Real.pi_pos.le)
  unfold mMax
  simp only
  split
  · rename_i h
    split <;> omega
  · exact hfl

/-- C40. For a transfer of less than one revolution, a non-negative time of flight is always answered with velocities. -/
theorem C40_defined {r1 r2 : V3} {tof mu : ℝ} {prograde lowPath : Bool} {maxiter : Nat} {atol rtol : ℝ}
    (hc : V3.cross r1 r2 ≠ ⟨0, 0, 0⟩) (ht : 0 ≤ tof) : (izzoLambert r1 r2 tof mu 0 prograde lowPath maxiter atol rtol).isSome := by
  obtain ⟨rho, sg, C, S, F⟩ := geometry_facts r1 r2 hc prograde
  unfold izzoLambert findXY
  simp only
  set g := geometry r1 r2 prograde
  have hT : 0 ≤ √(2 * mu / g.s ^ 3) * tof := mul_nonneg (Real.sqrt_nonneg _) ht
  rw [if_pos ⟨(sq_lt_one_iff_abs_lt_one g.ll).mp F.hl, by exact_mod_cast mMax_nonneg hT _ _ _⟩]
  rfl

/-- `C40_arrives`, for every `x`, with the time of the flight. -/
theorem arrives_x {r1 r2 v1 v2 : V3} (tof : ℝ) {mu : ℝ} (M : Nat) {prograde : Bool} (hmu : 0 < mu)
    (hc : V3.cross r1 r2 ≠ ⟨0, 0, 0⟩) {x : ℝ} (hv : (v1, v2) = velocities mu (geometry r1 r2 prograde) x (computeY x (geometry r1 r2 prograde).ll)) :
    let g := geometry r1 r2 prograde; let T := √(2 * mu / g.s ^ 3) * tof
    (-1 : ℝ) < x → (x < 1 ∨ M = 0) → ∃ t : ℝ, t = √(g.s ^ 3 / (2 * mu)) * exactTime x g.ll M ∧ 0 < t ∧
      |t - tof| ≤ √(g.s ^ 3 / (2 * mu)) * (|tofEquation x T g.ll M| + (if useSmall x M then 1 / 10 ^ 30 else 0)) ∧
      (∀ (p q : ℝ → E3) (t0 : ℝ), IsMotion mu p q → p t0 = r1.toE → q t0 = v1.toE → p (t0 + t) = r2.toE ∧ q (t0 + t) = v2.toE) ∧
      (x < 1 → 0 < alpha mu r1 v1 ∧ M * (2 * Real.pi / (√mu * (alpha mu r1 v1 * √(alpha mu r1 v1)))) < t ∧
        t < (M + 1) * (2 * Real.pi / (√mu * (alpha mu r1 v1 * √(alpha mu r1 v1))))) := by
  have hdir := (direction_x hmu hc hv).1
  simp only
  obtain ⟨rho, sg, C, S, F⟩ := geometry_facts r1 r2 hc prograde
  set g := geometry r1 r2 prograde
  set T := √(2 * mu / g.s ^ 3) * tof with hT
  intro h1 h2
  have hs := F.spos
  have hm := Real.sqrt_pos.mpr hmu
  obtain ⟨hq2, hq⟩ := halfs F
  -- the unit of time
  have hu : √(g.s ^ 3 / (2 * mu)) = g.s * √(g.s / 2) / √mu := by
    rw [show g.s ^ 3 / (2 * mu) = (g.s * √(g.s / 2) / √mu) ^ 2 by
      rw [div_pow, mul_pow, hq2, Real.sq_sqrt hmu.le]; field_simp]
    exact Real.sqrt_sq (by positivity)
  have hupos : 0 < √(g.s ^ 3 / (2 * mu)) := by rw [hu]; positivity
  have huT : √(g.s ^ 3 / (2 * mu)) * T = tof := by
    rw [hT, ← mul_assoc, ← Real.sqrt_mul (by positivity), show g.s ^ 3 / (2 * mu) * (2 * mu / g.s ^ 3) = 1 by field_simp, Real.sqrt_one,
      one_mul]
  obtain ⟨chi, c1, c2, c3, c4, c5⟩ := anomaly_transfer F hmu (M := M) h1 h2
  obtain ⟨t1, t2, -, t4, t5⟩ := transfer F hmu (x := x)
  have ha := alpha_eq F hmu (x := x)
  rw [← sigma_eq' F hmu, ← norm_r1 F] at t2 t4 t5
  rw [← ha] at t1 t2 t5
  rw [← hv] at t1 t2 t4 t5 c1 c2 c3 c5
  simp only at t1 t2 t4 t5 c1 c2 c3 c5
  have hcr : V3.cross r1 v1 ≠ ⟨0, 0, 0⟩ := by
    obtain ⟨k, hk, e, -⟩ := hdir
    rw [e]
    intro e0
    apply hc
    have := congrArg V3.x e0; have h2 := congrArg V3.y e0; have h3 := congrArg V3.z e0
    simp only [V3.smul] at this h2 h3
    ext
    · exact (mul_eq_zero.mp this).resolve_left hk
    · exact (mul_eq_zero.mp h2).resolve_left hk
    · exact (mul_eq_zero.mp h3).resolve_left hk
  have hr1 := norm_pos' (ne_zero_of_cross hc)
  have hmono := FF_strictMono hr1 (disc_pos hmu hcr)
  have hflight : √mu * (√(g.s ^ 3 / (2 * mu)) * exactTime x g.ll M) =
      FF (V3.norm r1) (Univ.sigma mu r1 v1) (alpha mu r1 v1) chi := by
    rw [c3, hu]; field_simp
  refine ⟨√(g.s ^ 3 / (2 * mu)) * exactTime x g.ll M, rfl, ?_, ?_, ?_, ?_⟩
  · have : 0 < √mu * (√(g.s ^ 3 / (2 * mu)) * exactTime x g.ll M) := by
      rw [hflight, ← FF_zero (V3.norm r1) (Univ.sigma mu r1 v1) (alpha mu r1 v1)]
      exact hmono c4
    exact (mul_pos_iff_of_pos_left hm).mp this
  · have e : √(g.s ^ 3 / (2 * mu)) * exactTime x g.ll M - tof = √(g.s ^ 3 / (2 * mu)) * (exactTime x g.ll M - T) := by
      rw [mul_sub, huT]
    rw [e, abs_mul, abs_of_pos hupos]
    apply mul_le_mul_of_nonneg_left _ hupos.le
    unfold tofEquation tofEquationY
    by_cases hsm : useSmall x M
    · rw [if_pos hsm]
      obtain rfl : M = 0 := hsm.1
      have hn := near F.hl hsm
      have := abs_add_le (timeOfFlight x (computeY x g.ll) g.ll 0 - T) (exactTime x g.ll 0 - timeOfFlight x (computeY x g.ll) g.ll 0)
      rw [show timeOfFlight x (computeY x g.ll) g.ll 0 - T + (exactTime x g.ll 0 - timeOfFlight x (computeY x g.ll) g.ll 0) =
        exactTime x g.ll 0 - T by ring, abs_sub_comm (exactTime x g.ll 0) (timeOfFlight x (computeY x g.ll) g.ll 0)] at this
      linarith
    · rw [if_neg hsm, add_zero]
      have hx1 : x ≠ 1 := by
        rintro rfl
        rcases h2 with h2 | h2
        · exact lt_irrefl _ h2
        · refine hsm ⟨h2, ?_, ?_⟩
          · rw [Real.sqrt_lt' one_pos]; norm_num
          · rw [Real.lt_sqrt one_pos.le]; norm_num
      unfold timeOfFlight exactTime
      rw [if_neg hsm, if_neg hx1]
  · intro p q t0 hm' hp hq'
    have hx : keplerF mu r1 v1 (t0 + √(g.s ^ 3 / (2 * mu)) * exactTime x g.ll M - t0) chi = 0 := by
      rw [add_sub_cancel_left, keplerF_eq, hflight, sub_self]
    obtain ⟨a1, a2⟩ := C35_newton hmu hcr hm' hp hq' _ hx
    obtain ⟨s1, s2, -⟩ := state_coeffs hmu hcr hx
    have u0 := (U_rel (alpha mu r1 v1) chi).1
    rw [c1] at u0
    have hRR : RR (V3.norm r1) (Univ.sigma mu r1 v1) (alpha mu r1 v1) chi = g.r2Norm := by
      unfold RR
      rw [u0, c1, c2]
      exact t2.symm
    rw [← a1, ← a2]
    refine ⟨congrArg _ ?_, congrArg _ ?_⟩
    · rw [s1, c1, c2]
      exact t4.symm
    · rw [s2, hRR, u0, c2]
      exact t5.symm
  · intro hx
    obtain ⟨hap, psi, q1, q2, q3⟩ := c5 hx
    have hsa := Real.sqrt_pos.mpr hap
    have hval : ∀ k : ℕ, FF (V3.norm r1) (Univ.sigma mu r1 v1) (alpha mu r1 v1) (k * (2 * Real.pi) / √(alpha mu r1 v1)) =
        √mu * (k * (2 * Real.pi / (√mu * (alpha mu r1 v1 * √(alpha mu r1 v1))))) := by
      intro k
      obtain ⟨-, f1, f2, f3⟩ := pos_form hap (k * (2 * Real.pi) / √(alpha mu r1 v1))
      have e : √(alpha mu r1 v1) * (k * (2 * Real.pi) / √(alpha mu r1 v1)) = 0 + k * (2 * Real.pi) := by field_simp; ring
      rw [e] at f1 f2 f3
      rw [Real.cos_add_nat_mul_two_pi, Real.cos_zero] at f2
      rw [Real.sin_add_nat_mul_two_pi, Real.sin_zero] at f1 f3
      unfold FF
      rw [f1, f2, f3]
      field_simp
      ring
    refine ⟨hap, ?_, ?_⟩
    · apply lt_of_mul_lt_mul_left _ hm.le
      rw [hflight, ← hval]
      apply hmono
      rw [div_lt_iff₀ hsa, mul_comm chi, q3]
      linarith
    · apply lt_of_mul_lt_mul_left _ hm.le
      rw [hflight]
      have := hval (M + 1)
      push_cast at this
      rw [← this]
      apply hmono
      rw [lt_div_iff₀ hsa, mul_comm chi, q3]
      linarith

/-- `C40_arrives`, with the time of the flight. -/
theorem arrives {r1 r2 v1 v2 : V3} {tof mu : ℝ} {M : Nat} {prograde lowPath : Bool} {maxiter : Nat} {atol rtol : ℝ} (hmu : 0 < mu)
    (hc : V3.cross r1 r2 ≠ ⟨0, 0, 0⟩) (h : izzoLambert r1 r2 tof mu M prograde lowPath maxiter atol rtol = some (v1, v2)) :
    let g := geometry r1 r2 prograde; let T := √(2 * mu / g.s ^ 3) * tof
    let x := householder (initialGuess T g.ll M lowPath) T g.ll M atol rtol maxiter;
    (-1 : ℝ) < x → (x < 1 ∨ M = 0) → ∃ t : ℝ, t = √(g.s ^ 3 / (2 * mu)) * exactTime x g.ll M ∧ 0 < t ∧
      |t - tof| ≤ √(g.s ^ 3 / (2 * mu)) * (|tofEquation x T g.ll M| + (if useSmall x M then 1 / 10 ^ 30 else 0)) ∧
      (∀ (p q : ℝ → E3) (t0 : ℝ), IsMotion mu p q → p t0 = r1.toE → q t0 = v1.toE → p (t0 + t) = r2.toE ∧ q (t0 + t) = v2.toE) ∧
      (x < 1 → 0 < alpha mu r1 v1 ∧ M * (2 * Real.pi / (√mu * (alpha mu r1 v1 * √(alpha mu r1 v1)))) < t ∧
        t < (M + 1) * (2 * Real.pi / (√mu * (alpha mu r1 v1 * √(alpha mu r1 v1))))) := arrives_x tof M hmu hc (izzo_some h)

/-- C40. The velocities returned lead from the first position to the second. Let `x` be the number the iteration ends with. The
time `t` of that flight is positive and differs from the time asked for by no more than the residual of the equation the
iteration solves, at `x`, times a unit of time (and by less than 1e-30 units where the series is used). With `M` revolutions asked
for on an ellipse, `t` lies between `M` and `M + 1` periods. -/
theorem C40_arrives {r1 r2 v1 v2 : V3} {tof mu : ℝ} {M : Nat} {prograde lowPath : Bool} {maxiter : Nat} {atol rtol : ℝ} (hmu : 0 < mu)
    (hc : V3.cross r1 r2 ≠ ⟨0, 0, 0⟩) (h : izzoLambert r1 r2 tof mu M prograde lowPath maxiter atol rtol = some (v1, v2)) :
    let g := geometry r1 r2 prograde; let T := √(2 * mu / g.s ^ 3) * tof
    let x := householder (initialGuess T g.ll M lowPath) T g.ll M atol rtol maxiter;
    (-1 : ℝ) < x → (x < 1 ∨ M = 0) → ∃ t : ℝ, 0 < t ∧
      |t - tof| ≤ √(g.s ^ 3 / (2 * mu)) * (|tofEquation x T g.ll M| + (if useSmall x M then 1 / 10 ^ 30 else 0)) ∧
      (∀ (p q : ℝ → E3) (t0 : ℝ), IsMotion mu p q → p t0 = r1.toE → q t0 = v1.toE → p (t0 + t) = r2.toE ∧ q (t0 + t) = v2.toE) ∧
      (x < 1 → 0 < alpha mu r1 v1 ∧ M * (2 * Real.pi / (√mu * (alpha mu r1 v1 * √(alpha mu r1 v1)))) < t ∧
        t < (M + 1) * (2 * Real.pi / (√mu * (alpha mu r1 v1 * √(alpha mu r1 v1))))) := by
  intro g T x h1 h2
  obtain ⟨t, -, ht⟩ := arrives hmu hc h h1 h2
  exact ⟨t, ht⟩

/-- The hypotheses of C40 are met: a quarter turn. -/
example : V3.cross ⟨1, 0, 0⟩ ⟨0, 1, 0⟩ ≠ ⟨0, 0, 0⟩ ∧
    (izzoLambert ⟨1, 0, 0⟩ ⟨0, 1, 0⟩ 1 1 0 true true 35 1e-10 1e-10).isSome := by
  have h : V3.cross ⟨1, 0, 0⟩ ⟨0, 1, 0⟩ ≠ ⟨0, 0, 0⟩ := by
    intro h
    have := congrArg V3.z h
    norm_num [V3.cross] at this
  exact ⟨h, C40_defined h (by norm_num)⟩

/-! ### what is not checked -/

theorem norm_axis (a : ℝ) : V3.norm ⟨a, 0, 0⟩ = |a| := by
  unfold V3.norm
  simp only
  rw [show a * a + 0 * 0 + 0 * 0 = a ^ 2 by ring, Real.sqrt_sq_eq_abs]

/-- C40. For positions on opposite sides of the attracting body (a transfer angle of 180 degrees) velocities are returned too, but
they do not belong to one orbit: the energies at the two ends differ. -/
theorem C40_opposite_false : ∃ v1 v2, izzoLambert ⟨1, 0, 0⟩ ⟨-2, 0, 0⟩ 1 1 0 true true 35 1e-10 1e-10 = some (v1, v2) ∧
    energy 1 (⟨1, 0, 0⟩, v1) ≠ energy 1 (⟨-2, 0, 0⟩, v2) := by
  have hih : V3.cross (V3.smul (1 / V3.norm ⟨1, 0, 0⟩) ⟨1, 0, 0⟩) (V3.smul (1 / V3.norm ⟨-2, 0, 0⟩) ⟨-2, 0, 0⟩) = ⟨0, 0, 0⟩ := by
    ext <;> simp [V3.cross, V3.smul]
  have hg : geometry ⟨1, 0, 0⟩ ⟨-2, 0, 0⟩ true = ⟨3, 1, 2, 3, ⟨1, 0, 0⟩, ⟨-1, 0, 0⟩, 0, ⟨0, 0, 0⟩, ⟨0, 0, 0⟩⟩ := by
    unfold geometry
    simp only
    rw [hih]
    have n1 : V3.norm ⟨1, 0, 0⟩ = 1 := by rw [norm_axis]; norm_num
    have n2 : V3.norm ⟨-2, 0, 0⟩ = 2 := by rw [norm_axis]; norm_num
    have n3 : V3.norm (V3.sub ⟨-2, 0, 0⟩ ⟨1, 0, 0⟩) = 3 := by
      rw [show V3.sub ⟨-2, 0, 0⟩ ⟨1, 0, 0⟩ = ⟨-3, 0, 0⟩ by ext <;> norm_num [V3.sub], norm_axis]; norm_num
    rw [n1, n2, n3]
    norm_num [V3.smul, V3.cross]
  unfold izzoLambert findXY
  simp only
  rw [hg]
  simp only
  rw [if_pos ⟨by norm_num, by exact_mod_cast mMax_nonneg (by positivity) _ _ _⟩]
  simp only
  generalize householder _ _ _ _ _ _ _ = x
  generalize computeY x 0 = y
  refine ⟨_, _, rfl, ?_⟩
  unfold energy
  simp only
  have n1 : V3.norm ⟨1, 0, 0⟩ = 1 := by rw [norm_axis]; norm_num
  have n2 : V3.norm ⟨-2, 0, 0⟩ = 2 := by rw [norm_axis]; norm_num
  rw [n1, n2]
  simp only [V3.dot, V3.add, V3.smul]
  intro h
  norm_num at h
  nlinarith

theorem one_sub_sq_neg {x : ℝ} (hx : x < -1) : 2 * (1 - x ^ 2) < 0 := by nlinarith

theorem kappa_neg {l x : ℝ} (hl : l ^ 2 < 1) (hx : x < -1) : x * computeY x l + l * (1 - x ^ 2) < 0 := by
  have h3 := y_gt x hl
  rw [abs_mul, abs_of_neg (by linarith : x < 0)] at h3
  have h4 : |l| * (-x) * (-x) < computeY x l * (-x) := mul_lt_mul_of_pos_right h3 (by linarith)
  have h5 : 0 < x ^ 2 - 1 := by nlinarith
  have h6 := mul_le_mul_of_nonneg_right (neg_abs_le l) h5.le
  have h7 := abs_nonneg l
  nlinarith

/-- C40. When the iteration stops with a number below -1 the motion never comes to the second position after the start. -/
theorem never_arrives {r1 r2 v1 v2 : V3} {mu x : ℝ} {prograde : Bool} (hmu : 0 < mu) (hc : V3.cross r1 r2 ≠ ⟨0, 0, 0⟩)
    (hv : (v1, v2) = velocities mu (geometry r1 r2 prograde) x (computeY x (geometry r1 r2 prograde).ll)) (hx : x < -1)
    (hcr : V3.cross r1 v1 ≠ ⟨0, 0, 0⟩) {p q : ℝ → E3} {t0 t : ℝ} (hm : IsMotion mu p q) (hp : p t0 = r1.toE) (hq : q t0 = v1.toE)
    (ht : 0 < t) : p (t0 + t) ≠ r2.toE := by
  obtain ⟨rho, sg, C, S, F⟩ := geometry_facts r1 r2 hc prograde
  set g := geometry r1 r2 prograde
  obtain ⟨t1, t2, -, t4, t5⟩ := transfer F hmu (x := x)
  have ha := alpha_eq F hmu (x := x)
  rw [← sigma_eq' F hmu, ← norm_r1 F] at t4
  rw [← hv] at t4 ha
  simp only at t4 ha
  obtain ⟨chi, hchi, -⟩ := exists_unique_chi hmu hcr t
  have hchi' : keplerF mu r1 v1 (t0 + t - t0) chi = 0 := by rw [add_sub_cancel_left]; exact hchi
  obtain ⟨a1, -⟩ := C35_newton hmu hcr hm hp hq (t0 + t) hchi'
  obtain ⟨s1, -, -⟩ := state_coeffs hmu hcr hchi'
  rw [← a1]
  intro e
  have e := toE_injective e
  rw [s1] at e
  conv at e => rhs; rw [t4]
  have hr1 := norm_pos' (ne_zero_of_cross hc)
  -- the coefficients agree
  have key : ∀ A B A' B' : ℝ, V3.add (V3.smul A r1) (V3.smul B v1) = V3.add (V3.smul A' r1) (V3.smul B' v1) → A = A' ∧ B = B' := by
    intro A B A' B' h
    have hx := congrArg V3.x h; have hy := congrArg V3.y h; have hz := congrArg V3.z h
    simp only [V3.add, V3.smul] at hx hy hz
    have k1 : ∀ c : ℝ, (c * (V3.cross r1 v1).x = 0 ∧ c * (V3.cross r1 v1).y = 0 ∧ c * (V3.cross r1 v1).z = 0) → c = 0 := by
      intro c ⟨c1, c2, c3⟩
      by_contra hcne
      apply hcr
      ext
      · exact (mul_eq_zero.mp c1).resolve_left hcne
      · exact (mul_eq_zero.mp c2).resolve_left hcne
      · exact (mul_eq_zero.mp c3).resolve_left hcne
    constructor
    · have := k1 (A - A') ⟨by unfold V3.cross; simp only; linear_combination v1.z * hy - v1.y * hz,
        by unfold V3.cross; simp only; linear_combination v1.x * hz - v1.z * hx,
        by unfold V3.cross; simp only; linear_combination v1.y * hx - v1.x * hy⟩
      linarith
    · have := k1 (B - B') ⟨by unfold V3.cross; simp only; linear_combination r1.y * hz - r1.z * hy,
        by unfold V3.cross; simp only; linear_combination r1.z * hx - r1.x * hz,
        by unfold V3.cross; simp only; linear_combination r1.x * hy - r1.y * hx⟩
      linarith
  obtain ⟨q1, q2⟩ := key _ _ _ _ e
  have hU2 : U2 (alpha mu r1 v1) chi = g.s * (computeY x g.ll - g.ll * x) ^ 2 := by
    have : U2 (alpha mu r1 v1) chi / V3.norm r1 = g.s * (computeY x g.ll - g.ll * x) ^ 2 / V3.norm r1 := by linarith
    exact (div_left_inj' hr1.ne').mp this
  have hU1 : U1 (alpha mu r1 v1) chi = 2 * √(g.s / 2) * (computeY x g.ll - g.ll * x) * (x * computeY x g.ll + g.ll * (1 - x ^ 2)) := by
    rw [hU2] at q2
    have hsm := (Real.sqrt_pos.mpr hmu).ne'
    have := (div_left_inj' hsm).mp q2
    exact mul_left_cancel₀ hr1.ne' (by linarith)
  -- the flight is backwards
  have hkneg := kappa_neg F.hl hx
  have hneg : U1 (alpha mu r1 v1) chi < 0 := by
    rw [hU1]
    exact mul_neg_of_pos_of_neg (mul_pos (mul_pos two_pos (halfs F).2) (eta_pos x F.hl)) hkneg
  have han : alpha mu r1 v1 < 0 := by
    rw [ha]
    have := F.spos
    exact div_neg_of_neg_of_pos (one_sub_sq_neg hx) this
  have hcpos : 0 < chi := by
    have hmono := FF_strictMono hr1 (disc_pos hmu hcr)
    rw [← hmono.lt_iff_lt, FF_zero]
    rw [keplerF_eq] at hchi
    have := mul_pos (Real.sqrt_pos.mpr hmu) ht
    linarith
  have hs := Real.sqrt_pos.mpr (neg_pos.mpr han)
  have : 0 < U1 (alpha mu r1 v1) chi := by
    rw [(neg_form han chi).2.1]
    exact div_pos (Real.sinh_pos_iff.mpr (mul_pos hs hcpos)) hs
  exact lt_asymm hneg this

/-- C40. Convergence is not checked: with no iterations allowed, a quarter turn with a long time of flight is answered with
velocities that never lead to the second position. -/
theorem C40_unconverged_false : ∃ (tof : ℝ) (v1 v2 : V3), 0 < tof ∧
    izzoLambert ⟨1, 0, 0⟩ ⟨0, 1, 0⟩ tof 1 0 true true 0 1e-10 1e-10 = some (v1, v2) ∧ V3.cross ⟨1, 0, 0⟩ v1 ≠ ⟨0, 0, 0⟩ ∧
    ∀ (p q : ℝ → E3) (t0 t : ℝ), IsMotion 1 p q → p t0 = V3.toE ⟨1, 0, 0⟩ → q t0 = v1.toE → 0 < t → p (t0 + t) ≠ V3.toE ⟨0, 1, 0⟩ := by
  have hc : V3.cross ⟨1, 0, 0⟩ ⟨0, 1, 0⟩ ≠ ⟨0, 0, 0⟩ := by
    intro h
    have := congrArg V3.z h
    norm_num [V3.cross] at this
  obtain ⟨rho, sg, C, S, F⟩ := geometry_facts ⟨1, 0, 0⟩ ⟨0, 1, 0⟩ hc true
  set g := geometry ⟨1, 0, 0⟩ ⟨0, 1, 0⟩ true with hg
  have hs := F.spos
  have hl := abs_lt.mp ((sq_lt_one_iff_abs_lt_one g.ll).mp F.hl)
  have hl0 : 0 ≤ g.ll := by
    have h1 : 0 < S := F.sign.mpr (by norm_num [V3.cross])
    have h2 := F.hS
    have h3 := mul_pos (mul_pos F.r1pos F.r2pos) h1
    rw [h2] at h3
    by_contra hn
    have : g.ll * g.s ^ 2 * (1 - g.ll ^ 2) * sg ≤ 0 := by
      have h4 := F.sgpos
      have h5 : 0 < 1 - g.ll ^ 2 := by linarith [F.hl]
      have h6 : 0 < g.s ^ 2 * (1 - g.ll ^ 2) * sg := by positivity
      nlinarith [not_le.mp hn]
    linarith
  have hT0 : 0 < Real.arccos g.ll + g.ll * √(1 - g.ll ^ 2) :=
    add_pos_of_pos_of_nonneg (Real.arccos_pos.mpr hl.2) (mul_nonneg hl0 (Real.sqrt_nonneg _))
  set T0 := Real.arccos g.ll + g.ll * √(1 - g.ll ^ 2) with hT0d
  have hup : 0 < √(2 * 1 / g.s ^ 3) := Real.sqrt_pos.mpr (by positivity)
  have htof : 0 < 64 * T0 / √(2 * 1 / g.s ^ 3) := by positivity
  have hT : √(2 * 1 / g.s ^ 3) * (64 * T0 / √(2 * 1 / g.s ^ 3)) = 64 * T0 := by field_simp
  obtain ⟨⟨v1, v2⟩, hvs⟩ := Option.isSome_iff_exists.mp (C40_defined (mu := 1) (prograde := true) (lowPath := true) (maxiter := 0)
    (atol := 1e-10) (rtol := 1e-10) hc htof.le)
  have hv := izzo_some hvs
  simp only at hv
  rw [← hg, hT] at hv
  have hx : householder (initialGuess (64 * T0) g.ll 0 true) (64 * T0) g.ll 0 1e-10 1e-10 0 = -1.02125 := by
    unfold householder householderLoop initialGuess
    simp only [Nat.cast_zero, zero_mul, add_zero, if_true, ← hT0d]
    rw [if_pos (by linarith), show T0 / (64 * T0) = (1 / 4 : ℝ) ^ (3 : ℝ) by
      rw [show (3 : ℝ) = ((3 : ℕ) : ℝ) by norm_num, Real.rpow_natCast]; field_simp; norm_num, ← Real.rpow_mul (by norm_num),
      show (3 : ℝ) * (2 / 3) = ((2 : ℕ) : ℝ) by norm_num, Real.rpow_natCast]
    norm_num
  rw [hx] at hv
  obtain ⟨k, hk, e, -⟩ := (C40_direction one_pos hc hvs).1
  have hcr : V3.cross ⟨1, 0, 0⟩ v1 ≠ ⟨0, 0, 0⟩ := by
    rw [e]
    intro h
    have := congrArg V3.z h
    simp [V3.smul, V3.cross] at this
    exact hk this
  exact ⟨_, v1, v2, htof, hvs, hcr, fun p q t0 t hm hp hq ht =>
    never_arrives one_pos hc hv (by norm_num) hcr hm hp hq ht⟩

end Verif.Lambert.Props
