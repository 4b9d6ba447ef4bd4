import Verif.Univ.Flow
import Verif.Univ.Spec
import Mathlib.Analysis.ODE.ExistUnique
import Mathlib.Analysis.Calculus.ContDiff.RCLike
import Mathlib.Analysis.InnerProductSpace.Calculus
import Mathlib.Topology.Connected.Clopen

/-! # The exact step solves Newton's equation, and nothing else does -/

namespace Verif.Univ

theorem accel {rho s a m p0 p1 p2 : ℝ} (hr : rho ≠ 0) (hm : m ≠ 0) (h0 : p0 = 1 - a * p2) (h2 : p1 ^ 2 = 2 * p2 - a * p2 ^ 2)
    {R : ℝ} (hR : R ≠ 0) (hRd : R = rho * p0 + s * p1 + p2) :
    (0 * R - m * (rho * (-a * p1 * (m / R)) + s * (p0 * (m / R)) + p1 * (m / R))) / R ^ 2 * -(p1 / rho) +
      m / R * -(p0 * (m / R) / rho) = -(m ^ 2 / R ^ 3) * (1 - p2 / rho) ∧
    (0 * R - m * (rho * (-a * p1 * (m / R)) + s * (p0 * (m / R)) + p1 * (m / R))) / R ^ 2 * ((s * p1 + rho * p0) / m) +
      m / R * ((s * (p0 * (m / R)) + rho * (-a * p1 * (m / R))) / m) = -(m ^ 2 / R ^ 3) * ((s * p2 + rho * p1) / m) := by
  have k1 : (-rho * a * p1 + s * p0 + p1) * p1 - p0 * R = -(rho - p2) := by
    rw [hRd, h0]
    linear_combination (1 - rho * a) * h2
  have k2 : (-rho * a * p1 + s * p0 + p1) * (s * p1 + rho * p0) - (s * p0 - rho * a * p1) * R = s * p2 + rho * p1 := by
    rw [hRd, h0]
    linear_combination s * h2
  constructor
  · field_simp
    linear_combination m ^ 2 * k1
  · field_simp
    linear_combination -m ^ 2 * k2

theorem lagrange_fields {mu : ℝ} {r v : V3} (hmu : 0 < mu) (hr : r ≠ ⟨0, 0, 0⟩) {dt x : ℝ}
    (hR : 0 < RR (V3.norm r) (sigma mu r v) (alpha mu r v) x) (hx : keplerF mu r v dt x = 0) :
    (lagrange mu r v dt x (calcStumpff (alpha mu r v * x ^ 2))).fDot =
      Real.sqrt mu / RR (V3.norm r) (sigma mu r v) (alpha mu r v) x * (-(U1 (alpha mu r v) x / V3.norm r)) ∧
    (lagrange mu r v dt x (calcStumpff (alpha mu r v * x ^ 2))).gDot =
      Real.sqrt mu / RR (V3.norm r) (sigma mu r v) (alpha mu r v) x *
        ((sigma mu r v * U1 (alpha mu r v) x + V3.norm r * U0 (alpha mu r v) x) / Real.sqrt mu) ∧
    V3.norm (stateAt mu r v dt x).1 = RR (V3.norm r) (sigma mu r v) (alpha mu r v) x := by
  obtain ⟨e1, e2, e3⟩ := pos_dot hmu hr hx
  have h0 := norm_pos' hr
  have hm := Real.sqrt_pos.mpr hmu
  have hn : V3.norm (stateAt mu r v dt x).1 = RR (V3.norm r) (sigma mu r v) (alpha mu r v) x := by
    rw [← V3.norm_sq] at e3
    exact (pow_left_inj₀ (V3.norm_nonneg _) hR.le two_ne_zero).mp e3
  obtain ⟨u0, u1, -⟩ := U_rel (alpha mu r v) x
  have hL : V3.norm (V3.add (V3.smul (1 - x ^ 2 / V3.norm r * (calcStumpff (alpha mu r v * x ^ 2)).c2) r)
      (V3.smul (dt - 1 / Real.sqrt mu * x ^ 3 * (calcStumpff (alpha mu r v * x ^ 2)).c3) v)) =
      RR (V3.norm r) (sigma mu r v) (alpha mu r v) x := hn
  have a1 : Real.sqrt mu / (V3.norm r * RR (V3.norm r) (sigma mu r v) (alpha mu r v) x) *
      (alpha mu r v * x ^ 3 * (calcStumpff (alpha mu r v * x ^ 2)).c3 - x) =
      Real.sqrt mu / RR (V3.norm r) (sigma mu r v) (alpha mu r v) x * (-(U1 (alpha mu r v) x / V3.norm r)) := by
    have : alpha mu r v * x ^ 3 * (calcStumpff (alpha mu r v * x ^ 2)).c3 - x = -U1 (alpha mu r v) x := by
      have e : alpha mu r v * x ^ 3 * (calcStumpff (alpha mu r v * x ^ 2)).c3 = alpha mu r v * U3 (alpha mu r v) x := by
        unfold U3; ring
      rw [e]
      linear_combination -u1
    rw [this]
    field_simp
  have a2 : 1 - x ^ 2 / RR (V3.norm r) (sigma mu r v) (alpha mu r v) x * (calcStumpff (alpha mu r v * x ^ 2)).c2 =
      Real.sqrt mu / RR (V3.norm r) (sigma mu r v) (alpha mu r v) x *
        ((sigma mu r v * U1 (alpha mu r v) x + V3.norm r * U0 (alpha mu r v) x) / Real.sqrt mu) := by
    have e : x ^ 2 / RR (V3.norm r) (sigma mu r v) (alpha mu r v) x * (calcStumpff (alpha mu r v * x ^ 2)).c2 =
      U2 (alpha mu r v) x / RR (V3.norm r) (sigma mu r v) (alpha mu r v) x := by
        unfold U2; ring
    rw [e]
    have hRdef : RR (V3.norm r) (sigma mu r v) (alpha mu r v) x =
      V3.norm r * U0 (alpha mu r v) x + sigma mu r v * U1 (alpha mu r v) x + U2 (alpha mu r v) x := rfl
    field_simp
    rw [hRdef]
    ring
  unfold lagrange
  simp only [hL]
  exact ⟨a1, a2, hn⟩

theorem state_coeffs' {mu : ℝ} {r v : V3} (hmu : 0 < mu) (hr : r ≠ ⟨0, 0, 0⟩) {dt x : ℝ}
    (hR : 0 < RR (V3.norm r) (sigma mu r v) (alpha mu r v) x) (hx : keplerF mu r v dt x = 0) :
    (stateAt mu r v dt x).1 = V3.add (V3.smul (1 - U2 (alpha mu r v) x / V3.norm r) r)
      (V3.smul ((sigma mu r v * U2 (alpha mu r v) x + V3.norm r * U1 (alpha mu r v) x) / Real.sqrt mu) v) ∧
    (stateAt mu r v dt x).2 = V3.add
      (V3.smul (Real.sqrt mu / RR (V3.norm r) (sigma mu r v) (alpha mu r v) x * (-(U1 (alpha mu r v) x / V3.norm r))) r)
      (V3.smul (Real.sqrt mu / RR (V3.norm r) (sigma mu r v) (alpha mu r v) x *
        ((sigma mu r v * U1 (alpha mu r v) x + V3.norm r * U0 (alpha mu r v) x) / Real.sqrt mu)) v) ∧
    V3.norm (stateAt mu r v dt x).1 = RR (V3.norm r) (sigma mu r v) (alpha mu r v) x := by
  obtain ⟨e1, e2, e3⟩ := pos_dot hmu hr hx
  obtain ⟨a1, a2, hn⟩ := lagrange_fields hmu hr hR hx
  refine ⟨?_, ?_, hn⟩
  · unfold stateAt applyLagrange
    simp only [e1, e2]
  · unfold stateAt applyLagrange
    simp only [a1, a2]

section

variable {mu : ℝ} {r v : V3} (hmu : 0 < mu) (h : V3.cross r v ≠ ⟨0, 0, 0⟩)

include hmu h

theorem state_coeffs {dt x : ℝ} (hx : keplerF mu r v dt x = 0) :
    (stateAt mu r v dt x).1 = V3.add (V3.smul (1 - U2 (alpha mu r v) x / V3.norm r) r)
      (V3.smul ((sigma mu r v * U2 (alpha mu r v) x + V3.norm r * U1 (alpha mu r v) x) / Real.sqrt mu) v) ∧
    (stateAt mu r v dt x).2 = V3.add
      (V3.smul (Real.sqrt mu / RR (V3.norm r) (sigma mu r v) (alpha mu r v) x * (-(U1 (alpha mu r v) x / V3.norm r))) r)
      (V3.smul (Real.sqrt mu / RR (V3.norm r) (sigma mu r v) (alpha mu r v) x *
        ((sigma mu r v * U1 (alpha mu r v) x + V3.norm r * U0 (alpha mu r v) x) / Real.sqrt mu)) v) ∧
    V3.norm (stateAt mu r v dt x).1 = RR (V3.norm r) (sigma mu r v) (alpha mu r v) x :=
  state_coeffs' hmu (ne_zero_of_cross h) (RR_pos (norm_pos' (ne_zero_of_cross h)) (disc_pos hmu h) x) hx

theorem exists_unique_chi (dt : ℝ) : ∃! x, keplerF mu r v dt x = 0 := by
  have h0 := norm_pos' (ne_zero_of_cross h)
  have hD := disc_pos hmu h
  obtain ⟨x, hx⟩ := FF_surjective h0 hD (Real.sqrt mu * dt)
  refine ⟨x, ?_, ?_⟩
  · simp only [keplerF_eq]
    rw [hx, sub_self]
  · intro y hy
    rw [keplerF_eq] at hy
    exact (FF_strictMono h0 hD).injective (by rw [hx]; linarith)

theorem chi_deriv {X : ℝ → ℝ} (hX : ∀ t, keplerF mu r v t (X t) = 0) (t : ℝ) :
    HasDerivAt X (Real.sqrt mu / RR (V3.norm r) (sigma mu r v) (alpha mu r v) (X t)) t := by
  have h0 := norm_pos' (ne_zero_of_cross h)
  have hD := disc_pos hmu h
  have hm := Real.sqrt_pos.mpr hmu
  have hS := FF_strictMono h0 hD
  have hF : ∀ t, FF (V3.norm r) (sigma mu r v) (alpha mu r v) (X t) = Real.sqrt mu * t := fun t => by
    have := hX t
    rw [keplerF_eq] at this
    linarith
  have hmono : Monotone X := fun t1 t2 ht => by
    rw [← hS.le_iff_le, hF, hF]
    exact mul_le_mul_of_nonneg_left ht hm.le
  have hsurj : Function.Surjective X := fun x => by
    refine ⟨FF (V3.norm r) (sigma mu r v) (alpha mu r v) x / Real.sqrt mu, hS.injective ?_⟩
    rw [hF]
    field_simp
  have hc : Continuous X := hmono.continuous_of_surjective hsurj
  have hR := RR_pos h0 hD (X t)
  have hd : HasDerivAt (fun x => FF (V3.norm r) (sigma mu r v) (alpha mu r v) x / Real.sqrt mu)
      (RR (V3.norm r) (sigma mu r v) (alpha mu r v) (X t) / Real.sqrt mu) (X t) := (FF_deriv _ _ _ _).div_const _
  have := hd.of_local_left_inverse hc.continuousAt (by positivity) (Filter.Eventually.of_forall fun y => by
    rw [hF]
    field_simp)
  rwa [inv_div] at this

/-- The positions and velocities of the exact step satisfy Newton's equation of motion. -/
theorem isMotion {X : ℝ → ℝ} (hX : ∀ t, keplerF mu r v t (X t) = 0) :
    IsMotion mu (fun t => (stateAt mu r v t (X t)).1.toE) (fun t => (stateAt mu r v t (X t)).2.toE) := by
  have hr := ne_zero_of_cross h
  have h0 := norm_pos' hr
  have hD := disc_pos hmu h
  have hm := Real.sqrt_pos.mpr hmu
  have hq := Real.sq_sqrt hmu.le
  have eP : (fun t => (stateAt mu r v t (X t)).1.toE) = fun t => (1 - U2 (alpha mu r v) (X t) / V3.norm r) • r.toE +
      ((sigma mu r v * U2 (alpha mu r v) (X t) + V3.norm r * U1 (alpha mu r v) (X t)) / Real.sqrt mu) • v.toE := by
    funext t
    rw [(state_coeffs hmu h (hX t)).1, V3.toE_add, V3.toE_smul, V3.toE_smul]
  have eV : (fun t => (stateAt mu r v t (X t)).2.toE) = fun t =>
      (Real.sqrt mu / RR (V3.norm r) (sigma mu r v) (alpha mu r v) (X t) * (-(U1 (alpha mu r v) (X t) / V3.norm r))) • r.toE +
      (Real.sqrt mu / RR (V3.norm r) (sigma mu r v) (alpha mu r v) (X t) *
        ((sigma mu r v * U1 (alpha mu r v) (X t) + V3.norm r * U0 (alpha mu r v) (X t)) / Real.sqrt mu)) • v.toE := by
    funext t
    rw [(state_coeffs hmu h (hX t)).2.1, V3.toE_add, V3.toE_smul, V3.toE_smul]
  rw [eP, eV]
  intro t
  have hn := (state_coeffs hmu h (hX t)).2.2
  rw [← V3.norm_toE, congrFun eP t] at hn
  have hx := chi_deriv hmu h hX t
  have hR := (RR_pos h0 hD (X t)).ne'
  obtain ⟨d0, d1, d2, d3⟩ := U_deriv (alpha mu r v) (X t)
  obtain ⟨u0, u1, u2⟩ := U_rel (alpha mu r v) (X t)
  have d0' : HasDerivAt (fun t => U0 (alpha mu r v) (X t)) _ t := d0.comp t hx
  have d1' : HasDerivAt (fun t => U1 (alpha mu r v) (X t)) _ t := d1.comp t hx
  have d2' : HasDerivAt (fun t => U2 (alpha mu r v) (X t)) _ t := d2.comp t hx
  have dR : HasDerivAt (fun t => RR (V3.norm r) (sigma mu r v) (alpha mu r v) (X t)) _ t :=
    ((d0'.const_mul (V3.norm r)).add (d1'.const_mul (sigma mu r v))).add d2'
  constructor
  · have dP := (((d2'.div_const (V3.norm r)).const_sub 1).smul_const r.toE).add
      (((((d2'.const_mul (sigma mu r v)).add (d1'.const_mul (V3.norm r))).div_const (Real.sqrt mu))).smul_const v.toE)
    refine dP.congr_deriv ?_
    congr 2
    · ring
    · ring
  · have hk := accel (rho := V3.norm r) (s := sigma mu r v) (m := Real.sqrt mu) h0.ne' hm.ne' u0 u2 hR rfl
    have dA : HasDerivAt (fun t => Real.sqrt mu / RR (V3.norm r) (sigma mu r v) (alpha mu r v) (X t) *
        (-(U1 (alpha mu r v) (X t) / V3.norm r))) _ t :=
      (((hasDerivAt_const t (Real.sqrt mu)).div dR hR).mul ((d1'.div_const (V3.norm r)).neg)).congr_deriv hk.1
    have dB : HasDerivAt (fun t => Real.sqrt mu / RR (V3.norm r) (sigma mu r v) (alpha mu r v) (X t) *
        ((sigma mu r v * U1 (alpha mu r v) (X t) + V3.norm r * U0 (alpha mu r v) (X t)) / Real.sqrt mu)) _ t :=
      (((hasDerivAt_const t (Real.sqrt mu)).div dR hR).mul
        (((d1'.const_mul (sigma mu r v)).add (d0'.const_mul (V3.norm r))).div_const (Real.sqrt mu))).congr_deriv hk.2
    refine ((dA.smul_const r.toE).add (dB.smul_const v.toE)).congr_deriv ?_
    rw [hn, hq, smul_add, smul_smul, smul_smul]

end

/-! ### uniqueness -/

/-- The field of Newton's equation on pairs of position and velocity. -/
noncomputable def field (mu : ℝ) (z : E3 × E3) : E3 × E3 := (z.2, -(mu / ‖z.1‖ ^ 3) • z.1)

theorem field_contDiffAt (mu : ℝ) {z : E3 × E3} (hz : z.1 ≠ 0) : ContDiffAt ℝ 1 (field mu) z := by
  have h1 : ContDiffAt ℝ 1 (fun z : E3 × E3 => z.1) z := contDiffAt_fst
  have h2 : ContDiffAt ℝ 1 (fun z : E3 × E3 => z.2) z := contDiffAt_snd
  have hn : ContDiffAt ℝ 1 (fun z : E3 × E3 => ‖z.1‖) z := h1.norm ℝ hz
  have hp : ContDiffAt ℝ 1 (fun z : E3 × E3 => ‖z.1‖ ^ 3) z := hn.pow 3
  have hd : ContDiffAt ℝ 1 (fun z : E3 × E3 => -(mu / ‖z.1‖ ^ 3)) z :=
    (contDiffAt_const.div hp (pow_ne_zero 3 (norm_ne_zero_iff.mpr hz))).neg
  exact h2.prodMk (hd.smul h1)

/-- Two motions that share a position and a velocity at one time, one of which never meets the centre, are the same motion. -/
theorem motion_unique {mu : ℝ} {p q p' q' : ℝ → E3} (h : IsMotion mu p q) (h' : IsMotion mu p' q') (hne : ∀ t, p t ≠ 0) {t0 : ℝ}
    (hp : p t0 = p' t0) (hq : q t0 = q' t0) : p = p' ∧ q = q' := by
  have hd : ∀ t, HasDerivAt (fun t => (p t, q t)) (field mu (p t, q t)) t := fun t => (h t).1.prodMk (h t).2
  have hd' : ∀ t, HasDerivAt (fun t => (p' t, q' t)) (field mu (p' t, q' t)) t := fun t => (h' t).1.prodMk (h' t).2
  have hc : Continuous fun t => (p t, q t) := continuous_iff_continuousAt.mpr fun t => (hd t).continuousAt
  have hc' : Continuous fun t => (p' t, q' t) := continuous_iff_continuousAt.mpr fun t => (hd' t).continuousAt
  have hcl : IsClosed {t | (p t, q t) = (p' t, q' t)} := isClosed_eq hc hc'
  have ho : IsOpen {t | (p t, q t) = (p' t, q' t)} := by
    rw [isOpen_iff_mem_nhds]
    intro t ht
    obtain ⟨K, s, hs, hK⟩ := (field_contDiffAt mu (z := (p t, q t)) (hne t)).exists_lipschitzOnWith
    have hs' : s ∈ nhds (p' t, q' t) := by rw [← show (p t, q t) = (p' t, q' t) from ht]; exact hs
    have := ODE_solution_unique_of_eventually (v := fun _ => field mu) (s := fun _ => s) (K := K) (t₀ := t)
      (f := fun t => (p t, q t)) (g := fun t => (p' t, q' t))
      (Filter.Eventually.of_forall fun _ => hK)
      ((hc.continuousAt.eventually_mem hs).mono fun t ht => ⟨hd t, ht⟩)
      ((hc'.continuousAt.eventually_mem hs').mono fun t ht => ⟨hd' t, ht⟩) ht
    exact this
  have hu := IsClopen.eq_univ ⟨hcl, ho⟩ ⟨t0, by simp only [Set.mem_ofPred_eq]; rw [hp, hq]⟩
  have hall : ∀ t, (p t, q t) = (p' t, q' t) := fun t => by
    have : t ∈ {t | (p t, q t) = (p' t, q' t)} := by rw [hu]; trivial
    exact this
  exact ⟨funext fun t => congrArg Prod.fst (hall t), funext fun t => congrArg Prod.snd (hall t)⟩

end Verif.Univ
