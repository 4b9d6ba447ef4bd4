import Verif.Univ.Converge
import Mathlib.Analysis.Calculus.FDeriv.Prod
import Mathlib.Analysis.SpecialFunctions.Sqrt

/-! # Convergence of two-body propagation on ellipses (C192) -/

namespace Verif.Univ.Props

open Verif Verif.Univ

/-! ## What is claimed

The eccentricity and semi-major axis of a state, as textbooks define them. -/

/-- The square of the eccentricity. -/
noncomputable def eccSq (mu : ℝ) (r v : V3) : ℝ := 1 + 2 * energy mu (r, v) * V3.dot (V3.cross r v) (V3.cross r v) / mu ^ 2

/-- The semi-major axis. -/
noncomputable def semiMajor (mu : ℝ) (r v : V3) : ℝ := -mu / (2 * energy mu (r, v))

theorem alpha_energy {mu : ℝ} {r v : V3} (hmu : 0 < mu) : alpha mu r v = -2 * energy mu (r, v) / mu := by
  unfold alpha energy
  rw [V3.norm_sq]
  by_cases h : V3.norm r = 0
  · rw [h]; simp only [div_zero, add_zero, sub_zero]; field_simp
  · field_simp
    ring

theorem alpha_semiMajor {mu : ℝ} {r v : V3} (hmu : 0 < mu) (hE : energy mu (r, v) < 0) :
    alpha mu r v = 1 / semiMajor mu r v ∧ 0 < alpha mu r v := by
  rw [alpha_energy hmu]
  unfold semiMajor
  refine ⟨?_, div_pos (by linarith) hmu⟩
  have h1 := hE.ne
  field_simp

theorem AB_ecc {mu : ℝ} {r v : V3} (hmu : 0 < mu) (h : V3.cross r v ≠ ⟨0, 0, 0⟩) (ha : 0 < alpha mu r v) :
    cA mu r v ^ 2 + cB mu r v ^ 2 = eccSq mu r v := by
  have h1 := disc_eq (v := v) hmu (ne_zero_of_cross h)
  have h2 := alpha_energy (r := r) (v := v) hmu
  unfold cA cB eccSq
  rw [mul_pow, Real.sq_sqrt ha.le, ← h1]
  have h3 : 2 * energy mu (r, v) = -(alpha mu r v * mu) := by rw [h2]; field_simp
  rw [h3]
  field_simp
  ring

/-! ## The loop -/

/-- The bound on the correction with `k` corrections before it. -/
noncomputable def decay (k : Nat) : ℝ := (9 / 10) ^ 2 ^ k

theorem decay_pos (k : Nat) : 0 < decay k := by unfold decay; positivity

theorem decay_le (k : Nat) : decay k ≤ 9 / 10 := by
  unfold decay
  calc ((9 : ℝ) / 10) ^ 2 ^ k ≤ (9 / 10) ^ 1 := pow_le_pow_of_le_one (by norm_num) (by norm_num) Nat.one_le_two_pow
    _ = 9 / 10 := pow_one _

theorem decay_succ (k : Nat) : decay (k + 1) = decay k ^ 2 := by unfold decay; rw [pow_succ, pow_mul]

theorem decay_anti {k l : Nat} (h : k ≤ l) : decay l ≤ decay k :=
  pow_le_pow_of_le_one (by norm_num) (by norm_num) (Nat.pow_le_pow_right (by norm_num) h)

section loop
variable {mu : ℝ} {r v : V3} (hmu : 0 < mu) (h : V3.cross r v ≠ ⟨0, 0, 0⟩) (hE : energy mu (r, v) < 0) (he : eccSq mu r v ≤ (3 / 5) ^ 2)
include hmu h hE he

/-- One correction. -/
theorem step_error {dt x : ℝ} (hx : keplerF mu r v dt x = 0) (y : ℝ) :
    Real.sqrt (alpha mu r v) * |y - keplerF mu r v dt y / keplerFp mu r v y - x| ≤ 3 / 4 * (Real.sqrt (alpha mu r v) * |y - x|) ^ 2 := by
  obtain ⟨-, ha⟩ := alpha_semiMajor hmu hE
  have hAB := (AB_ecc hmu h ha).trans_le he
  have hw := Real.sqrt_pos.mpr ha
  have h1 := keplerF_theta ha dt x
  rw [hx, zero_mul] at h1
  have h2 := keplerF_theta ha dt y
  have h3 := keplerFp_theta ha y
  have hp : 0 < GGp (cA mu r v) (cB mu r v) (Real.sqrt (alpha mu r v) * y) :=
    lt_of_lt_of_le (by norm_num) (GGp_lower hAB (by norm_num) _)
  have h4 := GG_newton hAB (by norm_num) (by norm_num) (sub_eq_zero.mp h1.symm) (Real.sqrt (alpha mu r v) * y)
  rw [← h2, ← h3] at h4
  rw [← h3] at hp
  have hf : keplerFp mu r v y ≠ 0 := fun h0 => by rw [h0, zero_mul] at hp; exact lt_irrefl _ hp
  have e1 : Real.sqrt (alpha mu r v) * y - keplerF mu r v dt y * (alpha mu r v * Real.sqrt (alpha mu r v)) / (keplerFp mu r v y * alpha mu r v) -
      Real.sqrt (alpha mu r v) * x = Real.sqrt (alpha mu r v) * (y - keplerF mu r v dt y / keplerFp mu r v y - x) := by
    have := ha.ne'
    field_simp
  have e2 : Real.sqrt (alpha mu r v) * y - Real.sqrt (alpha mu r v) * x = Real.sqrt (alpha mu r v) * (y - x) := by ring
  rw [e1, e2, abs_mul, abs_of_pos hw] at h4
  refine h4.trans (le_of_eq ?_)
  rw [mul_pow, mul_pow, sq_abs]
  norm_num

/-- The start. -/
theorem start_error {dt x : ℝ} (hx : keplerF mu r v dt x = 0) :
    3 / 4 * (Real.sqrt (alpha mu r v) * |Real.sqrt mu * |alpha mu r v| * dt - x|) ≤ 9 / 10 := by
  obtain ⟨-, ha⟩ := alpha_semiMajor hmu hE
  have hAB := (AB_ecc hmu h ha).trans_le he
  have hw := Real.sqrt_pos.mpr ha
  have h1 := keplerF_theta ha dt x
  rw [hx, zero_mul] at h1
  have h4 := GG_start hAB (by norm_num) (sub_eq_zero.mp h1.symm)
  rw [← mul_sub, abs_mul, abs_of_pos hw] at h4
  linarith

/-- What holds after `k` corrections. -/
def Inv (mu : ℝ) (r v : V3) (x : ℝ) (p : Loop) : Prop :=
  3 / 4 * (Real.sqrt (alpha mu r v) * |p.chi - x|) ≤ decay p.iterations ∧
  (p.ratio = 1e15 ∧ p.iterations = 0 ∨ ∃ k, p.iterations = k + 1 ∧ p.c = calcStumpff (alpha mu r v * (p.chi + p.ratio) ^ 2) ∧
    Real.sqrt (alpha mu r v) * |p.ratio| ≤ 8 / 3 * decay k ∧ |p.chi + p.ratio - x| ≤ 10 * |p.ratio| ∧
    |p.chi - x| ≤ 3 / 4 * Real.sqrt (alpha mu r v) * (10 * p.ratio) ^ 2)

theorem inv_step {dt x : ℝ} (hx : keplerF mu r v dt x = 0) {p : Loop} (hp : Inv mu r v x p) : Inv mu r v x (newton mu r v dt p) := by
  obtain ⟨-, ha⟩ := alpha_semiMajor hmu hE
  have hw := Real.sqrt_pos.mpr ha
  have hs := step_error hmu h hE he hx p.chi
  have h0 := hp.1
  have hk := decay_le p.iterations
  unfold Inv newton
  simp only
  set w := Real.sqrt (alpha mu r v) with hwd
  set q := keplerF mu r v dt p.chi / keplerFp mu r v p.chi with hq
  have hd := abs_nonneg (p.chi - x)
  have hn := abs_nonneg (p.chi - q - x)
  -- the new error is at most 9/10 of the old one
  have h9 : |p.chi - q - x| ≤ 9 / 10 * |p.chi - x| := by
    have : w * |p.chi - q - x| ≤ w * (9 / 10 * |p.chi - x|) := by
      refine hs.trans ?_
      have : 3 / 4 * (w * |p.chi - x|) * (w * |p.chi - x|) ≤ 9 / 10 * (w * |p.chi - x|) :=
        mul_le_mul_of_nonneg_right (h0.trans hk) (by positivity)
      nlinarith
    exact le_of_mul_le_mul_left this hw
  have htri : |p.chi - x| ≤ |q| + |p.chi - q - x| := by
    have : p.chi - x = q + (p.chi - q - x) := by ring
    calc |p.chi - x| = |q + (p.chi - q - x)| := by rw [← this]
      _ ≤ _ := abs_add_le _ _
  have htri' : |q| ≤ |p.chi - x| + |p.chi - q - x| := by
    have : q = (p.chi - x) - (p.chi - q - x) := by ring
    calc |q| = |(p.chi - x) - (p.chi - q - x)| := by rw [← this]
      _ ≤ _ := abs_sub _ _
  have h10 : |p.chi - x| ≤ 10 * |q| := by linarith
  refine ⟨?_, Or.inr ⟨p.iterations, rfl, by rw [sub_add_cancel], ?_, by rw [sub_add_cancel]; exact h10, ?_⟩⟩
  · rw [decay_succ]
    have h1 : (3 / 4 * (w * |p.chi - x|)) ^ 2 ≤ decay p.iterations ^ 2 := pow_le_pow_left₀ (by positivity) h0 2
    nlinarith
  · have : w * |q| ≤ w * (2 * |p.chi - x|) := mul_le_mul_of_nonneg_left (by linarith) hw.le
    nlinarith
  · have h1 : w * |p.chi - q - x| ≤ w * (3 / 4 * w * (10 * q) ^ 2) := by
      refine hs.trans ?_
      have : (w * |p.chi - x|) ^ 2 ≤ (w * (10 * |q|)) ^ 2 := pow_le_pow_left₀ (by positivity) (by gcongr) 2
      have e1 : (w * (10 * |q|)) ^ 2 = w ^ 2 * (100 * q ^ 2) := by rw [mul_pow, mul_pow, sq_abs]; ring
      rw [e1] at this
      linarith
    exact le_of_mul_le_mul_left h1 hw

/-- The loop keeps the invariant and makes no correction once `K + 1` have been made. -/
theorem loop_converges {dt x : ℝ} (hx : keplerF mu r v dt x = 0) {tol : ℝ} {K : Nat}
    (hK : 8 / 3 * decay K ≤ Real.sqrt (alpha mu r v) * tol) (maxIter : Nat) :
    ∀ (fuel : Nat) (p : Loop), Inv mu r v x p → p.iterations ≤ K + 1 →
      Inv mu r v x (loop mu r v dt tol maxIter fuel p) ∧ (loop mu r v dt tol maxIter fuel p).iterations ≤ K + 1 := by
  obtain ⟨-, ha⟩ := alpha_semiMajor hmu hE
  have hw := Real.sqrt_pos.mpr ha
  intro fuel
  induction fuel with
  | zero => intro p h1 h2; exact ⟨h1, h2⟩
  | succ n ih =>
    intro p h1 h2
    unfold loop
    split
    · rename_i hc
      refine ih _ (inv_step hmu h hE he hx h1) ?_
      show p.iterations + 1 ≤ K + 1
      rcases h1.2 with ⟨-, h3⟩ | ⟨k, h3, -, h4, -⟩
      · omega
      · by_contra hlt
        have hkK : decay k ≤ decay K := decay_anti (by omega)
        have : Real.sqrt (alpha mu r v) * |p.ratio| ≤ Real.sqrt (alpha mu r v) * tol := by linarith
        exact absurd (le_of_mul_le_mul_left this hw) (not_le.mpr hc.1)
    · exact ⟨h1, h2⟩

theorem calcChi_converges {dt x : ℝ} (hx : keplerF mu r v dt x = 0) {tol : ℝ} (ht : tol < 1e15) {K : Nat}
    (hK : 8 / 3 * decay K ≤ Real.sqrt (alpha mu r v) * tol) {maxIter : Nat} (hm : K ≤ maxIter) :
    let e := calcChi mu r v dt maxIter tol
    e.iterations ≤ K + 1 ∧ |e.ratio| ≤ tol ∧ e.c = calcStumpff (alpha mu r v * (e.chi + e.ratio) ^ 2) ∧
    |e.chi + e.ratio - x| ≤ 10 * tol ∧ |e.chi - x| ≤ 75 * Real.sqrt (alpha mu r v) * tol ^ 2 := by
  obtain ⟨-, ha⟩ := alpha_semiMajor hmu hE
  have hw := Real.sqrt_pos.mpr ha
  have h0 : Inv mu r v x ⟨Real.sqrt mu * |alpha mu r v| * dt, ⟨0, 0, 0, 0, 0, 0⟩, 1e15, 0⟩ :=
    ⟨(start_error hmu h hE he hx).trans (by simp [decay]), Or.inl ⟨rfl, rfl⟩⟩
  obtain ⟨h1, h2⟩ := loop_converges hmu h hE he hx hK maxIter (maxIter + 1) _ h0 (Nat.zero_le _)
  obtain ⟨i1, -, -⟩ := calcChi_inv mu r v dt tol maxIter
  simp only
  change Inv mu r v x (calcChi mu r v dt maxIter tol) at h1
  change (calcChi mu r v dt maxIter tol).iterations ≤ K + 1 at h2
  generalize calcChi mu r v dt maxIter tol = e at *
  rcases h1.2 with ⟨j1, j2⟩ | ⟨k, j1, j2, j3, j4, j5⟩
  · exfalso
    rcases i1 with i1 | i1
    · rw [j1, abs_of_nonneg (by norm_num)] at i1
      exact absurd i1 (not_le.mpr ht)
    · omega
  · have hr : |e.ratio| ≤ tol := by
      rcases i1 with i1 | i1
      · exact i1
      · have : decay k ≤ decay K := decay_anti (by omega)
        exact le_of_mul_le_mul_left (by linarith) hw
    refine ⟨h2, hr, j2, by linarith, j5.trans ?_⟩
    have : e.ratio ^ 2 ≤ tol ^ 2 := by rw [← sq_abs e.ratio]; exact pow_le_pow_left₀ (abs_nonneg _) hr 2
    nlinarith [mul_le_mul_of_nonneg_left this hw.le]

end loop

/-! ## The propagated state -/

/-- The state for an anomaly and the Stumpff functions of another one. -/
noncomputable def stateWith (mu : ℝ) (r v : V3) (dt : ℝ) (z : ℝ × ℝ) : V3 × V3 :=
  applyLagrange r v (lagrange mu r v dt z.1 (calcStumpff (alpha mu r v * z.2 ^ 2)))

theorem stateWith_diff {mu : ℝ} {r v : V3} (hr : r ≠ ⟨0, 0, 0⟩) (dt : ℝ) {x : ℝ} (hx : x ≠ 0)
    (hn : (stateWith mu r v dt (x, x)).1 ≠ ⟨0, 0, 0⟩) :
    DifferentiableAt ℝ (fun z => (stateWith mu r v dt z).1.toE) (x, x) ∧ DifferentiableAt ℝ (fun z => (stateWith mu r v dt z).2.toE) (x, x) := by
  have h0 := norm_pos' hr
  set a := alpha mu r v with ha
  have hd2 : DifferentiableAt ℝ (fun y : ℝ => (calcStumpff (a * y ^ 2)).c2) x := by
    have h1 : DifferentiableAt ℝ (fun y : ℝ => U2 a y / y ^ 2) x :=
      (U_deriv a x).2.2.1.differentiableAt.div (differentiableAt_id.pow 2) (pow_ne_zero 2 hx)
    refine h1.congr_of_eventuallyEq ?_
    filter_upwards [isOpen_ne.mem_nhds hx] with y hy
    have : y ≠ 0 := hy
    unfold U2
    field_simp
  have hd3 : DifferentiableAt ℝ (fun y : ℝ => (calcStumpff (a * y ^ 2)).c3) x := by
    have h1 : DifferentiableAt ℝ (fun y : ℝ => U3 a y / y ^ 3) x :=
      (U_deriv a x).2.2.2.differentiableAt.div (differentiableAt_id.pow 3) (pow_ne_zero 3 hx)
    refine h1.congr_of_eventuallyEq ?_
    filter_upwards [isOpen_ne.mem_nhds hx] with y hy
    have : y ≠ 0 := hy
    unfold U3
    field_simp
  have hf1 : DifferentiableAt ℝ (fun z : ℝ × ℝ => z.1) (x, x) := differentiableAt_fst
  have hf2 : DifferentiableAt ℝ (fun z : ℝ × ℝ => (calcStumpff (a * z.2 ^ 2)).c2) (x, x) :=
    DifferentiableAt.comp (x, x) (g := fun y : ℝ => (calcStumpff (a * y ^ 2)).c2) hd2 differentiableAt_snd
  have hf3 : DifferentiableAt ℝ (fun z : ℝ × ℝ => (calcStumpff (a * z.2 ^ 2)).c3) (x, x) :=
    DifferentiableAt.comp (x, x) (g := fun y : ℝ => (calcStumpff (a * y ^ 2)).c3) hd3 differentiableAt_snd
  have hq : DifferentiableAt ℝ (fun z : ℝ × ℝ => z.1 ^ 2 / V3.norm r) (x, x) := by
    simp only [div_eq_mul_inv]
    exact (hf1.pow 2).mul_const _
  have hF : DifferentiableAt ℝ (fun z : ℝ × ℝ => 1 - z.1 ^ 2 / V3.norm r * (calcStumpff (a * z.2 ^ 2)).c2) (x, x) :=
    (hq.mul hf2).const_sub 1
  have hG : DifferentiableAt ℝ (fun z : ℝ × ℝ => dt - 1 / Real.sqrt mu * z.1 ^ 3 * (calcStumpff (a * z.2 ^ 2)).c3) (x, x) :=
    (((hf1.pow 3).const_mul _).mul hf3).const_sub dt
  have hP : DifferentiableAt ℝ (fun z => (stateWith mu r v dt z).1.toE) (x, x) := by
    have := (hF.smul_const r.toE).add (hG.smul_const v.toE)
    refine this.congr_of_eventuallyEq (Filter.Eventually.of_forall fun z => ?_)
    simp only [stateWith, applyLagrange, lagrange, V3.toE_add, V3.toE_smul, ← ha, Pi.add_apply]
  refine ⟨hP, ?_⟩
  have hne : (stateWith mu r v dt (x, x)).1.toE ≠ 0 := toE_ne hn
  have hN : DifferentiableAt ℝ (fun z => V3.norm (stateWith mu r v dt z).1) (x, x) := by
    have := hP.norm ℝ hne
    refine this.congr_of_eventuallyEq (Filter.Eventually.of_forall fun z => ?_)
    simp only [V3.norm_toE]
  have hN0 : V3.norm (stateWith mu r v dt (x, x)).1 ≠ 0 := (norm_pos' hn).ne'
  have hi : DifferentiableAt ℝ (fun z => (V3.norm (stateWith mu r v dt z).1)⁻¹) (x, x) := hN.inv hN0
  have hd1 : DifferentiableAt ℝ (fun z : ℝ × ℝ => Real.sqrt mu / (V3.norm r * V3.norm (stateWith mu r v dt z).1)) (x, x) := by
    simp only [div_eq_mul_inv, mul_inv]
    exact (hi.const_mul _).const_mul _
  have hd4 : DifferentiableAt ℝ (fun z : ℝ × ℝ => z.1 ^ 2 / V3.norm (stateWith mu r v dt z).1) (x, x) := by
    simp only [div_eq_mul_inv]
    exact (hf1.pow 2).mul hi
  have hFd : DifferentiableAt ℝ (fun z : ℝ × ℝ => Real.sqrt mu / (V3.norm r * V3.norm (stateWith mu r v dt z).1) *
      (a * z.1 ^ 3 * (calcStumpff (a * z.2 ^ 2)).c3 - z.1)) (x, x) :=
    hd1.mul ((((hf1.pow 3).const_mul a).mul hf3).sub hf1)
  have hGd : DifferentiableAt ℝ (fun z : ℝ × ℝ => 1 - z.1 ^ 2 / V3.norm (stateWith mu r v dt z).1 * (calcStumpff (a * z.2 ^ 2)).c2) (x, x) :=
    (hd4.mul hf2).const_sub 1
  have := (hFd.smul_const r.toE).add (hGd.smul_const v.toE)
  refine this.congr_of_eventuallyEq (Filter.Eventually.of_forall fun z => ?_)
  simp only [stateWith, applyLagrange, lagrange, V3.toE_add, V3.toE_smul, ← ha, Pi.add_apply]

/-- Close to the solution the error of the state is at most proportional to the error of the anomalies. -/
theorem stateWith_error {mu : ℝ} {r v : V3} (hr : r ≠ ⟨0, 0, 0⟩) (dt : ℝ) {x : ℝ} (hx : x ≠ 0)
    (hn : (stateWith mu r v dt (x, x)).1 ≠ ⟨0, 0, 0⟩) :
    ∃ C > 0, ∃ δ > 0, ∀ z : ℝ × ℝ, ‖z - (x, x)‖ < δ →
      ‖(stateWith mu r v dt z).1.toE - (stateWith mu r v dt (x, x)).1.toE‖ ≤ C * ‖z - (x, x)‖ ∧
      ‖(stateWith mu r v dt z).2.toE - (stateWith mu r v dt (x, x)).2.toE‖ ≤ C * ‖z - (x, x)‖ := by
  obtain ⟨h1, h2⟩ := stateWith_diff hr dt hx hn
  obtain ⟨c1, p1, b1⟩ := h1.isBigO_sub.exists_pos
  obtain ⟨c2, p2, b2⟩ := h2.isBigO_sub.exists_pos
  obtain ⟨δ, hδ, hb⟩ := Metric.eventually_nhds_iff.mp (b1.bound.and b2.bound)
  refine ⟨max c1 c2, lt_max_of_lt_left p1, δ, hδ, fun z hz => ?_⟩
  obtain ⟨g1, g2⟩ := hb (by rwa [dist_eq_norm])
  exact ⟨g1.trans (mul_le_mul_of_nonneg_right (le_max_left _ _) (norm_nonneg _)),
    g2.trans (mul_le_mul_of_nonneg_right (le_max_right _ _) (norm_nonneg _))⟩

/-! ## C192 -/

/-- The number of corrections that is enough for a tolerance, in the unit of the square root of the semi-major axis. -/
theorem enough {tol a : ℝ} (ht : 0 < tol) (ha : 0 < a) : ∃ K, 8 / 3 * decay K ≤ Real.sqrt a * tol := by
  have hw := mul_pos (Real.sqrt_pos.mpr ha) ht
  obtain ⟨n, hn⟩ := exists_pow_lt_of_lt_one (show (0 : ℝ) < 3 / 8 * (Real.sqrt a * tol) by positivity) (show (9 / 10 : ℝ) < 1 by norm_num)
  refine ⟨n, ?_⟩
  have : decay n ≤ (9 / 10) ^ n := pow_le_pow_of_le_one (by norm_num) (by norm_num) Nat.lt_two_pow_self.le
  linarith

theorem enough_default {tol a : ℝ} (ht : 1e-16 ≤ tol) (ha : 0 < a) (hA : 1 / a ≤ 1e10) : 8 / 3 * decay 9 ≤ Real.sqrt a * tol := by
  have h1 : (1e-5 : ℝ) ≤ Real.sqrt a := by
    apply Real.le_sqrt_of_sq_le
    rw [div_le_iff₀ ha] at hA
    norm_num at hA ⊢
    linarith
  have h2 : (8 / 3 : ℝ) * decay 9 ≤ 1e-5 * 1e-16 := by
    have e1 : decay 9 = ((9 / 10 : ℝ) ^ 32) ^ 16 := by unfold decay; rw [← pow_mul]; norm_num only
    have e2 : ((9 / 10 : ℝ) ^ 32) ^ 16 ≤ (35 / 1000) ^ 16 := pow_le_pow_left₀ (by positivity) (by norm_num) 16
    rw [e1]
    refine (mul_le_mul_of_nonneg_left e2 (by norm_num)).trans (by norm_num)
  exact h2.trans (mul_le_mul h1 ht (by norm_num) (Real.sqrt_nonneg a))

/-- C192. On every ellipse with an eccentricity of at most 0.6, for every time step and every positive tolerance, the iteration stops by
itself: there is a number of corrections, which depends on the tolerance and the semi-major axis only, after which the last correction is
within the tolerance whatever larger limit is given; the anomaly is then within a multiple of the square of the tolerance of the
solution, and the one of the Stumpff functions within ten times the tolerance. -/
theorem C192_stops {tol a : ℝ} (ht : 0 < tol) (ht' : tol < 1e15) (ha : 0 < a) : ∃ K : Nat, ∀ {mu : ℝ} {r v : V3}, 0 < mu →
    V3.cross r v ≠ ⟨0, 0, 0⟩ → energy mu (r, v) < 0 → semiMajor mu r v ≤ a → eccSq mu r v ≤ (3 / 5) ^ 2 → ∀ (dt : ℝ) (maxIter : Nat), K ≤ maxIter →
      let e := calcChi mu r v dt maxIter tol
      e.iterations ≤ K + 1 ∧ |e.ratio| ≤ tol ∧ e.c = calcStumpff (alpha mu r v * (e.chi + e.ratio) ^ 2) ∧
      ∃ x, keplerF mu r v dt x = 0 ∧ |e.chi + e.ratio - x| ≤ 10 * tol ∧ |e.chi - x| ≤ 75 * Real.sqrt (1 / semiMajor mu r v) * tol ^ 2 := by
  obtain ⟨K, hK⟩ := enough ht (one_div_pos.mpr ha)
  refine ⟨K, fun {mu r v} hmu h hE hA he dt maxIter hm => ?_⟩
  obtain ⟨e1, hal⟩ := alpha_semiMajor hmu hE
  obtain ⟨x, hx, -⟩ := exists_unique_chi hmu h dt
  have hs : 0 < semiMajor mu r v := by rw [e1] at hal; exact one_div_pos.mp hal
  have hle : Real.sqrt (1 / a) ≤ Real.sqrt (alpha mu r v) := by
    rw [e1]; exact Real.sqrt_le_sqrt (one_div_le_one_div_of_le hs hA)
  obtain ⟨g1, g2, g3, g4, g5⟩ := calcChi_converges hmu h hE he hx ht' (hK.trans (mul_le_mul_of_nonneg_right hle ht.le)) hm
  rw [← e1]
  exact ⟨g1, g2, g3, x, hx, g4, g5⟩

/-- C192. The default settings are enough for semi-major axes up to 10¹⁰: with any limit of nine or more and any tolerance from 10⁻¹⁶, at
most ten corrections are made, and the last one is within the tolerance. -/
theorem C192_default {mu : ℝ} {r v : V3} (hmu : 0 < mu) (h : V3.cross r v ≠ ⟨0, 0, 0⟩) (hE : energy mu (r, v) < 0)
    (he : eccSq mu r v ≤ (3 / 5) ^ 2) (hA : semiMajor mu r v ≤ 1e10) (dt : ℝ) {maxIter : Nat} (hm : 9 ≤ maxIter) {tol : ℝ} (ht : 1e-16 ≤ tol)
    (ht' : tol < 1e15) :
    let e := calcChi mu r v dt maxIter tol
    e.iterations ≤ 10 ∧ |e.ratio| ≤ tol ∧
    ∃ x, keplerF mu r v dt x = 0 ∧ |e.chi + e.ratio - x| ≤ 10 * tol ∧ |e.chi - x| ≤ 75 * Real.sqrt (1 / semiMajor mu r v) * tol ^ 2 := by
  obtain ⟨e1, hal⟩ := alpha_semiMajor hmu hE
  obtain ⟨x, hx, -⟩ := exists_unique_chi hmu h dt
  obtain ⟨g1, g2, -, g4, g5⟩ := calcChi_converges hmu h hE he hx ht'
    (enough_default ht hal (by rw [e1, one_div_one_div]; exact hA)) hm
  rw [← e1]
  exact ⟨g1, g2, x, hx, g4, g5⟩

/-- If the anomalies are within a multiple of the tolerance, so is the state. -/
theorem state_limit {mu : ℝ} {r v : V3} (hmu : 0 < mu) (h : V3.cross r v ≠ ⟨0, 0, 0⟩) {p q : ℝ → E3} (hmo : IsMotion mu p q) {t0 : ℝ}
    (hp : p t0 = r.toE) (hq : q t0 = v.toE) (t1 : ℝ) {x : ℝ} (hx : keplerF mu r v (t1 - t0) x = 0) {L : ℝ} (hL : 0 < L)
    (hc : ∀ tol : ℝ, 0 < tol → tol < 1 → ∃ K : Nat, ∀ maxIter ≥ K,
      let e := calcChi mu r v (t1 - t0) maxIter tol
      e.c = calcStumpff (alpha mu r v * (e.chi + e.ratio) ^ 2) ∧ |e.chi + e.ratio - x| ≤ L * tol ∧ |e.chi - x| ≤ L * tol) :
    ∃ C > 0, ∃ δ > 0, ∀ tol : ℝ, 0 < tol → tol < δ → ∃ K : Nat, ∀ maxIter ≥ K,
      ‖(propagate mu (r, v) t0 t1 maxIter tol).1.toE - p t1‖ ≤ C * tol ∧ ‖(propagate mu (r, v) t0 t1 maxIter tol).2.toE - q t1‖ ≤ C * tol := by
  have hr := ne_zero_of_cross h
  have hex := C35_newton hmu h hmo hp hq t1 hx
  by_cases hx0 : x = 0
  · have hdt : t1 - t0 = 0 := by
      rw [hx0, keplerF_eq, FF_zero, zero_sub, neg_eq_zero] at hx
      exact (mul_eq_zero.mp hx).resolve_left (Real.sqrt_pos.mpr hmu).ne'
    have ht : t1 = t0 := sub_eq_zero.mp hdt
    refine ⟨1, one_pos, 1, one_pos, fun tol ht0 _ => ⟨0, fun maxIter _ => ?_⟩⟩
    rw [ht, C35_zero hr, hp, hq]
    simp only [sub_self, norm_zero, one_mul]
    exact ⟨ht0.le, ht0.le⟩
  · have hst : stateWith mu r v (t1 - t0) (x, x) = stateAt mu r v (t1 - t0) x := rfl
    obtain ⟨C, hC, δ, hδ, hb⟩ := stateWith_error hr (t1 - t0) hx0 (by rw [hst]; exact motion_ne hmu h hx)
    rw [hst, hex.1, hex.2] at hb
    refine ⟨C * L, by positivity, min 1 (δ / L), lt_min one_pos (by positivity), fun tol ht0 ht1 => ?_⟩
    obtain ⟨K, hK⟩ := hc tol ht0 (ht1.trans_le (min_le_left _ _))
    have hltδ : tol < δ / L := ht1.trans_le (min_le_right _ _)
    refine ⟨K, fun maxIter hm => ?_⟩
    obtain ⟨g3, g4, g5⟩ := hK maxIter hm
    have hpr : propagate mu (r, v) t0 t1 maxIter tol = stateWith mu r v (t1 - t0)
        ((calcChi mu r v (t1 - t0) maxIter tol).chi, (calcChi mu r v (t1 - t0) maxIter tol).chi + (calcChi mu r v (t1 - t0) maxIter tol).ratio) := by
      unfold propagate stateWith
      simp only
      rw [← g3]
    generalize calcChi mu r v (t1 - t0) maxIter tol = e at *
    have hz : ‖((e.chi, e.chi + e.ratio) : ℝ × ℝ) - (x, x)‖ ≤ L * tol := by
      rw [Prod.norm_def]
      simp only [Prod.fst_sub, Prod.snd_sub, Real.norm_eq_abs]
      exact max_le g5 g4
    have hzδ : ‖((e.chi, e.chi + e.ratio) : ℝ × ℝ) - (x, x)‖ < δ := by
      refine hz.trans_lt ?_
      rwa [lt_div_iff₀ hL, mul_comm] at hltδ
    obtain ⟨b1, b2⟩ := hb _ hzδ
    rw [hpr]
    have hfin : C * ‖((e.chi, e.chi + e.ratio) : ℝ × ℝ) - (x, x)‖ ≤ C * L * tol := by
      rw [mul_assoc]; exact mul_le_mul_of_nonneg_left hz hC.le
    exact ⟨b1.trans hfin, b2.trans hfin⟩

/-- C192. The propagated state tends to the state of the motion under Newton's equation as the tolerance tends to zero, and its error is at
most proportional to the tolerance: for every such state and pair of times there are `C` and `δ` such that with any tolerance below `δ`
and a limit that is large enough for it, position and velocity are within `C` times the tolerance. -/
theorem C192_state {mu : ℝ} {s : V3 × V3} (hmu : 0 < mu) (h : V3.cross s.1 s.2 ≠ ⟨0, 0, 0⟩) (hE : energy mu s < 0)
    (he : eccSq mu s.1 s.2 ≤ (3 / 5) ^ 2) {p q : ℝ → E3} (hmo : IsMotion mu p q) {t0 : ℝ} (hp : p t0 = s.1.toE) (hq : q t0 = s.2.toE) (t1 : ℝ) :
    ∃ C > 0, ∃ δ > 0, ∀ tol : ℝ, 0 < tol → tol < δ → ∃ K : Nat, ∀ maxIter ≥ K,
      ‖(propagate mu s t0 t1 maxIter tol).1.toE - p t1‖ ≤ C * tol ∧ ‖(propagate mu s t0 t1 maxIter tol).2.toE - q t1‖ ≤ C * tol := by
  obtain ⟨r, v⟩ := s
  simp only at h hE he hp hq
  obtain ⟨-, hal⟩ := alpha_semiMajor hmu hE
  obtain ⟨x, hx, -⟩ := exists_unique_chi hmu h (t1 - t0)
  have hw := Real.sqrt_pos.mpr hal
  refine state_limit hmu h hmo hp hq t1 hx (L := 10 + 75 * Real.sqrt (alpha mu r v)) (by positivity) fun tol ht0 hlt1 => ?_
  obtain ⟨K, hK⟩ := enough ht0 hal
  refine ⟨K, fun maxIter hm => ?_⟩
  obtain ⟨-, -, g3, g4, g5⟩ := calcChi_converges hmu h hE he hx (hlt1.trans (by norm_num)) hK hm
  refine ⟨g3, g4.trans ?_, g5.trans ?_⟩
  · nlinarith [mul_pos hw ht0]
  · have : tol ^ 2 ≤ tol := by nlinarith
    nlinarith [mul_le_mul_of_nonneg_left this hw.le]

/-- The hypotheses hold for an orbit of eccentricity 0.44 at its closest point. -/
example : V3.cross ⟨1, 0, 0⟩ ⟨0, 6 / 5, 0⟩ ≠ ⟨0, 0, 0⟩ ∧ energy 1 (⟨1, 0, 0⟩, ⟨0, 6 / 5, 0⟩) < 0 ∧
    eccSq 1 ⟨1, 0, 0⟩ ⟨0, 6 / 5, 0⟩ = (44 / 100) ^ 2 ∧ semiMajor 1 ⟨1, 0, 0⟩ ⟨0, 6 / 5, 0⟩ = 25 / 14 := by
  have h1 : V3.norm ⟨1, 0, 0⟩ = 1 := by simp [V3.norm]
  refine ⟨?_, ?_, ?_, ?_⟩
  · simp [V3.cross]
  · simp only [energy, h1, V3.dot]; norm_num
  · simp only [eccSq, energy, h1, V3.dot, V3.cross]; norm_num
  · simp only [semiMajor, energy, h1, V3.dot]; norm_num

/-! ### hyperbolas -/

/-- The velocity of a body at the closest point of a hyperbola with semi-major axis and gravitational parameter one. -/
noncomputable def fast : V3 := ⟨0, Real.sqrt 3, 0⟩

theorem fast_consts : alpha 1 ⟨1, 0, 0⟩ fast = -1 ∧ sigma 1 ⟨1, 0, 0⟩ fast = 0 ∧ V3.norm ⟨1, 0, 0⟩ = 1 := by
  have h1 : V3.norm ⟨1, 0, 0⟩ = 1 := by simp [V3.norm]
  refine ⟨?_, ?_, h1⟩
  · unfold alpha
    rw [h1, V3.norm_sq]
    simp only [V3.dot, fast, zero_mul, add_zero, zero_add, Real.mul_self_sqrt (show (0 : ℝ) ≤ 3 by norm_num)]
    norm_num
  · unfold sigma V3.dot fast
    norm_num

theorem fast_F (dt x : ℝ) : keplerF 1 ⟨1, 0, 0⟩ fast dt x = 2 * Real.sinh x - x - dt ∧
    keplerFp 1 ⟨1, 0, 0⟩ fast x = 2 * Real.cosh x - 1 := by
  obtain ⟨ha, hs, hn⟩ := fast_consts
  obtain ⟨f0, f1, f2, f3⟩ := neg_form (show (-1 : ℝ) < 0 by norm_num) x
  rw [neg_neg, Real.sqrt_one, one_mul] at f0 f1 f2 f3
  constructor
  · rw [keplerF_eq, ha, hs, hn]
    unfold FF
    rw [Real.sqrt_one, f1, f2, f3]
    ring
  · rw [keplerFp_eq, ha, hs, hn]
    unfold RR
    rw [f0, f1, f2]
    ring

theorem cosh_half (y : ℝ) : Real.cosh y - 1 = 2 * Real.sinh (y / 2) ^ 2 := by
  have h1 := Real.cosh_two_mul (y / 2)
  rw [mul_div_cancel₀ y two_ne_zero] at h1
  rw [h1, Real.cosh_sq]
  ring

theorem cosh_lower (y : ℝ) : 1 + y ^ 2 / 2 ≤ Real.cosh y := by
  have h := cosh_half |y|
  rw [Real.cosh_abs] at h
  have h1 : |y| / 2 ≤ Real.sinh (|y| / 2) := Real.self_le_sinh_iff.mpr (by positivity)
  have h2 : (|y| / 2) ^ 2 ≤ Real.sinh (|y| / 2) ^ 2 := pow_le_pow_left₀ (by positivity) h1 2
  rw [div_pow, sq_abs] at h2
  linarith

theorem sinh_lower {y : ℝ} (hy : 0 ≤ y) : y * (1 + y ^ 2 / 8) ≤ Real.sinh y := by
  have h := Real.sinh_two_mul (y / 2)
  rw [mul_div_cancel₀ y two_ne_zero] at h
  have h1 : y / 2 ≤ Real.sinh (y / 2) := Real.self_le_sinh_iff.mpr (by positivity)
  have h2 := cosh_lower (y / 2)
  have h3 : y / 2 * (1 + (y / 2) ^ 2 / 2) ≤ Real.sinh (y / 2) * Real.cosh (y / 2) := mul_le_mul h1 h2 (by positivity) (by linarith)
  rw [h]
  nlinarith

/-- A correction moves the anomaly back by at most one. -/
theorem fast_step {dt y : ℝ} (h : 1 ≤ y + dt) : y - 1 ≤ y - keplerF 1 ⟨1, 0, 0⟩ fast dt y / keplerFp 1 ⟨1, 0, 0⟩ fast y := by
  rw [(fast_F dt y).1, (fast_F dt y).2]
  have hc := Real.one_le_cosh y
  have hs := (Real.sinh_lt_cosh y).le
  have : (2 * Real.sinh y - y - dt) / (2 * Real.cosh y - 1) ≤ 1 := by
    rw [div_le_one (by linarith)]
    linarith
  linarith

theorem fast_loop {dt tol : ℝ} {maxIter : Nat} (hdt : (maxIter : ℝ) + 1 ≤ dt) : ∀ (fuel : Nat) (p : Loop), dt - p.iterations ≤ p.chi →
    (p.iterations = 0 ∨ ∃ y, dt - maxIter ≤ y ∧ y - 1 ≤ p.chi ∧ p.c = calcStumpff (-1 * y ^ 2)) →
    (let e := loop 1 ⟨1, 0, 0⟩ fast dt tol maxIter fuel p
    dt - e.iterations ≤ e.chi ∧ (e.iterations = 0 ∨ ∃ y, dt - maxIter ≤ y ∧ y - 1 ≤ e.chi ∧ e.c = calcStumpff (-1 * y ^ 2))) := by
  intro fuel
  induction fuel with
  | zero => intro p h1 h2; exact ⟨h1, h2⟩
  | succ n ih =>
    intro p h1 h2
    unfold loop
    split
    · rename_i hc
      have hi : (p.iterations : ℝ) ≤ maxIter := by exact_mod_cast hc.2
      have hm : (0 : ℝ) ≤ maxIter := Nat.cast_nonneg _
      have hs := fast_step (dt := dt) (y := p.chi) (by linarith)
      refine ih _ ?_ (Or.inr ⟨p.chi, by linarith, hs, ?_⟩)
      · show dt - ((p.iterations + 1 : ℕ) : ℝ) ≤ p.chi - _
        push_cast
        linarith
      · show calcStumpff (alpha 1 ⟨1, 0, 0⟩ fast * p.chi ^ 2) = _
        rw [fast_consts.1]
    · exact ⟨h1, h2⟩

/-- C192. No limit is enough for hyperbolas: every correction moves the anomaly by at most one, and the start is proportional to the time
step. For this state and every limit, from a time step on the anomaly is off by a quarter of the time step, and the position by more than
a hundred times the time step. -/
theorem C192_hyperbola_false : V3.cross ⟨1, 0, 0⟩ fast ≠ ⟨0, 0, 0⟩ ∧ 0 < energy 1 (⟨1, 0, 0⟩, fast) ∧
    ∀ (maxIter : Nat) (tol t0 t1 : ℝ), tol < 1e15 → 2 * maxIter + 20 ≤ t1 - t0 →
      (∀ x, keplerF 1 ⟨1, 0, 0⟩ fast (t1 - t0) x = 0 → x + (t1 - t0) / 4 ≤ (calcChi 1 ⟨1, 0, 0⟩ fast (t1 - t0) maxIter tol).chi) ∧
      ∀ (p q : ℝ → E3), IsMotion 1 p q → p t0 = V3.toE ⟨1, 0, 0⟩ → q t0 = fast.toE →
        100 * (t1 - t0) ≤ ‖(propagate 1 (⟨1, 0, 0⟩, fast) t0 t1 maxIter tol).1.toE - p t1‖ := by
  obtain ⟨ha, hs, hn⟩ := fast_consts
  have h3 : (0 : ℝ) < Real.sqrt 3 := Real.sqrt_pos.mpr (by norm_num)
  have hcr : V3.cross ⟨1, 0, 0⟩ fast ≠ ⟨0, 0, 0⟩ := by
    intro h
    have := congrArg V3.z h
    simp [V3.cross, fast] at this
  refine ⟨hcr, ?_, ?_⟩
  · have := alpha_energy (r := ⟨1, 0, 0⟩) (v := fast) one_pos
    rw [ha, div_one] at this
    linarith
  intro maxIter tol t0 t1 htol hdt
  set dt := t1 - t0 with hdtd
  have hm : (0 : ℝ) ≤ maxIter := Nat.cast_nonneg _
  obtain ⟨i1, i2, -⟩ := calcChi_inv 1 ⟨1, 0, 0⟩ fast dt tol maxIter
  have hl := fast_loop (dt := dt) (tol := tol) (maxIter := maxIter) (by linarith) (maxIter + 1)
    ⟨Real.sqrt 1 * |alpha 1 ⟨1, 0, 0⟩ fast| * dt, ⟨0, 0, 0, 0, 0, 0⟩, 1e15, 0⟩ (by
      rw [ha, Real.sqrt_one]; simp) (Or.inl rfl)
  change (let e := calcChi 1 ⟨1, 0, 0⟩ fast dt maxIter tol
    dt - e.iterations ≤ e.chi ∧ (e.iterations = 0 ∨ ∃ y, dt - maxIter ≤ y ∧ y - 1 ≤ e.chi ∧ e.c = calcStumpff (-1 * y ^ 2))) at hl
  simp only at hl
  obtain ⟨l1, l2⟩ := hl
  have hxle : ∀ x, keplerF 1 ⟨1, 0, 0⟩ fast dt x = 0 → x ≤ dt / 4 := by
    intro x hx
    rw [(fast_F dt x).1] at hx
    by_contra hlt
    have hlt : dt / 4 < x := not_le.mp hlt
    have h5 : 5 < x := by linarith
    have := sinh_lower (show 0 ≤ x by linarith)
    nlinarith [mul_pos (show 0 < x by linarith) (show 0 < x - 5 by linarith)]
  constructor
  · intro x hx
    have := hxle x hx
    have h1 : ((calcChi 1 ⟨1, 0, 0⟩ fast dt maxIter tol).iterations : ℝ) ≤ maxIter + 1 := by exact_mod_cast i2
    linarith
  · intro p q hmo hp hq
    obtain ⟨x, hx, -⟩ := exists_unique_chi one_pos hcr dt
    have hex := (C35_newton one_pos hcr hmo hp hq t1 hx).1
    rw [← hex]
    obtain ⟨c1, -, -⟩ := state_coeffs one_pos hcr hx
    have hxl := hxle x hx
    rw [(fast_F dt x).1] at hx
    rcases l2 with l2 | ⟨y, y1, y2, y3⟩
    · exfalso
      rcases i1 with i1 | i1
      · have : (calcChi 1 ⟨1, 0, 0⟩ fast dt maxIter tol).ratio = 1e15 := by
          rcases (calcChi_inv 1 ⟨1, 0, 0⟩ fast dt tol maxIter).2.2 with ⟨j, -⟩ | ⟨_, -, j⟩
          · exact j
          · omega
        rw [this, abs_of_nonneg (by norm_num)] at i1
        exact absurd i1 (not_le.mpr htol)
      · omega
    · have hy : 20 ≤ y := by linarith
      have hy' : dt ≤ 2 * y - 20 := by linarith
      obtain ⟨-, -, u2, -⟩ := neg_form (show (-1 : ℝ) < 0 by norm_num) y
      obtain ⟨-, -, w2, -⟩ := neg_form (show (-1 : ℝ) < 0 by norm_num) x
      rw [neg_neg, Real.sqrt_one, one_mul] at u2 w2
      -- the first coordinates
      have hA : (propagate 1 (⟨1, 0, 0⟩, fast) t0 t1 maxIter tol).1.x = 1 - (calcChi 1 ⟨1, 0, 0⟩ fast dt maxIter tol).chi ^ 2 * (calcStumpff (-1 * y ^ 2)).c2 := by
        unfold propagate
        simp only [← hdtd, applyLagrange, lagrange, V3.add, V3.smul, hn, fast, mul_one, mul_zero, add_zero, div_one]
        rw [← fast, y3]
      have hB : (stateAt 1 ⟨1, 0, 0⟩ fast (t1 - t0) x).1.x = 2 - Real.cosh x := by
        rw [c1, ha, hn, w2]
        simp only [V3.add, V3.smul, fast]
        ring
      have hcs : Real.cosh x ≤ Real.sinh x + 1 := by
        by_cases h0 : 0 ≤ x
        · have := Real.cosh_sub_sinh x
          have h2 : Real.exp (-x) ≤ 1 := Real.exp_le_one_iff.mpr (by linarith)
          linarith
        · exfalso
          have : Real.sinh x ≤ x := Real.sinh_le_self_iff.mpr (by linarith)
          linarith
      have hU : (calcStumpff (-1 * y ^ 2)).c2 * y ^ 2 = Real.cosh y - 1 := by
        have : U2 (-1) y = y ^ 2 * (calcStumpff (-1 * y ^ 2)).c2 := rfl
        rw [mul_comm, ← this, u2]
        ring
      have hcosh : y ^ 2 * 91 ≤ Real.cosh y - 1 := by
        rw [cosh_half]
        have h1 := sinh_lower (show 0 ≤ y / 2 by linarith)
        have h2 : (y / 2 * (27 / 2)) ≤ y / 2 * (1 + (y / 2) ^ 2 / 8) := mul_le_mul_of_nonneg_left (by nlinarith) (by linarith)
        have h4 : (y / 2 * (27 / 2)) ^ 2 ≤ Real.sinh (y / 2) ^ 2 := pow_le_pow_left₀ (by linarith) (h2.trans h1) 2
        nlinarith [sq_nonneg y]
      have hc2 : 91 ≤ (calcStumpff (-1 * y ^ 2)).c2 := by
        have : y ^ 2 * 91 ≤ y ^ 2 * (calcStumpff (-1 * y ^ 2)).c2 := by linarith
        exact le_of_mul_le_mul_left this (by positivity)
      have hchi : (y - 1) ^ 2 ≤ (calcChi 1 ⟨1, 0, 0⟩ fast dt maxIter tol).chi ^ 2 := pow_le_pow_left₀ (by linarith) y2 2
      have hprod : (y - 1) ^ 2 * 91 ≤ (calcChi 1 ⟨1, 0, 0⟩ fast dt maxIter tol).chi ^ 2 * (calcStumpff (-1 * y ^ 2)).c2 :=
        mul_le_mul hchi hc2 (by norm_num) (by positivity)
      have hfin : 100 * dt ≤ |(propagate 1 (⟨1, 0, 0⟩, fast) t0 t1 maxIter tol).1.x - (stateAt 1 ⟨1, 0, 0⟩ fast (t1 - t0) x).1.x| := by
        rw [hA, hB, abs_sub_comm]
        refine le_trans ?_ (le_abs_self _)
        nlinarith
      refine hfin.trans ?_
      have h0 := PiLp.norm_apply_le ((propagate 1 (⟨1, 0, 0⟩, fast) t0 t1 maxIter tol).1.toE - (stateAt 1 ⟨1, 0, 0⟩ fast (t1 - t0) x).1.toE) 0
      simpa [V3.toE] using h0

end Verif.Univ.Props
