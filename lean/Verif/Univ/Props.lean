import Verif.Univ.Motion

/-! # Properties of two-body propagation (C34, C35, C96) -/

namespace Verif.Univ.Props

open Verif Verif.Univ

/-! ## C34: Stumpff functions -/

/-- C34. The six numbers are the sums of the Stumpff series `Σ (-ψ)^n / (2n + k)!`, for every `ψ`: positive, negative or zero. -/
theorem C34_series (psi : ℝ) :
    HasSum (fun n : ℕ => (-psi) ^ n / ((2 * n).factorial : ℝ)) (calcStumpff psi).c0 ∧
    HasSum (fun n : ℕ => (-psi) ^ n / ((2 * n + 1).factorial : ℝ)) (calcStumpff psi).c1 ∧
    HasSum (fun n : ℕ => (-psi) ^ n / ((2 * n + 2).factorial : ℝ)) (calcStumpff psi).c2 ∧
    HasSum (fun n : ℕ => (-psi) ^ n / ((2 * n + 3).factorial : ℝ)) (calcStumpff psi).c3 ∧
    HasSum (fun n : ℕ => (-psi) ^ n / ((2 * n + 4).factorial : ℝ)) (calcStumpff psi).c4 ∧
    HasSum (fun n : ℕ => (-psi) ^ n / ((2 * n + 5).factorial : ℝ)) (calcStumpff psi).c5 := by
  rcases lt_trichotomy psi 0 with h | h | h
  · obtain ⟨h0, h1⟩ := negative_series h
    obtain ⟨h2, h3, h4, h5⟩ := hasSum_of_base h.ne h0 h1
    unfold calcStumpff
    rw [if_neg (not_lt.mpr h.le), if_pos h]
    exact ⟨h0, h1, h2, h3, h4, h5⟩
  · subst h
    rw [stumpff_zero]
    have h0 := hasSum_zero 0
    have h1 := hasSum_zero 1
    have h2 := hasSum_zero 2
    have h3 := hasSum_zero 3
    have h4 := hasSum_zero 4
    have h5 := hasSum_zero 5
    norm_num [Nat.factorial] at h0 h1 h2 h3 h4 h5
    unfold nullPsi
    exact ⟨h0, h1, h2, h3, h4, h5⟩
  · obtain ⟨h0, h1⟩ := positive_series h
    obtain ⟨h2, h3, h4, h5⟩ := hasSum_of_base h.ne' h0 h1
    unfold calcStumpff
    rw [if_pos h]
    exact ⟨h0, h1, h2, h3, h4, h5⟩

/-- C34. The relations between the six numbers. -/
theorem C34_relations (psi : ℝ) :
    (calcStumpff psi).c0 + psi * (calcStumpff psi).c2 = 1 ∧ (calcStumpff psi).c1 + psi * (calcStumpff psi).c3 = 1 ∧
    (calcStumpff psi).c2 + psi * (calcStumpff psi).c4 = 1 / 2 ∧ (calcStumpff psi).c3 + psi * (calcStumpff psi).c5 = 1 / 6 ∧
    (calcStumpff psi).c0 ^ 2 + psi * (calcStumpff psi).c1 ^ 2 = 1 := by
  unfold calcStumpff
  rcases lt_trichotomy psi 0 with h | h | h
  · have hq := Real.sq_sqrt (show 0 ≤ -psi by linarith)
    have hc := Real.cosh_sq (Real.sqrt (-psi))
    have hp : psi ≠ 0 := h.ne
    have hs : Real.sqrt (-psi) ≠ 0 := (Real.sqrt_pos.mpr (by linarith)).ne'
    rw [if_neg (not_lt.mpr h.le), if_pos h]
    unfold negativePsi
    simp only
    refine ⟨by field_simp; ring, by field_simp; ring, by field_simp; ring, by field_simp; ring, ?_⟩
    rw [div_pow, hq, hc]
    field_simp
    ring
  · subst h
    rw [if_neg (lt_irrefl _), if_neg (lt_irrefl _)]
    unfold nullPsi
    norm_num
  · have hq := Real.sq_sqrt h.le
    have hc := Real.sin_sq_add_cos_sq (Real.sqrt psi)
    have hs : Real.sqrt psi ≠ 0 := (Real.sqrt_pos.mpr h).ne'
    rw [if_pos h]
    unfold positivePsi
    simp only
    refine ⟨by field_simp; ring, by field_simp; ring, by field_simp; ring, by field_simp; ring, ?_⟩
    rw [div_pow, hq]
    field_simp
    linear_combination hc

/-! ## C35: conservation, Newton's equation -/

/-- Specific orbital energy. -/
noncomputable def energy (mu : ℝ) (s : V3 × V3) : ℝ := V3.dot s.2 s.2 / 2 - mu / V3.norm s.1

/-- The eccentricity vector, which points to the pericentre, times the gravitational parameter. -/
noncomputable def laplace (mu : ℝ) (s : V3 × V3) : V3 :=
  V3.sub (V3.smul (V3.dot s.2 s.2 - mu / V3.norm s.1) s.1) (V3.smul (V3.dot s.1 s.2) s.2)

theorem algebra {rho s a m p0 p1 p2 R : ℝ} (hr : rho ≠ 0) (hm : m ≠ 0) (h0 : p0 = 1 - a * p2)
    (h2 : p1 ^ 2 = 2 * p2 - a * p2 ^ 2) (hR : R ≠ 0) (hRd : R = rho * p0 + s * p1 + p2) :
    (1 - p2 / rho) * (m / R * ((s * p1 + rho * p0) / m)) - m / R * -(p1 / rho) * ((s * p2 + rho * p1) / m) = 1 ∧
    (m / R * -(p1 / rho)) ^ 2 * rho ^ 2 + 2 * (m / R * -(p1 / rho)) * (m / R * ((s * p1 + rho * p0) / m)) * (s * m) +
      (m / R * ((s * p1 + rho * p0) / m)) ^ 2 * (m ^ 2 * (2 - rho * a) / rho) = m ^ 2 * (2 / R - a) ∧
    (1 - p2 / rho) * (m / R * -(p1 / rho)) * rho ^ 2 + ((1 - p2 / rho) * (m / R * ((s * p1 + rho * p0) / m)) +
      ((s * p2 + rho * p1) / m) * (m / R * -(p1 / rho))) * (s * m) +
      ((s * p2 + rho * p1) / m) * (m / R * ((s * p1 + rho * p0) / m)) * (m ^ 2 * (2 - rho * a) / rho) =
      m * (-rho * a * p1 + s * p0 + p1) ∧
    (m ^ 2 * (2 / R - a) - m ^ 2 / R) * (1 - p2 / rho) - m * (-rho * a * p1 + s * p0 + p1) * (m / R * -(p1 / rho)) =
      m ^ 2 * (2 - rho * a) / rho - m ^ 2 / rho ∧
    (m ^ 2 * (2 / R - a) - m ^ 2 / R) * ((s * p2 + rho * p1) / m) -
      m * (-rho * a * p1 + s * p0 + p1) * (m / R * ((s * p1 + rho * p0) / m)) = -(s * m) := by
  have k1 : (rho - p2) * (s * p1 + rho * p0) + p1 * (s * p2 + rho * p1) = rho * R := by
    rw [hRd, h0]
    linear_combination rho * h2
  have k2 : rho * p1 ^ 2 - 2 * s * p1 * (s * p1 + rho * p0) + (2 - rho * a) * (s * p1 + rho * p0) ^ 2 = rho * R * (2 - R * a) := by
    rw [hRd, h0]
    linear_combination rho * h2
  have k3 : -(rho - p2) * p1 * rho + ((rho - p2) * (s * p1 + rho * p0) - (s * p2 + rho * p1) * p1) * s +
      (s * p2 + rho * p1) * (s * p1 + rho * p0) * (2 - rho * a) = rho * R * (-rho * a * p1 + s * p0 + p1) := by
    rw [hRd, h0]
    ring
  have k4 : (1 - a * R) * (rho - p2) + (-rho * a * p1 + s * p0 + p1) * p1 = (1 - rho * a) * R := by
    rw [hRd, h0]
    linear_combination (1 - rho * a) * h2
  have k5 : (1 - a * R) * (s * p2 + rho * p1) - (-rho * a * p1 + s * p0 + p1) * (s * p1 + rho * p0) = -s * R := by
    rw [hRd, h0]
    linear_combination -s * h2
  refine ⟨?_, ?_, ?_, ?_, ?_⟩
  · field_simp
    linear_combination k1
  · field_simp
    linear_combination k2
  · field_simp
    linear_combination k3
  · field_simp
    linear_combination k4
  · field_simp
    linear_combination k5

theorem state_algebra {mu : ℝ} {r v : V3} (hmu : 0 < mu) (hr : r ≠ ⟨0, 0, 0⟩) {dt x : ℝ} (hx : keplerF mu r v dt x = 0)
    (hn : (stateAt mu r v dt x).1 ≠ ⟨0, 0, 0⟩) : 0 < RR (V3.norm r) (sigma mu r v) (alpha mu r v) x := by
  refine lt_of_le_of_ne (RR_nonneg hmu hr x) fun h => hn (V3.norm_eq_zero.mp ?_)
  have h3 := (pos_dot hmu hr hx).2.2
  rw [← h, ← V3.norm_sq] at h3
  exact pow_eq_zero_iff two_ne_zero |>.mp (by rw [h3]; ring)

/-- C35. When `chi` solves the universal Kepler equation for `dt` and the new position is not the attracting body itself, the
Lagrange coefficients satisfy `f * g_dot - f_dot * g = 1`, and the new state has the angular momentum vector, the energy and the
eccentricity vector of the old one. -/
theorem C35_conserved {mu : ℝ} {r v : V3} (hmu : 0 < mu) (hr : r ≠ ⟨0, 0, 0⟩) {dt x : ℝ} (hx : keplerF mu r v dt x = 0)
    (hn : (stateAt mu r v dt x).1 ≠ ⟨0, 0, 0⟩) :
    (let l := lagrange mu r v dt x (calcStumpff (alpha mu r v * x ^ 2)); l.f * l.gDot - l.fDot * l.g = 1) ∧
    V3.cross (stateAt mu r v dt x).1 (stateAt mu r v dt x).2 = V3.cross r v ∧
    energy mu (stateAt mu r v dt x) = energy mu (r, v) ∧
    laplace mu (stateAt mu r v dt x) = laplace mu (r, v) := by
  have hR := state_algebra hmu hr hx hn
  have h0 := norm_pos' hr
  have hm := Real.sqrt_pos.mpr hmu
  have hq := Real.sq_sqrt hmu.le
  obtain ⟨e1, e2, e3⟩ := state_coeffs' hmu hr hR hx
  obtain ⟨u0, -, u2⟩ := U_rel (alpha mu r v) x
  have hrv := sigma_eq (v := v) hmu hr
  have hvv : V3.dot v v = mu * (2 - V3.norm r * alpha mu r v) / V3.norm r := by
    rw [← vv_eq hmu hr]
    field_simp
  have hrr := V3.norm_sq r
  obtain ⟨k1, k2, k3, k4, k5⟩ := algebra (rho := V3.norm r) (s := sigma mu r v) (m := Real.sqrt mu) h0.ne' hm.ne' u0 u2 hR.ne' rfl
  have c1 : ∀ A B C D : ℝ, V3.dot (V3.add (V3.smul A r) (V3.smul B v)) (V3.add (V3.smul C r) (V3.smul D v)) =
      A * C * V3.norm r ^ 2 + (A * D + B * C) * (sigma mu r v * Real.sqrt mu) +
        B * D * (Real.sqrt mu ^ 2 * (2 - V3.norm r * alpha mu r v) / V3.norm r) := by
    intro A B C D
    rw [hq, ← hvv, ← hrv, hrr]
    unfold V3.dot V3.add V3.smul
    ring
  have c2 : ∀ A B C D : ℝ, V3.cross (V3.add (V3.smul A r) (V3.smul B v)) (V3.add (V3.smul C r) (V3.smul D v)) =
      V3.smul (A * D - C * B) (V3.cross r v) := by
    intro A B C D
    unfold V3.cross V3.add V3.smul
    ext <;> simp only <;> ring
  have hvn : V3.dot (stateAt mu r v dt x).2 (stateAt mu r v dt x).2 =
      mu * (2 / RR (V3.norm r) (sigma mu r v) (alpha mu r v) x - alpha mu r v) := by
    rw [e2, c1]
    rw [hq] at k2 ⊢
    rw [← k2]
    ring
  have hrn : V3.dot (stateAt mu r v dt x).1 (stateAt mu r v dt x).2 = Real.sqrt mu *
      (-V3.norm r * alpha mu r v * U1 (alpha mu r v) x + sigma mu r v * U0 (alpha mu r v) x + U1 (alpha mu r v) x) := by
    rw [e1, e2, c1, ← k3]
  refine ⟨?_, ?_, ?_, ?_⟩
  · simp only
    rw [(pos_dot hmu hr hx).1, (pos_dot hmu hr hx).2.1, (lagrange_fields hmu hr hR hx).1, (lagrange_fields hmu hr hR hx).2.1]
    exact k1
  · rw [e1, e2, c2, k1]
    unfold V3.smul
    simp only [one_mul]
  · unfold energy
    simp only
    rw [hvn, e3, hvv]
    field_simp
    ring
  · unfold laplace
    simp only
    rw [hvn, hrn, hvv, e3, hrv, e1, e2]
    rw [hq] at k4 k5
    have : ∀ X Y A B C D : ℝ, V3.sub (V3.smul X (V3.add (V3.smul A r) (V3.smul B v))) (V3.smul Y (V3.add (V3.smul C r) (V3.smul D v))) =
        V3.add (V3.smul (X * A - Y * C) r) (V3.smul (X * B - Y * D) v) := by
      intro X Y A B C D
      unfold V3.sub V3.add V3.smul
      ext <;> simp only <;> ring
    rw [this, k4, k5]
    unfold V3.sub V3.add V3.smul
    ext <;> simp only <;> ring

/-- C35. For a state that does not move along a line through the attracting body, the universal Kepler equation has exactly one
solution for every time step. -/
theorem C35_anomaly {mu : ℝ} {r v : V3} (hmu : 0 < mu) (h : V3.cross r v ≠ ⟨0, 0, 0⟩) (dt : ℝ) : ∃! x, keplerF mu r v dt x = 0 :=
  exists_unique_chi hmu h dt

theorem toE_injective {a b : V3} (h : a.toE = b.toE) : a = b := by
  have h0 := congrFun (congrArg WithLp.ofLp h) 0
  have h1 := congrFun (congrArg WithLp.ofLp h) 1
  have h2 := congrFun (congrArg WithLp.ofLp h) 2
  simp [V3.toE] at h0 h1 h2
  ext <;> assumption

theorem stateAt_zero {mu : ℝ} {r v : V3} (hr : r ≠ ⟨0, 0, 0⟩) : stateAt mu r v 0 0 = (r, v) := by
  have h0 := norm_pos' hr
  unfold stateAt applyLagrange lagrange V3.add V3.smul
  simp

theorem keplerF_zero (mu : ℝ) (r v : V3) : keplerF mu r v 0 0 = 0 := by
  unfold keplerF
  simp

/-- An anomaly for every time. -/
noncomputable def anomaly {mu : ℝ} {r v : V3} (hmu : 0 < mu) (h : V3.cross r v ≠ ⟨0, 0, 0⟩) (t : ℝ) : ℝ :=
  (exists_unique_chi hmu h t).choose

theorem anomaly_spec {mu : ℝ} {r v : V3} (hmu : 0 < mu) (h : V3.cross r v ≠ ⟨0, 0, 0⟩) (t : ℝ) :
    keplerF mu r v t (anomaly hmu h t) = 0 := (exists_unique_chi hmu h t).choose_spec.1

theorem anomaly_unique {mu : ℝ} {r v : V3} (hmu : 0 < mu) (h : V3.cross r v ≠ ⟨0, 0, 0⟩) {t x : ℝ} (hx : keplerF mu r v t x = 0) :
    x = anomaly hmu h t := (exists_unique_chi hmu h t).unique hx (anomaly_spec hmu h t)

theorem shift_motion {mu : ℝ} {p q : ℝ → E3} (hm : IsMotion mu p q) (c : ℝ) : IsMotion mu (fun t => p (t + c)) (fun t => q (t + c)) :=
  fun t => ⟨(hm (t + c)).1.comp_add_const t c, (hm (t + c)).2.comp_add_const t c⟩

theorem motion_ne {mu : ℝ} {r v : V3} (hmu : 0 < mu) (h : V3.cross r v ≠ ⟨0, 0, 0⟩) {t x : ℝ} (hx : keplerF mu r v t x = 0) :
    (stateAt mu r v t x).1 ≠ ⟨0, 0, 0⟩ := by
  intro h0
  have h1 := (state_coeffs hmu h hx).2.2
  rw [h0] at h1
  have h2 := RR_pos (norm_pos' (ne_zero_of_cross h)) (disc_pos hmu h) x
  rw [← h1, V3.norm_eq_zero.mpr rfl] at h2
  exact lt_irrefl _ h2

theorem toE_ne {a : V3} (h : a ≠ ⟨0, 0, 0⟩) : a.toE ≠ 0 := by
  rw [← norm_ne_zero_iff, V3.norm_toE]
  exact (norm_pos' h).ne'

/-- C35. Newton's equation of motion has a solution for all time through every such state. -/
theorem C35_motion_exists {mu : ℝ} {r v : V3} (hmu : 0 < mu) (h : V3.cross r v ≠ ⟨0, 0, 0⟩) (t0 : ℝ) :
    ∃ p q, IsMotion mu p q ∧ p t0 = r.toE ∧ q t0 = v.toE := by
  have hm := shift_motion (isMotion hmu h (anomaly_spec hmu h)) (-t0)
  refine ⟨_, _, hm, ?_, ?_⟩ <;>
  · simp only [add_neg_cancel]
    rw [← anomaly_unique hmu h (keplerF_zero mu r v), stateAt_zero (ne_zero_of_cross h)]

/-- C35. With the anomaly that solves the universal Kepler equation, the step gives the position and velocity at `t1` of the
motion, under Newton's equation, that is in the given state at `t0`. -/
theorem C35_newton {mu : ℝ} {r v : V3} (hmu : 0 < mu) (h : V3.cross r v ≠ ⟨0, 0, 0⟩) {p q : ℝ → E3} (hm : IsMotion mu p q)
    {t0 : ℝ} (hp : p t0 = r.toE) (hq : q t0 = v.toE) (t1 : ℝ) {x : ℝ} (hx : keplerF mu r v (t1 - t0) x = 0) :
    (stateAt mu r v (t1 - t0) x).1.toE = p t1 ∧ (stateAt mu r v (t1 - t0) x).2.toE = q t1 := by
  have hm' := shift_motion (isMotion hmu h (anomaly_spec hmu h)) (-t0)
  have hz : stateAt mu r v (t0 + -t0) (anomaly hmu h (t0 + -t0)) = (r, v) := by
    rw [add_neg_cancel, ← anomaly_unique hmu h (keplerF_zero mu r v), stateAt_zero (ne_zero_of_cross h)]
  obtain ⟨e1, e2⟩ := motion_unique hm' hm (fun t => toE_ne (motion_ne hmu h (anomaly_spec hmu h _))) (t0 := t0)
    (by simp only [hz, hp]) (by simp only [hz, hq])
  rw [← congrFun e1 t1, ← congrFun e2 t1, anomaly_unique hmu h hx, sub_eq_add_neg]
  exact ⟨rfl, rfl⟩

/-! ### the Newton iteration -/

/-- What the loop guarantees: the Stumpff functions are those of the anomaly before the last correction. -/
theorem loop_inv (mu : ℝ) (r v : V3) (dt tol : ℝ) (maxIter : Nat) :
    ∀ (fuel : Nat) (p : Loop), p.iterations + fuel = maxIter + 1 →
      (p.ratio = 1e15 ∧ p.iterations = 0 ∨ ∃ x0, p = newton mu r v dt ⟨x0, p.c, p.ratio, p.iterations - 1⟩ ∧ 1 ≤ p.iterations) →
      let e := loop mu r v dt tol maxIter fuel p
      (|e.ratio| ≤ tol ∨ e.iterations = maxIter + 1) ∧ e.iterations ≤ maxIter + 1 ∧
      (e.ratio = 1e15 ∧ e.iterations = 0 ∨ ∃ x0, e = newton mu r v dt ⟨x0, e.c, e.ratio, e.iterations - 1⟩ ∧ 1 ≤ e.iterations) := by
  intro fuel
  induction fuel with
  | zero =>
    intro p hp hi
    exact ⟨Or.inr (by simp only [loop]; omega), by simp only [loop]; omega, hi⟩
  | succ n ih =>
    intro p hp hi
    by_cases hc : |p.ratio| > tol ∧ p.iterations ≤ maxIter
    · have := ih (newton mu r v dt p) (by unfold newton; simp only; omega) (Or.inr ⟨p.chi, by unfold newton; simp, by
        unfold newton; simp⟩)
      simp only [loop, if_pos hc]
      exact this
    · simp only [loop, if_neg hc]
      refine ⟨Or.inl ?_, by omega, hi⟩
      by_contra h
      exact hc ⟨not_le.mp h, by omega⟩

theorem calcChi_inv (mu : ℝ) (r v : V3) (dt tol : ℝ) (maxIter : Nat) :
    let e := calcChi mu r v dt maxIter tol
    (|e.ratio| ≤ tol ∨ e.iterations = maxIter + 1) ∧ e.iterations ≤ maxIter + 1 ∧
    (e.ratio = 1e15 ∧ e.iterations = 0 ∨ ∃ x0, e = newton mu r v dt ⟨x0, e.c, e.ratio, e.iterations - 1⟩ ∧ 1 ≤ e.iterations) :=
  loop_inv mu r v dt tol maxIter (maxIter + 1) _ (by simp) (Or.inl ⟨rfl, rfl⟩)

/-- C35. The iteration stops after at most `max_iter + 1` corrections, and earlier only when the last correction is within the
tolerance. -/
theorem C35_iterations (mu : ℝ) (r v : V3) (dt tol : ℝ) (maxIter : Nat) :
    (calcChi mu r v dt maxIter tol).iterations ≤ maxIter + 1 ∧
    (|(calcChi mu r v dt maxIter tol).ratio| ≤ tol ∨ (calcChi mu r v dt maxIter tol).iterations = maxIter + 1) :=
  ⟨(calcChi_inv mu r v dt tol maxIter).2.1, (calcChi_inv mu r v dt tol maxIter).1⟩

/-- C35. There is a positive `c`, which depends on the state only, such that whatever the time step, tolerance and iteration
limit: the returned anomaly plus its last correction is the anomaly whose Stumpff functions are returned; its distance to the
solution is at most the last correction times the derivative there over `c`. -/
theorem C35_accuracy {mu : ℝ} {r v : V3} (hmu : 0 < mu) (h : V3.cross r v ≠ ⟨0, 0, 0⟩) :
    ∃ c > 0, (∀ x, c ≤ keplerFp mu r v x) ∧ ∀ (dt tol : ℝ) (maxIter : Nat) (x : ℝ), tol < 1e15 → keplerF mu r v dt x = 0 →
      let e := calcChi mu r v dt maxIter tol
      e.c = calcStumpff (alpha mu r v * (e.chi + e.ratio) ^ 2) ∧
      |e.chi + e.ratio - x| ≤ keplerFp mu r v (e.chi + e.ratio) / c * |e.ratio| ∧
      |e.chi - x| ≤ (1 + keplerFp mu r v (e.chi + e.ratio) / c) * |e.ratio| := by
  have h0 := norm_pos' (ne_zero_of_cross h)
  have hD := disc_pos hmu h
  have hc := floorR_pos h0 hD
  refine ⟨_, hc, fun x => by rw [keplerFp_eq]; exact floorR_le h0 hD x, ?_⟩
  intro dt tol maxIter x htol hx
  obtain ⟨i1, i2, i3⟩ := calcChi_inv mu r v dt tol maxIter
  simp only
  generalize calcChi mu r v dt maxIter tol = e at *
  rcases i3 with ⟨j1, j2⟩ | ⟨x0, j, j'⟩
  · exfalso
    rcases i1 with k | k
    · rw [j1, abs_of_nonneg (by norm_num)] at k
      exact absurd k (not_le.mpr htol)
    · omega
  · have e1 : e.c = calcStumpff (alpha mu r v * x0 ^ 2) := congrArg Loop.c j
    have e2 : e.chi = x0 - keplerF mu r v dt x0 / keplerFp mu r v x0 := congrArg Loop.chi j
    have e3 : e.ratio = keplerF mu r v dt x0 / keplerFp mu r v x0 := congrArg Loop.ratio j
    have e4 : e.chi + e.ratio = x0 := by rw [e2, e3]; ring
    rw [e4]
    have hR : 0 < keplerFp mu r v x0 := by rw [keplerFp_eq]; exact RR_pos h0 hD x0
    have hb : |x0 - x| ≤ keplerFp mu r v x0 / floorR (V3.norm r) (sigma mu r v) (alpha mu r v) * |e.ratio| := by
      have hg := FF_gap_abs h0 hD x x0
      have hF : FF (V3.norm r) (sigma mu r v) (alpha mu r v) x0 - FF (V3.norm r) (sigma mu r v) (alpha mu r v) x =
          keplerF mu r v dt x0 := by
        rw [keplerF_eq] at hx ⊢
        linarith
      rw [hF] at hg
      have hr : keplerFp mu r v x0 * |e.ratio| = |keplerF mu r v dt x0| := by
        rw [e3, abs_div, abs_of_pos hR]
        field_simp
      rw [div_mul_eq_mul_div, hr, le_div_iff₀ hc, mul_comm]
      exact hg
    refine ⟨e1, hb, ?_⟩
    have : e.chi - x = (x0 - x) + -e.ratio := by rw [← e4]; ring
    rw [this]
    refine le_trans (abs_add_le _ _) ?_
    rw [abs_neg]
    linarith

/-- C35. When the last correction is zero, the propagated state is the state at `t1` of the motion under Newton's equation that is
in the given state at `t0`. -/
theorem C35_propagate {mu : ℝ} {s : V3 × V3} (hmu : 0 < mu) (h : V3.cross s.1 s.2 ≠ ⟨0, 0, 0⟩) {p q : ℝ → E3}
    (hm : IsMotion mu p q) {t0 t1 : ℝ} (hp : p t0 = s.1.toE) (hq : q t0 = s.2.toE) {maxIter : Nat} {tol : ℝ}
    (hz : (calcChi mu s.1 s.2 (t1 - t0) maxIter tol).ratio = 0) :
    (propagate mu s t0 t1 maxIter tol).1.toE = p t1 ∧ (propagate mu s t0 t1 maxIter tol).2.toE = q t1 := by
  have h0 := norm_pos' (ne_zero_of_cross h)
  have hD := disc_pos hmu h
  obtain ⟨-, -, i3⟩ := calcChi_inv mu s.1 s.2 (t1 - t0) tol maxIter
  unfold propagate
  simp only
  generalize calcChi mu s.1 s.2 (t1 - t0) maxIter tol = e at *
  rcases i3 with ⟨j1, -⟩ | ⟨x0, j, j'⟩
  · rw [hz] at j1
    norm_num at j1
  · have e1 : e.c = calcStumpff (alpha mu s.1 s.2 * x0 ^ 2) := congrArg Loop.c j
    have e2 : e.chi = x0 - keplerF mu s.1 s.2 (t1 - t0) x0 / keplerFp mu s.1 s.2 x0 := congrArg Loop.chi j
    have e3 : e.ratio = keplerF mu s.1 s.2 (t1 - t0) x0 / keplerFp mu s.1 s.2 x0 := congrArg Loop.ratio j
    have hR : 0 < keplerFp mu s.1 s.2 x0 := by rw [keplerFp_eq]; exact RR_pos h0 hD x0
    have hx : keplerF mu s.1 s.2 (t1 - t0) x0 = 0 := by
      rw [hz] at e3
      exact (div_eq_zero_iff.mp e3.symm).resolve_right hR.ne'
    rw [hx, zero_div, sub_zero] at e2
    rw [e1, e2]
    exact C35_newton hmu h hm hp hq t1 hx

/-- C35. Propagating to the initial epoch returns the state unchanged, whatever the tolerance and iteration limit. -/
theorem C35_zero {mu : ℝ} {s : V3 × V3} (hr : s.1 ≠ ⟨0, 0, 0⟩) (t : ℝ) (maxIter : Nat) (tol : ℝ) :
    propagate mu s t t maxIter tol = s := by
  have h0 := norm_pos' hr
  have hl : ∀ (fuel : Nat) (p : Loop), p.chi = 0 → (loop mu s.1 s.2 0 tol maxIter fuel p).chi = 0 := by
    intro fuel
    induction fuel with
    | zero => intro p hp; exact hp
    | succ n ih =>
      intro p hp
      simp only [loop]
      split
      · refine ih _ ?_
        unfold newton
        simp only [hp, keplerF_zero, zero_div, sub_zero]
      · exact hp
  unfold propagate
  simp only [sub_self]
  have hc : (calcChi mu s.1 s.2 0 maxIter tol).chi = 0 := hl _ _ (by simp)
  rw [hc]
  unfold applyLagrange lagrange V3.add V3.smul
  simp

theorem circular_alpha : alpha 1 ⟨1, 0, 0⟩ ⟨0, 1, 0⟩ = 1 ∧ sigma 1 ⟨1, 0, 0⟩ ⟨0, 1, 0⟩ = 0 ∧ V3.norm ⟨1, 0, 0⟩ = 1 := by
  have h1 : V3.norm ⟨1, 0, 0⟩ = 1 := by simp [V3.norm]
  have h2 : V3.norm ⟨0, 1, 0⟩ = 1 := by simp [V3.norm]
  refine ⟨?_, ?_, h1⟩
  · unfold alpha
    rw [h1, h2]
    norm_num
  · unfold sigma V3.dot
    norm_num

/-- The hypotheses are met: on a circular orbit the first guess is the solution, so the last correction is zero for every time
step, and the propagated state goes round the circle. -/
example (t : ℝ) (maxIter : Nat) : (calcChi 1 ⟨1, 0, 0⟩ ⟨0, 1, 0⟩ t maxIter 1e-14).ratio = 0 ∧
    propagate 1 (⟨1, 0, 0⟩, ⟨0, 1, 0⟩) 0 t maxIter 1e-14 = (⟨Real.cos t, Real.sin t, 0⟩, ⟨-Real.sin t, Real.cos t, 0⟩) := by
  obtain ⟨ha, hs, hn⟩ := circular_alpha
  have hF : ∀ x, keplerF 1 ⟨1, 0, 0⟩ ⟨0, 1, 0⟩ t x = x - t := by
    intro x
    have := (U_rel 1 x).2.1
    rw [keplerF_eq, ha, hs, hn]
    unfold FF
    rw [Real.sqrt_one]
    linarith
  have hR : ∀ x, keplerFp 1 ⟨1, 0, 0⟩ ⟨0, 1, 0⟩ x = 1 := by
    intro x
    have := (U_rel 1 x).1
    rw [keplerFp_eq, ha, hs, hn]
    unfold RR
    linarith
  have hc : ∀ n, loop 1 ⟨1, 0, 0⟩ ⟨0, 1, 0⟩ t 1e-14 maxIter n ⟨t, calcStumpff (1 * t ^ 2), 0, 1⟩ =
      ⟨t, calcStumpff (1 * t ^ 2), 0, 1⟩ := by
    intro n
    cases n with
    | zero => rfl
    | succ n =>
      simp only [loop]
      rw [if_neg]
      rintro ⟨h, -⟩
      rw [abs_zero] at h
      norm_num at h
  have hcc : calcChi 1 ⟨1, 0, 0⟩ ⟨0, 1, 0⟩ t maxIter 1e-14 = ⟨t, calcStumpff (1 * t ^ 2), 0, 1⟩ := by
    unfold calcChi
    simp only [loop]
    rw [if_pos (by norm_num)]
    have : newton 1 ⟨1, 0, 0⟩ ⟨0, 1, 0⟩ t ⟨Real.sqrt 1 * |alpha 1 ⟨1, 0, 0⟩ ⟨0, 1, 0⟩| * t, ⟨0, 0, 0, 0, 0, 0⟩, 1e15, 0⟩ =
        ⟨t, calcStumpff (1 * t ^ 2), 0, 1⟩ := by
      unfold newton
      simp only [hF, hR, ha, Real.sqrt_one, abs_one, one_mul, sub_self, zero_div, sub_zero, zero_add]
    rw [this, hc]
  refine ⟨by rw [hcc], ?_⟩
  unfold propagate
  simp only [sub_zero]
  rw [hcc]
  have hx : keplerF 1 ⟨1, 0, 0⟩ ⟨0, 1, 0⟩ t t = 0 := by rw [hF]; ring
  have hcr : V3.cross ⟨1, 0, 0⟩ ⟨0, 1, 0⟩ ≠ ⟨0, 0, 0⟩ := by
    intro h
    have := congrArg V3.z h
    simp [V3.cross] at this
  obtain ⟨e1, e2, -⟩ := state_coeffs one_pos hcr hx
  unfold stateAt at e1 e2
  rw [ha] at e1 e2
  obtain ⟨f0, f1, f2, f3⟩ := pos_form one_pos t
  have hRR : RR 1 0 1 t = 1 := by
    have := hR t
    rwa [keplerFp_eq, ha, hs, hn] at this
  rw [hn, hs, f1, f2] at e1
  rw [hn, hs, f1, f0, hRR] at e2
  refine Prod.ext ?_ ?_
  · rw [e1]
    simp [V3.add, V3.smul]
  · rw [e2]
    simp [V3.add, V3.smul]

/-- C35. The iteration limit is not reported: with `max_iter = 0` the state returned for a parabolic orbit does not have the angular
momentum of the initial state. -/
theorem C35_unconverged_false : ¬ ∀ (s : V3 × V3) (dt : ℝ) (maxIter : Nat), V3.cross s.1 s.2 ≠ ⟨0, 0, 0⟩ →
    V3.cross (propagate 1 s 0 dt maxIter 1e-14).1 (propagate 1 s 0 dt maxIter 1e-14).2 = V3.cross s.1 s.2 := by
  intro hall
  have h1 := hall (⟨2, 0, 0⟩, ⟨0, 1, 0⟩) 6 0 (by
    intro h
    have := congrArg V3.z h
    simp [V3.cross] at this)
  have n1 : V3.norm ⟨2, 0, 0⟩ = 2 := by
    unfold V3.norm
    rw [show (2 : ℝ) * 2 + 0 * 0 + 0 * 0 = 2 ^ 2 by norm_num, Real.sqrt_sq (by norm_num)]
  have n2 : V3.norm ⟨0, 1, 0⟩ = 1 := by simp [V3.norm]
  have ha : alpha 1 ⟨2, 0, 0⟩ ⟨0, 1, 0⟩ = 0 := by
    unfold alpha
    rw [n1, n2]
    norm_num
  have hs : sigma 1 ⟨2, 0, 0⟩ ⟨0, 1, 0⟩ = 0 := by
    unfold sigma V3.dot
    norm_num
  have hcc : calcChi 1 ⟨2, 0, 0⟩ ⟨0, 1, 0⟩ 6 0 1e-14 = ⟨3, nullPsi, -3, 1⟩ := by
    unfold calcChi
    simp only [loop]
    rw [if_pos (by norm_num)]
    unfold newton keplerF keplerFp
    simp only [ha, hs, n1, Real.sqrt_one, abs_zero, mul_zero, zero_mul, stumpff_zero]
    norm_num
  unfold propagate at h1
  simp only [sub_zero] at h1
  rw [hcc] at h1
  have hz := congrArg V3.z h1
  unfold applyLagrange lagrange at hz
  simp only [ha, n1, nullPsi, Real.sqrt_one] at hz
  norm_num [V3.add, V3.smul, V3.cross] at hz
  have hsq := V3.norm_sq ⟨-(5 / 2), 3 / 2, 0⟩
  have hne : (⟨-(5 / 2), 3 / 2, 0⟩ : V3) ≠ ⟨0, 0, 0⟩ := fun h => by
    have := congrArg V3.y h
    norm_num at this
  have hpos := norm_pos' hne
  unfold V3.dot at hsq
  generalize V3.norm ⟨-(5 / 2), 3 / 2, 0⟩ = n at *
  field_simp at hz
  have : n = 7 / 2 := by linarith
  rw [this] at hsq
  norm_num at hsq

/-! ## C96: steps compose -/

/-- C96. A step of `dt1` followed by a step of `dt2` from where it ended is the step of `dt1 + dt2`, with the anomalies that solve
the three equations. -/
theorem C96_compose {mu : ℝ} {r v : V3} (hmu : 0 < mu) (h : V3.cross r v ≠ ⟨0, 0, 0⟩) {dt1 dt2 x1 x2 x : ℝ}
    (h1 : keplerF mu r v dt1 x1 = 0) (h2 : keplerF mu (stateAt mu r v dt1 x1).1 (stateAt mu r v dt1 x1).2 dt2 x2 = 0)
    (hx : keplerF mu r v (dt1 + dt2) x = 0) :
    stateAt mu (stateAt mu r v dt1 x1).1 (stateAt mu r v dt1 x1).2 dt2 x2 = stateAt mu r v (dt1 + dt2) x := by
  have hc : V3.cross (stateAt mu r v dt1 x1).1 (stateAt mu r v dt1 x1).2 ≠ ⟨0, 0, 0⟩ := by
    rw [(C35_conserved hmu (ne_zero_of_cross h) h1 (motion_ne hmu h h1)).2.1]
    exact h
  have hm := isMotion hmu h (anomaly_spec hmu h)
  have e1 := C35_newton (t0 := dt1) hmu hc hm (by rw [anomaly_unique hmu h h1]) (by rw [anomaly_unique hmu h h1]) (dt1 + dt2)
    (x := x2) (by rw [add_sub_cancel_left]; exact h2)
  rw [add_sub_cancel_left] at e1
  rw [← anomaly_unique hmu h hx] at e1
  exact Prod.ext (toE_injective e1.1) (toE_injective e1.2)

/-- C96. A step of `dt` followed by a step of `-dt` returns to the initial state. -/
theorem C96_back {mu : ℝ} {r v : V3} (hmu : 0 < mu) (h : V3.cross r v ≠ ⟨0, 0, 0⟩) {dt x1 x2 : ℝ}
    (h1 : keplerF mu r v dt x1 = 0) (h2 : keplerF mu (stateAt mu r v dt x1).1 (stateAt mu r v dt x1).2 (-dt) x2 = 0) :
    stateAt mu (stateAt mu r v dt x1).1 (stateAt mu r v dt x1).2 (-dt) x2 = (r, v) := by
  rw [C96_compose hmu h h1 h2 (x := 0) (by rw [add_neg_cancel]; exact keplerF_zero mu r v), add_neg_cancel,
    stateAt_zero (ne_zero_of_cross h)]

/-- C96. On an elliptic orbit, one period later the state is the same. -/
theorem C96_period {mu : ℝ} {r v : V3} (hmu : 0 < mu) (h : V3.cross r v ≠ ⟨0, 0, 0⟩) (ha : 0 < alpha mu r v) {x : ℝ}
    (hx : keplerF mu r v (2 * Real.pi / (Real.sqrt mu * (alpha mu r v * Real.sqrt (alpha mu r v)))) x = 0) :
    stateAt mu r v (2 * Real.pi / (Real.sqrt mu * (alpha mu r v * Real.sqrt (alpha mu r v)))) x = (r, v) := by
  have hm := Real.sqrt_pos.mpr hmu
  have hs := Real.sqrt_pos.mpr ha
  obtain ⟨f0, f1, f2, f3⟩ := pos_form ha (2 * Real.pi / Real.sqrt (alpha mu r v))
  have e : Real.sqrt (alpha mu r v) * (2 * Real.pi / Real.sqrt (alpha mu r v)) = 2 * Real.pi := by field_simp
  rw [e] at f0 f1 f2 f3
  rw [Real.cos_two_pi] at f0 f2
  rw [Real.sin_two_pi] at f1 f3
  have hx' : keplerF mu r v (2 * Real.pi / (Real.sqrt mu * (alpha mu r v * Real.sqrt (alpha mu r v))))
      (2 * Real.pi / Real.sqrt (alpha mu r v)) = 0 := by
    rw [keplerF_eq]
    unfold FF
    rw [f1, f2, f3]
    field_simp
    ring
  rw [anomaly_unique hmu h hx, ← anomaly_unique hmu h hx']
  obtain ⟨e1, e2, -⟩ := state_coeffs hmu h hx'
  have hR : RR (V3.norm r) (sigma mu r v) (alpha mu r v) (2 * Real.pi / Real.sqrt (alpha mu r v)) = V3.norm r := by
    unfold RR
    rw [f0, f1, f2]
    ring
  have h0 := norm_pos' (ne_zero_of_cross h)
  refine Prod.ext ?_ ?_
  · rw [e1, f1, f2]
    simp [V3.add, V3.smul]
  · rw [e2, hR, f0, f1]
    have : Real.sqrt mu / V3.norm r * ((sigma mu r v * (0 / Real.sqrt (alpha mu r v)) + V3.norm r * 1) / Real.sqrt mu) = 1 := by
      field_simp
      ring
    rw [this]
    simp [V3.add, V3.smul]

/-- C96. In terms of the propagator: with iterations that end with a zero correction, propagating from `t0` to `t1` and from there
to `t2` is propagating from `t0` to `t2`. -/
theorem C96_propagate {mu : ℝ} {s : V3 × V3} (hmu : 0 < mu) (h : V3.cross s.1 s.2 ≠ ⟨0, 0, 0⟩) {t0 t1 t2 : ℝ} {maxIter : Nat} {tol : ℝ}
    (h1 : (calcChi mu s.1 s.2 (t1 - t0) maxIter tol).ratio = 0)
    (h2 : (calcChi mu (propagate mu s t0 t1 maxIter tol).1 (propagate mu s t0 t1 maxIter tol).2 (t2 - t1) maxIter tol).ratio = 0)
    (h3 : (calcChi mu s.1 s.2 (t2 - t0) maxIter tol).ratio = 0) :
    propagate mu (propagate mu s t0 t1 maxIter tol) t1 t2 maxIter tol = propagate mu s t0 t2 maxIter tol := by
  obtain ⟨p, q, hm, hp, hq⟩ := C35_motion_exists hmu h t0
  have a1 := C35_propagate hmu h hm hp hq h1
  have a3 := C35_propagate hmu h hm hp hq h3
  have hc : V3.cross (propagate mu s t0 t1 maxIter tol).1 (propagate mu s t0 t1 maxIter tol).2 ≠ ⟨0, 0, 0⟩ := by
    obtain ⟨x, hx, -⟩ := C35_anomaly hmu h (t1 - t0)
    have b := C35_newton hmu h hm hp hq t1 hx
    rw [← a1.1, ← a1.2] at b
    rw [← toE_injective b.1, ← toE_injective b.2, (C35_conserved hmu (ne_zero_of_cross h) hx (motion_ne hmu h hx)).2.1]
    exact h
  have a2 := C35_propagate hmu hc hm a1.1.symm a1.2.symm h2
  exact Prod.ext (toE_injective (a2.1.trans a3.1.symm)) (toE_injective (a2.2.trans a3.2.symm))

end Verif.Univ.Props
