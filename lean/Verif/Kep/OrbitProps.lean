import Verif.Kep.Orbit

/-! # Properties of the conversion of elements to states (C98) -/

namespace Verif.Kep.Props

open Verif Verif.Kep Verif.Univ Real

theorem inner_frame (i Ω ω : ℝ) :
    inner ℝ (periDir i Ω ω).toE (periDir i Ω ω).toE = (1 : ℝ) ∧ inner ℝ (alongDir i Ω ω).toE (alongDir i Ω ω).toE = (1 : ℝ) ∧
    inner ℝ (periDir i Ω ω).toE (alongDir i Ω ω).toE = (0 : ℝ) := by
  rw [V3.inner_toE, V3.inner_toE, V3.inner_toE]
  exact ⟨(frame i Ω ω).1, (frame i Ω ω).2.1, (frame i Ω ω).2.2.1⟩

theorem elliptic_motion {mu a e i Ω ω : ℝ} (hmu : 0 < mu) (ha : 0 < a) (he : 0 ≤ e ∧ e < 1) {X : ℝ → ℝ}
    (hX : ∀ t, X t - e * sin (X t) = √(mu / a ^ 3) * t) :
    PeriapsisMotion mu (a * (1 - e)) e i Ω ω (fun t => ellPos a e (periDir i Ω ω).toE (alongDir i Ω ω).toE (X t))
      (fun t => ellVel mu a e (periDir i Ω ω).toE (alongDir i Ω ω).toE (X t)) := by
  obtain ⟨hP, hQ, hPQ⟩ := inner_frame i Ω ω
  have h0 : X 0 = 0 := (ell_strictMono he).injective (show X 0 - e * sin (X 0) = 0 - e * sin 0 by rw [hX]; simp)
  have he1 : 0 < 1 - e := by linarith [he.2]
  have he2 : 0 < 1 + e := by linarith [he.1]
  refine ⟨ell_motion hmu ha he hP hQ hPQ hX, fun t h => ?_, ?_, ?_⟩
  · have := ellPos_norm ha he hP hQ hPQ (X t)
    simp only at h
    rw [h, norm_zero] at this
    have := mul_pos ha (ell_pos he (X t))
    linarith
  · simp only [h0]; unfold ellPos; simp
  · simp only [h0]; unfold ellVel
    simp only [sin_zero, cos_zero, neg_zero, zero_div, mul_zero, zero_smul, zero_add, mul_one]
    congr 1
    rw [show mu * (1 + e) / (a * (1 - e)) = (a ^ 2 * (mu / a ^ 3)) * ((1 - e ^ 2) / (1 - e) ^ 2) by field_simp; ring,
      Real.sqrt_mul (by positivity), Real.sqrt_mul (by positivity), Real.sqrt_sq ha.le, Real.sqrt_div (x := 1 - e ^ 2) (by nlinarith),
      Real.sqrt_sq he1.le]
    ring

theorem hyperbolic_motion {mu A e i Ω ω : ℝ} (hmu : 0 < mu) (ha : 0 < A) (he : 1 < e) {X : ℝ → ℝ}
    (hX : ∀ t, e * sinh (X t) - X t = √(mu / A ^ 3) * t) :
    PeriapsisMotion mu (A * (e - 1)) e i Ω ω (fun t => hypPos A e (periDir i Ω ω).toE (alongDir i Ω ω).toE (X t))
      (fun t => hypVel mu A e (periDir i Ω ω).toE (alongDir i Ω ω).toE (X t)) := by
  obtain ⟨hP, hQ, hPQ⟩ := inner_frame i Ω ω
  have h0 : X 0 = 0 := (hyp_strictMono he).injective (show e * sinh (X 0) - X 0 = e * sinh 0 - 0 by rw [hX]; simp)
  have he1 : 0 < e - 1 := by linarith
  have he2 : 0 < 1 + e := by linarith
  refine ⟨hyp_motion hmu ha he hP hQ hPQ hX, fun t h => ?_, ?_, ?_⟩
  · have := hypPos_norm ha he hP hQ hPQ (X t)
    simp only at h
    rw [h, norm_zero] at this
    have := mul_pos ha (hyp_pos he (X t))
    linarith
  · simp only [h0]; unfold hypPos; simp
  · simp only [h0]; unfold hypVel
    simp only [sinh_zero, cosh_zero, neg_zero, zero_div, mul_zero, zero_smul, zero_add, mul_one]
    congr 1
    rw [show mu * (1 + e) / (A * (e - 1)) = (A ^ 2 * (mu / A ^ 3)) * ((e ^ 2 - 1) / (e - 1) ^ 2) by field_simp; ring,
      Real.sqrt_mul (by positivity), Real.sqrt_mul (by positivity), Real.sqrt_sq ha.le, Real.sqrt_div (x := e ^ 2 - 1) (by nlinarith),
      Real.sqrt_sq he1.le]
    ring

theorem parabolic_motion {mu q i Ω ω : ℝ} (hmu : 0 < mu) (hq : 0 < q) {X : ℝ → ℝ}
    (hX : ∀ t, X t + X t ^ 3 / 3 = √(mu / (2 * q ^ 3)) * t) :
    PeriapsisMotion mu q 1 i Ω ω (fun t => parPos q (periDir i Ω ω).toE (alongDir i Ω ω).toE (X t))
      (fun t => parVel mu q (periDir i Ω ω).toE (alongDir i Ω ω).toE (X t)) := by
  obtain ⟨hP, hQ, hPQ⟩ := inner_frame i Ω ω
  have h0 : X 0 = 0 := by
    have := hX 0
    have h1 : X 0 * (1 + X 0 ^ 2 / 3) = 0 := by rw [mul_zero] at this; linear_combination this
    rcases mul_eq_zero.mp h1 with h | h
    · exact h
    · nlinarith [sq_nonneg (X 0)]
  refine ⟨par_motion hmu hq hP hQ hPQ hX, fun t h => ?_, ?_, ?_⟩
  · have := parPos_norm hq hP hQ hPQ (X t)
    simp only at h
    rw [h, norm_zero] at this
    have : 0 < q * (1 + X t ^ 2) := by positivity
    linarith
  · simp only [h0]; unfold parPos; simp
  · simp only [h0]; unfold parVel
    simp only [neg_zero, zero_div, mul_zero, zero_smul, zero_add]
    congr 1
    rw [show mu * (1 + 1) / q = (2 * q) ^ 2 * (mu / (2 * q ^ 3)) by field_simp; ring,
      Real.sqrt_mul (by positivity), Real.sqrt_sq (by positivity)]
    ring

/-- Two motions of the same elements are the same motion. -/
theorem motion_same {mu q e i Ω ω : ℝ} {p v p' v' : ℝ → E3} (h : PeriapsisMotion mu q e i Ω ω p v)
    (h' : PeriapsisMotion mu q e i Ω ω p' v') : p = p' ∧ v = v' :=
  motion_unique h.1 h'.1 h.2.1 (h.2.2.1.trans h'.2.2.1.symm) (h.2.2.2.trans h'.2.2.2.symm)

/-- C98. There is one motion for every periapsis distance, eccentricity and orientation. -/
theorem C98_motion (mu q e i Ω ω : ℝ) (hmu : 0 < mu) (hq : 0 < q) (he : 0 ≤ e) :
    (∃ p v, PeriapsisMotion mu q e i Ω ω p v) ∧
    ∀ p v p' v', PeriapsisMotion mu q e i Ω ω p v → PeriapsisMotion mu q e i Ω ω p' v' → p = p' ∧ v = v' := by
  refine ⟨?_, fun p v p' v' h h' => motion_same h h'⟩
  rcases lt_trichotomy e 1 with h | h | h
  · have h1 : 0 < 1 - e := by linarith
    obtain ⟨X, hX⟩ := ell_anomaly ⟨he, h⟩ (√(mu / (q / (1 - e)) ^ 3))
    have := elliptic_motion (i := i) (Ω := Ω) (ω := ω) hmu (div_pos hq h1) ⟨he, h⟩ hX
    rw [div_mul_cancel₀ _ h1.ne'] at this
    exact ⟨_, _, this⟩
  · subst h
    obtain ⟨X, hX⟩ := par_anomaly (√(mu / (2 * q ^ 3)))
    exact ⟨_, _, parabolic_motion hmu hq hX⟩
  · have h1 : 0 < e - 1 := by linarith
    obtain ⟨X, hX⟩ := hyp_anomaly h (√(mu / (q / (e - 1)) ^ 3))
    have := hyperbolic_motion (i := i) (Ω := Ω) (ω := ω) hmu (div_pos hq h1) h hX
    rw [div_mul_cancel₀ _ h1.ne'] at this
    exact ⟨_, _, this⟩

theorem not_parabolic_of_lt {e : ℝ} (h : e ≤ 1 - tolerance) : ¬ parabolic e := fun hp => by linarith [hp.1]

theorem not_parabolic_of_gt {e : ℝ} (h : 1 + tolerance ≤ e) : ¬ parabolic e := fun hp => by linarith [hp.2]

theorem tolerance_pos : 0 < tolerance := by unfold tolerance; norm_num

/-- The state at a true anomaly with mean anomaly `M` is the state at time `M / n`. -/
theorem elliptic_state {mu a e i Ω ω : ℝ} (hmu : 0 < mu) (ha : 0 < a) (he : 0 ≤ e ∧ e < 1) {p v : ℝ → E3}
    (hm : PeriapsisMotion mu (a * (1 - e)) e i Ω ω p v) {ν M : ℝ} (h : EllipticMean e ν M) :
    (stateOfNu mu (a * (1 - e ^ 2)) e i Ω ω ν).1.toE = p (M / √(mu / a ^ 3)) ∧
    (stateOfNu mu (a * (1 - e ^ 2)) e i Ω ω ν).2.toE = v (M / √(mu / a ^ 3)) := by
  have hn : 0 < √(mu / a ^ 3) := Real.sqrt_pos.mpr (by positivity)
  obtain ⟨X, hX⟩ := ell_anomaly he (√(mu / a ^ 3))
  obtain ⟨rfl, rfl⟩ := motion_same hm (elliptic_motion hmu ha he hX)
  obtain ⟨E, hE, hM⟩ := h
  have hXE : X (M / √(mu / a ^ 3)) = E := (ell_strictMono he).injective (show _ - e * sin _ = E - e * sin E by
    rw [hX, ← hM]; field_simp)
  simp only [hXE]
  exact ell_state hmu ha he hE

theorem hyperbolic_state {mu A e i Ω ω : ℝ} (hmu : 0 < mu) (ha : 0 < A) (he : 1 < e) {p v : ℝ → E3}
    (hm : PeriapsisMotion mu (A * (e - 1)) e i Ω ω p v) {ν H : ℝ} (h : HyperbolicAt e ν H) :
    (stateOfNu mu (-A * (1 - e ^ 2)) e i Ω ω ν).1.toE = p ((e * sinh H - H) / √(mu / A ^ 3)) ∧
    (stateOfNu mu (-A * (1 - e ^ 2)) e i Ω ω ν).2.toE = v ((e * sinh H - H) / √(mu / A ^ 3)) ∧
    ‖p ((e * sinh H - H) / √(mu / A ^ 3))‖ = A * (e * cosh H - 1) := by
  have hn : 0 < √(mu / A ^ 3) := Real.sqrt_pos.mpr (by positivity)
  obtain ⟨X, hX⟩ := hyp_anomaly he (√(mu / A ^ 3))
  obtain ⟨rfl, rfl⟩ := motion_same hm (hyperbolic_motion hmu ha he hX)
  have hXE : X ((e * sinh H - H) / √(mu / A ^ 3)) = H := (hyp_strictMono he).injective (show e * sinh _ - _ = e * sinh H - H by
    rw [hX]; field_simp)
  obtain ⟨hP, hQ, hPQ⟩ := inner_frame i Ω ω
  simp only [hXE]
  exact ⟨(hyp_state hmu ha he h).1, (hyp_state hmu ha he h).2, hypPos_norm ha he hP hQ hPQ H⟩

/-- C98. Elements of an ellipse. When the solver stops before it exhausts its iterations, the state is the state of the motion of
the elements at a time after periapsis that differs from `M / n` by at most `e tol² / n`, with `n = √(μ/a³)`. -/
theorem C98_elliptic (k : Six) (mu : ℝ) (hmu : 0 < mu) (ha : 0 < k.size) (he : 0 ≤ k.e ∧ k.e ≤ 1 - tolerance) {p v : ℝ → E3}
    (hm : PeriapsisMotion mu (k.size * (1 - k.e)) k.e (radians k.i) (radians k.raan) (radians k.ap) p v) (maxIter : Nat) (tol : ℝ)
    (ht : tol < 1e15) (hconv : (solveIter k.e (radians k.m) maxIter tol).iterations ≤ maxIter) :
    ∃ s t, keplerianToCartesianA k mu maxIter tol = some s ∧ s.1.toE = p t ∧ s.2.toE = v t ∧
      |t - radians k.m / √(mu / k.size ^ 3)| ≤ k.e * tol ^ 2 / √(mu / k.size ^ 3) := by
  have he' : 0 ≤ k.e ∧ k.e < 1 := ⟨he.1, by linarith [he.2, tolerance_pos]⟩
  have hnp := not_parabolic_of_lt he.2
  have hn : 0 < √(mu / k.size ^ 3) := Real.sqrt_pos.mpr (by positivity)
  obtain ⟨M', h1, h2⟩ := C97_elliptic k.e (radians k.m) he' maxIter tol ht hconv
  obtain ⟨s1, s2⟩ := elliptic_state hmu ha he' hm h1
  refine ⟨_, M' / √(mu / k.size ^ 3), by unfold keplerianToCartesianA; rw [if_neg hnp], ?_, ?_, ?_⟩
  · unfold keplerianToCartesianP trueAnomaly
    simp only [if_neg hnp]
    exact s1
  · unfold keplerianToCartesianP trueAnomaly
    simp only [if_neg hnp]
    exact s2
  · rw [← sub_div, abs_div, abs_of_pos hn]
    exact div_le_div_of_nonneg_right h2 hn.le

/-- The hypotheses of `C98_elliptic` hold at apoapsis of an inclined orbit. -/
example : ∃ p v, PeriapsisMotion 1 (1 * (1 - 1 / 2)) (1 / 2) (radians 10) (radians 20) (radians 30) p v ∧
    (solveIter (1 / 2) (radians 180) 100 1e-15).iterations ≤ 100 := by
  obtain ⟨p, v, h⟩ := (C98_motion 1 (1 * (1 - 1 / 2)) (1 / 2) (radians 10) (radians 20) (radians 30) (by norm_num) (by norm_num)
    (by norm_num)).1
  refine ⟨p, v, h, ?_⟩
  have : radians 180 = π := by unfold radians; ring
  rw [this]
  exact (apoapsis_run (1 / 2) (by norm_num)).1

/-- C98. Elements of a hyperbola, with `n = √(μ/|a|³)`. -/
theorem C98_hyperbolic (k : Six) (mu : ℝ) (hmu : 0 < mu) (ha : k.size < 0) (he : 1 + tolerance ≤ k.e) {p v : ℝ → E3}
    (hm : PeriapsisMotion mu (k.size * (1 - k.e)) k.e (radians k.i) (radians k.raan) (radians k.ap) p v) (maxIter : Nat) (tol : ℝ)
    (ht : tol < 1e15) (hconv : (solveIter k.e (radians k.m) maxIter tol).iterations ≤ maxIter) :
    ∃ s t H, keplerianToCartesianA k mu maxIter tol = some s ∧ s.1.toE = p t ∧ s.2.toE = v t ∧ ‖p t‖ = -k.size * (k.e * cosh H - 1) ∧
      |t - radians k.m / √(mu / |k.size| ^ 3)| ≤ k.e * (tol ^ 2 * sinh (|H| + tol)) / √(mu / |k.size| ^ 3) := by
  have he' : 1 < k.e := by linarith [tolerance_pos]
  have hnp := not_parabolic_of_gt he
  have hA : 0 < -k.size := by linarith
  have habs : |k.size| = -k.size := abs_of_neg ha
  have hn : 0 < √(mu / (-k.size) ^ 3) := Real.sqrt_pos.mpr (by positivity)
  rw [habs]
  obtain ⟨H, h1, h2⟩ := C97_hyperbolic k.e (radians k.m) he' maxIter tol ht hconv
  rw [show k.size * (1 - k.e) = -k.size * (k.e - 1) by ring] at hm
  obtain ⟨s1, s2, s3⟩ := hyperbolic_state hmu hA he' hm h1
  rw [neg_neg] at s1 s2
  refine ⟨_, (k.e * sinh H - H) / √(mu / (-k.size) ^ 3), H, by unfold keplerianToCartesianA; rw [if_neg hnp], ?_, ?_, s3, ?_⟩
  · unfold keplerianToCartesianP trueAnomaly
    simp only [if_neg hnp]
    exact s1
  · unfold keplerianToCartesianP trueAnomaly
    simp only [if_neg hnp]
    exact s2
  · rw [← sub_div, abs_div, abs_of_pos hn]
    exact div_le_div_of_nonneg_right h2 hn.le

/-- A run of the hyperbolic solver that stops: periapsis. -/
theorem periapsis_iter (e : ℝ) (he : 1 < e) : solveIter e 0 100 1e-15 = ⟨0, 0, 1⟩ := by
  have hs : step (hypF e 0) (hypFp e) ⟨0, 1e15, 0⟩ = ⟨0, 0, 1⟩ := by
    unfold step hypF; simp
  unfold solveIter iterate
  rw [if_neg (by linarith), if_pos he]
  show loop _ _ _ _ (99 + 1 + 1) _ = _
  rw [loop, if_pos ⟨by
    show |(1e15 : ℝ)| > 1e-15
    rw [abs_of_pos (by norm_num)]; norm_num, by norm_num⟩, hs, loop, if_neg]
  simp only [abs_zero, not_and]
  intro h; norm_num at h

theorem periapsis_run (e : ℝ) (he : 1 < e) : (solveIter e 0 100 1e-15).iterations ≤ 100 := by
  rw [periapsis_iter e he]; norm_num

example : ∃ p v, PeriapsisMotion 1 (-1 * (1 - 2)) 2 (radians 10) (radians 20) (radians 30) p v ∧
    (solveIter 2 (radians 0) 100 1e-15).iterations ≤ 100 := by
  obtain ⟨p, v, h⟩ := (C98_motion 1 (-1 * (1 - 2)) 2 (radians 10) (radians 20) (radians 30) (by norm_num) (by norm_num)
    (by norm_num)).1
  refine ⟨p, v, h, ?_⟩
  have : radians 0 = 0 := by unfold radians; ring
  rw [this]
  exact periapsis_run 2 (by norm_num)

/-- C98. On an ellipse the motion repeats after `2π/n`. -/
theorem C98_period {mu a e i Ω ω : ℝ} (hmu : 0 < mu) (ha : 0 < a) (he : 0 ≤ e ∧ e < 1) {p v : ℝ → E3}
    (hm : PeriapsisMotion mu (a * (1 - e)) e i Ω ω p v) (t : ℝ) :
    p (t + 2 * π / √(mu / a ^ 3)) = p t ∧ v (t + 2 * π / √(mu / a ^ 3)) = v t := by
  have hn : 0 < √(mu / a ^ 3) := Real.sqrt_pos.mpr (by positivity)
  obtain ⟨X, hX⟩ := ell_anomaly he (√(mu / a ^ 3))
  obtain ⟨rfl, rfl⟩ := motion_same hm (elliptic_motion hmu ha he hX)
  have hXE : X (t + 2 * π / √(mu / a ^ 3)) = X t + 2 * π := (ell_strictMono he).injective (show _ - e * sin _ = X t + 2 * π - e * sin (X t + 2 * π) by
    rw [hX, Real.sin_add_two_pi]
    have := hX t
    have h2 : √(mu / a ^ 3) * (t + 2 * π / √(mu / a ^ 3)) = √(mu / a ^ 3) * t + 2 * π := by field_simp
    linarith)
  simp only [hXE]
  unfold ellPos ellVel
  rw [Real.cos_add_two_pi, Real.sin_add_two_pi]
  exact ⟨rfl, rfl⟩

/-! ### cometary elements -/

/-- The semi-latus rectum and the semi-major axis from the periapsis distance. -/
theorem cometary_eq (k : Six) (t0 mu : ℝ) (maxIter : Nat) (tol : ℝ) (hnp : ¬ parabolic k.e) :
    some (cometaryToCartesian k t0 mu maxIter tol) = keplerianToCartesianA
      { k with size := k.size / (1 - k.e), m := degrees (if k.m - t0 > 0 then 2 * π - (k.m - t0) * √(mu / |k.size / (1 - k.e)| ^ 3)
        else -(k.m - t0) * √(mu / |k.size / (1 - k.e)| ^ 3)) } mu maxIter tol := by
  unfold cometaryToCartesian keplerianToCartesianQ keplerianToCartesianA
  simp only [if_neg hnp]

theorem radians_degrees (x : ℝ) : radians (degrees x) = x := by
  unfold radians degrees
  have := Real.pi_pos
  field_simp

theorem degrees_radians (x : ℝ) : degrees (radians x) = x := by
  unfold radians degrees
  have := Real.pi_pos
  field_simp

/-- C98. Cometary elements of an ellipse: the state is the state of the motion at the time `t0 - tp` after periapsis, within
`e tol² / n`, for times of periapsis before and after the epoch. -/
theorem C98_cometary (k : Six) (t0 mu : ℝ) (hmu : 0 < mu) (hq : 0 < k.size) (he : 0 ≤ k.e ∧ k.e ≤ 1 - tolerance) {p v : ℝ → E3}
    (hm : PeriapsisMotion mu k.size k.e (radians k.i) (radians k.raan) (radians k.ap) p v) (maxIter : Nat) (tol n M : ℝ)
    (hn : n = √(mu / (k.size / (1 - k.e)) ^ 3)) (hM : M = if k.m > t0 then 2 * π - (k.m - t0) * n else (t0 - k.m) * n)
    (ht : tol < 1e15) (hconv : (solveIter k.e M maxIter tol).iterations ≤ maxIter) :
    ∃ t, (cometaryToCartesian k t0 mu maxIter tol).1.toE = p t ∧ (cometaryToCartesian k t0 mu maxIter tol).2.toE = v t ∧
      |t - (t0 - k.m)| ≤ k.e * tol ^ 2 / n := by
  have h1 : 0 < 1 - k.e := by linarith [he.2, tolerance_pos]
  have ha : 0 < k.size / (1 - k.e) := div_pos hq h1
  have hnp := not_parabolic_of_lt he.2
  have hn0 : 0 < n := by rw [hn]; exact Real.sqrt_pos.mpr (by positivity)
  have hmEq : (if k.m - t0 > 0 then 2 * π - (k.m - t0) * √(mu / |k.size / (1 - k.e)| ^ 3)
        else -(k.m - t0) * √(mu / |k.size / (1 - k.e)| ^ 3)) = M := by
    rw [abs_of_pos ha, ← hn, hM]
    by_cases hc : k.m > t0
    · rw [if_pos hc, if_pos (by linarith)]
    · rw [if_neg hc, if_neg (by linarith)]; ring
  have hce := cometary_eq k t0 mu maxIter tol hnp
  rw [hmEq] at hce
  have hm' : PeriapsisMotion mu (k.size / (1 - k.e) * (1 - k.e)) k.e (radians k.i) (radians k.raan) (radians k.ap) p v := by
    rw [div_mul_cancel₀ _ h1.ne']; exact hm
  obtain ⟨s, t, hs, hp, hv, hb⟩ := C98_elliptic { k with size := k.size / (1 - k.e), m := degrees M } mu hmu ha he hm' maxIter tol ht (by
    simp only [radians_degrees]; exact hconv)
  rw [← hce] at hs
  obtain rfl := Option.some_inj.mp hs
  simp only [radians_degrees, ← hn] at hb
  by_cases hc : k.m > t0
  · refine ⟨t - 2 * π / n, ?_, ?_, ?_⟩
    · rw [hp, ← (C98_period hmu ha ⟨he.1, by linarith⟩ hm' (t - 2 * π / n)).1, ← hn, sub_add_cancel]
    · rw [hv, ← (C98_period hmu ha ⟨he.1, by linarith⟩ hm' (t - 2 * π / n)).2, ← hn, sub_add_cancel]
    · rw [hM, if_pos hc] at hb
      convert hb using 2
      field_simp
      ring
  · refine ⟨t, hp, hv, ?_⟩
    rw [hM, if_neg hc, mul_div_cancel_right₀ _ hn0.ne'] at hb
    exact hb

/-- C98. Cometary elements of a hyperbola, epoch at or after periapsis. -/
theorem C98_cometary_hyperbolic (k : Six) (t0 mu : ℝ) (hmu : 0 < mu) (hq : 0 < k.size) (he : 1 + tolerance ≤ k.e) {p v : ℝ → E3}
    (hm : PeriapsisMotion mu k.size k.e (radians k.i) (radians k.raan) (radians k.ap) p v) (maxIter : Nat) (tol n M : ℝ)
    (hn : n = √(mu / (k.size / (k.e - 1)) ^ 3)) (hM : M = if k.m > t0 then 2 * π - (k.m - t0) * n else (t0 - k.m) * n)
    (ht : tol < 1e15) (hconv : (solveIter k.e M maxIter tol).iterations ≤ maxIter) :
    ∃ t H, (cometaryToCartesian k t0 mu maxIter tol).1.toE = p t ∧ (cometaryToCartesian k t0 mu maxIter tol).2.toE = v t ∧
      ‖p t‖ = k.size / (k.e - 1) * (k.e * cosh H - 1) ∧
      |t - (t0 - k.m + if k.m > t0 then 2 * π / n else 0)| ≤ k.e * (tol ^ 2 * sinh (|H| + tol)) / n := by
  have h1 : 0 < k.e - 1 := by linarith [tolerance_pos]
  have h1' : 1 - k.e ≠ 0 := by linarith
  have hA : 0 < k.size / (k.e - 1) := div_pos hq h1
  have haa : k.size / (1 - k.e) = -(k.size / (k.e - 1)) := by rw [← div_neg, neg_sub]
  have hnp := not_parabolic_of_gt he
  have hn0 : 0 < n := by rw [hn]; exact Real.sqrt_pos.mpr (by positivity)
  have hmEq : (if k.m - t0 > 0 then 2 * π - (k.m - t0) * √(mu / |k.size / (1 - k.e)| ^ 3)
        else -(k.m - t0) * √(mu / |k.size / (1 - k.e)| ^ 3)) = M := by
    rw [haa, abs_neg, abs_of_pos hA, ← hn, hM]
    by_cases hc : k.m > t0
    · rw [if_pos hc, if_pos (by linarith)]
    · rw [if_neg hc, if_neg (by linarith)]; ring
  have hce := cometary_eq k t0 mu maxIter tol hnp
  rw [hmEq] at hce
  have hm' : PeriapsisMotion mu (k.size / (1 - k.e) * (1 - k.e)) k.e (radians k.i) (radians k.raan) (radians k.ap) p v := by
    rw [div_mul_cancel₀ _ h1']; exact hm
  obtain ⟨s, t, H, hs, hp, hv, hr, hb⟩ := C98_hyperbolic { k with size := k.size / (1 - k.e), m := degrees M } mu hmu
    (by show k.size / (1 - k.e) < 0; rw [haa]; linarith) he hm' maxIter tol ht (by simp only [radians_degrees]; exact hconv)
  rw [← hce] at hs
  obtain rfl := Option.some_inj.mp hs
  simp only [radians_degrees, haa, abs_neg, abs_of_pos hA, ← hn, neg_neg] at hb hr
  refine ⟨t, H, hp, hv, hr, ?_⟩
  by_cases hc : k.m > t0
  · rw [if_pos hc]
    rw [hM, if_pos hc] at hb
    convert hb using 2
    field_simp
    ring
  · rw [if_neg hc, add_zero]
    rw [hM, if_neg hc, mul_div_cancel_right₀ _ hn0.ne'] at hb
    exact hb

/-- A hyperbolic motion is never twice in the same state. -/
theorem hyperbolic_injective {mu q e i Ω ω : ℝ} (hmu : 0 < mu) (hq : 0 < q) (he : 1 < e) {p v : ℝ → E3}
    (hm : PeriapsisMotion mu q e i Ω ω p v) {t t' : ℝ} (h : p t = p t') : t = t' := by
  have h1 : 0 < e - 1 := by linarith
  have hA : 0 < q / (e - 1) := div_pos hq h1
  have hn : 0 < √(mu / (q / (e - 1)) ^ 3) := Real.sqrt_pos.mpr (by positivity)
  rw [show q = q / (e - 1) * (e - 1) by rw [div_mul_cancel₀ _ h1.ne']] at hm
  obtain ⟨X, hX⟩ := hyp_anomaly he (√(mu / (q / (e - 1)) ^ 3))
  obtain ⟨rfl, rfl⟩ := motion_same hm (hyperbolic_motion hmu hA he hX)
  obtain ⟨hP, hQ, hPQ⟩ := inner_frame i Ω ω
  have hs : ∀ x, inner ℝ (alongDir i Ω ω).toE (hypPos (q / (e - 1)) e (periDir i Ω ω).toE (alongDir i Ω ω).toE x) =
      q / (e - 1) * √(e ^ 2 - 1) * sinh x := fun x => by
    unfold hypPos
    rw [inner_add_right, inner_smul_right, inner_smul_right, real_inner_comm, hPQ, hQ]; ring
  have h2 := hs (X t)
  simp only at h
  rw [h, hs] at h2
  have h3 : sinh (X t') = sinh (X t) := mul_left_cancel₀ (mul_pos hA (sqrt_hyp he).2).ne' h2
  have h4 : X t' = X t := Real.sinh_injective h3
  have h5 := hX t
  have h6 := hX t'
  rw [h4] at h6
  exact mul_left_cancel₀ hn.ne' (h5.symm.trans h6)

/-- C98 is false for hyperbolas that have not reached periapsis. Whatever the hyperbola, when the time of periapsis passage is
`2π / n` after the epoch, the state returned for the epoch is the state at periapsis. -/
theorem C98_cometary_false (k : Six) (t0 mu n : ℝ) (hmu : 0 < mu) (hq : 0 < k.size) (he : 1 + tolerance ≤ k.e)
    (hn : n = √(mu / (k.size / (k.e - 1)) ^ 3)) (htp : k.m = t0 + 2 * π / n) {p v : ℝ → E3}
    (hm : PeriapsisMotion mu k.size k.e (radians k.i) (radians k.raan) (radians k.ap) p v) :
    (cometaryToCartesian k t0 mu 100 1e-15).1.toE = p 0 ∧ (cometaryToCartesian k t0 mu 100 1e-15).1.toE ≠ p (t0 - k.m) := by
  have h1 : 0 < k.e - 1 := by linarith [tolerance_pos]
  have he' : 1 < k.e := by linarith
  have h1' : 1 - k.e ≠ 0 := by linarith
  have hA : 0 < k.size / (k.e - 1) := div_pos hq h1
  have hnp := not_parabolic_of_gt he
  have hn0 : 0 < n := by rw [hn]; exact Real.sqrt_pos.mpr (by positivity)
  have hpi := Real.pi_pos
  have hd : k.m - t0 = 2 * π / n := by rw [htp]; ring
  have habs : |k.size / (1 - k.e)| = k.size / (k.e - 1) := by
    rw [abs_div, abs_of_pos hq, abs_of_neg (by linarith : 1 - k.e < 0)]; congr 1; ring
  have hc : cometaryToCartesian k t0 mu 100 1e-15 = stateOfNu mu (-(k.size / (k.e - 1)) * (1 - k.e ^ 2)) k.e (radians k.i) (radians k.raan)
      (radians k.ap) (solveKepler k.e 0 100 1e-15) := by
    unfold cometaryToCartesian keplerianToCartesianQ keplerianToCartesianP trueAnomaly
    simp only [if_neg hnp, radians_degrees]
    rw [habs, ← hn, hd, if_pos (by positivity), div_mul_cancel₀ _ hn0.ne', sub_self]
    congr 1
    field_simp
    ring
  have hat : HyperbolicAt k.e (solveKepler k.e 0 100 1e-15) 0 := by
    unfold solveKepler
    rw [periapsis_iter k.e he']
    obtain ⟨ha, hlo, -⟩ := rawNu_hyperbolic (e := k.e) (m := 0) (H := 0) he'
    obtain ⟨-, -, h2⟩ := wrapTrue_spec (show -(2 * π) ≤ rawNu k.e 0 0 by linarith)
    obtain ⟨g1, g2⟩ := angle_congr h2
    exact ⟨by rw [g1]; exact ha.1, by rw [g2]; exact ha.2⟩
  have hst : (cometaryToCartesian k t0 mu 100 1e-15).1.toE = p 0 := by
    have hm' := hm
    rw [show k.size = k.size / (k.e - 1) * (k.e - 1) by rw [div_mul_cancel₀ _ h1.ne']] at hm'
    have := (hyperbolic_state hmu hA he' hm' hat).1
    rw [Real.sinh_zero, mul_zero, sub_zero, zero_div] at this
    rw [hc]; exact this
  refine ⟨hst, fun h => ?_⟩
  have := hyperbolic_injective hmu hq he' hm (hst.symm.trans h)
  have h2 : 0 < 2 * π / n := by positivity
  linarith

/-- C98. Parabolas: the state is that of twice the time since periapsis. -/
theorem C98_parabolic (k : Six) (t0 mu : ℝ) (hmu : 0 < mu) (hq : 0 < k.size) (he : k.e = 1) {p v : ℝ → E3}
    (hm : PeriapsisMotion mu k.size k.e (radians k.i) (radians k.raan) (radians k.ap) p v) (maxIter : Nat) (tol : ℝ) (htp : k.m ≤ t0) :
    (cometaryToCartesian k t0 mu maxIter tol).1.toE = p (2 * (t0 - k.m)) ∧
    (cometaryToCartesian k t0 mu maxIter tol).2.toE = v (2 * (t0 - k.m)) := by
  have hpar : parabolic k.e := by
    rw [he]; exact ⟨by linarith [tolerance_pos], by linarith [tolerance_pos]⟩
  have hn0 : 0 < √(mu / (2 * k.size ^ 3)) := Real.sqrt_pos.mpr (by positivity)
  rw [he] at hm
  obtain ⟨X, hX⟩ := par_anomaly (√(mu / (2 * k.size ^ 3)))
  obtain ⟨rfl, rfl⟩ := motion_same hm (parabolic_motion hmu hq hX)
  have hb := (C37_twice ((t0 - k.m) * √(mu / (2 * k.size ^ 3)))).1
  have hst := par_state (i := radians k.i) (Ω := radians k.raan) (ω := radians k.ap) hmu hq hb
  have hXD : X (2 * (t0 - k.m)) = tan (solveBarker ((t0 - k.m) * √(mu / (2 * k.size ^ 3))) / 2) := by
    have hS : StrictMono fun D : ℝ => D + D ^ 3 / 3 := strictMono_of_deriv_pos fun x => by
      rw [(par_deriv x).deriv]; positivity
    refine hS.injective (show X _ + X _ ^ 3 / 3 = tan _ + tan _ ^ 3 / 3 from ?_)
    rw [hX, hb.2]; ring
  have hc : cometaryToCartesian k t0 mu maxIter tol = stateOfNu mu (2 * k.size) 1 (radians k.i) (radians k.raan) (radians k.ap)
      (solveBarker ((t0 - k.m) * √(mu / (2 * k.size ^ 3)))) := by
    unfold cometaryToCartesian keplerianToCartesianQ keplerianToCartesianP trueAnomaly
    simp only [if_pos hpar]
    rw [if_neg (by linarith : ¬ k.m - t0 > 0), radians_degrees, he]
    congr 2
    ring
  simp only [hXD, hc]
  exact hst

/-- C98 is false for parabolas: at no epoch after periapsis is the state right. -/
theorem C98_parabolic_false (k : Six) (t0 mu : ℝ) (hmu : 0 < mu) (hq : 0 < k.size) (he : k.e = 1) {p v : ℝ → E3}
    (hm : PeriapsisMotion mu k.size k.e (radians k.i) (radians k.raan) (radians k.ap) p v) (maxIter : Nat) (tol : ℝ) (htp : k.m < t0) :
    (cometaryToCartesian k t0 mu maxIter tol).1.toE ≠ p (t0 - k.m) := by
  have hn0 : 0 < √(mu / (2 * k.size ^ 3)) := Real.sqrt_pos.mpr (by positivity)
  rw [(C98_parabolic k t0 mu hmu hq he hm maxIter tol htp.le).1]
  rw [he] at hm
  obtain ⟨X, hX⟩ := par_anomaly (√(mu / (2 * k.size ^ 3)))
  obtain ⟨rfl, rfl⟩ := motion_same hm (parabolic_motion hmu hq hX)
  intro h
  obtain ⟨hP, hQ, hPQ⟩ := inner_frame (radians k.i) (radians k.raan) (radians k.ap)
  have hs : ∀ x, inner ℝ (alongDir (radians k.i) (radians k.raan) (radians k.ap)).toE
      (parPos k.size (periDir (radians k.i) (radians k.raan) (radians k.ap)).toE
        (alongDir (radians k.i) (radians k.raan) (radians k.ap)).toE x) = k.size * (2 * x) := fun x => by
    unfold parPos
    rw [inner_add_right, inner_smul_right, inner_smul_right, real_inner_comm, hPQ, hQ]; ring
  have h2 := hs (X (2 * (t0 - k.m)))
  simp only at h
  rw [h, hs] at h2
  have h3 : X (t0 - k.m) = X (2 * (t0 - k.m)) := by
    have := mul_left_cancel₀ hq.ne' h2
    linarith
  have h4 := hX (t0 - k.m)
  have h5 := hX (2 * (t0 - k.m))
  rw [← h3, h4] at h5
  have := mul_left_cancel₀ hn0.ne' h5
  linarith

/-! ### the checks -/

/-- C98. `keplerian_to_cartesian` raises a `ValueError` exactly when a row has a hyperbolic eccentricity with a positive semi-major
axis or an elliptic one with a negative, or when there is no row; otherwise every row is converted by itself. -/
theorem C98_checks (rows : List Six) (mu : ℝ) (maxIter : Nat) (tol : ℝ) :
    ((∃ k ∈ rows, (1 + 1e-15 < k.e ∧ 0 < k.size) ∨ (k.e < 1 - 1e-15 ∧ k.size < 0)) →
      keplerianToCartesian rows mu maxIter tol = Except.error .valueError) ∧
    (rows = [] → keplerianToCartesian rows mu maxIter tol = Except.error .valueError) ∧
    (rows ≠ [] → (∀ k ∈ rows, ¬ ((1 + 1e-15 < k.e ∧ 0 < k.size) ∨ (k.e < 1 - 1e-15 ∧ k.size < 0))) →
      ∃ out, keplerianToCartesian rows mu maxIter tol = Except.ok out ∧ out.length = rows.length ∧
        ∀ (j : Nat) k, rows[j]? = some k → ∃ o, out[j]? = some o ∧ keplerianToCartesian [k] mu maxIter tol = Except.ok [o] ∧
          (o = none ↔ (1 - 1e-15 < k.e ∧ k.e < 1 + 1e-15))) := by
  have hT : tolerance = 1e-15 := rfl
  refine ⟨?_, ?_, ?_⟩
  · rintro ⟨k, hk, h | h⟩
    · unfold keplerianToCartesian
      rw [if_pos ⟨k, hk, by rw [hT]; exact h.1, h.2⟩]
    · unfold keplerianToCartesian
      split
      · rfl
      · rw [if_pos ⟨k, hk, by rw [hT]; exact h.1, h.2⟩]
  · rintro rfl
    unfold keplerianToCartesian
    simp
  · intro hne h
    have hok : ∀ l : List Six, l ≠ [] → (∀ k ∈ l, k ∈ rows) → keplerianToCartesian l mu maxIter tol =
        Except.ok (l.map fun k => keplerianToCartesianA k mu maxIter tol) := fun l hn hl => by
      unfold keplerianToCartesian
      rw [if_neg, if_neg, if_neg hn]
      · rintro ⟨k, hk, h1, h2⟩
        exact h k (hl k hk) (Or.inr ⟨by rw [← hT]; exact h1, h2⟩)
      · rintro ⟨k, hk, h1, h2⟩
        exact h k (hl k hk) (Or.inl ⟨by rw [← hT]; exact h1, h2⟩)
    refine ⟨_, hok rows hne fun _ => id, by simp, fun j k hj => ⟨keplerianToCartesianA k mu maxIter tol, by simp [hj], ?_, ?_⟩⟩
    · rw [hok [k] (by simp) fun k' hk' => by
        rw [List.mem_singleton.mp hk']; exact List.mem_of_getElem? hj]
      rfl
    · unfold keplerianToCartesianA
      have : parabolic k.e ↔ (1 - 1e-15 < k.e ∧ k.e < 1 + 1e-15) := Iff.rfl
      rw [← this]
      split <;> simp_all

example : ∀ k ∈ [(⟨1, 1 / 2, 10, 20, 30, 40⟩ : Six), ⟨-1, 2, 10, 20, 30, 40⟩],
    ¬ (((1 : ℝ) + 1e-15 < k.e ∧ 0 < k.size) ∨ (k.e < 1 - 1e-15 ∧ k.size < 0)) := by
  intro k hk
  rcases List.mem_pair.mp hk with rfl | rfl <;> norm_num

end Verif.Kep.Props
