import Verif.Kep.Elements

/-! # C99, C100: the elements of a state -/

namespace Verif.Kep.Props

open Real Verif.Univ

theorem eVec_laplace {mu : ℝ} {r v : V3} (hmu : 0 < mu) (hr : 0 < V3.norm r) : eVec mu r v = laplaceVec mu r v := by
  rw [eVec_eq, V3.norm_sq]
  unfold laplaceVec
  ext <;> simp only [V3.sub, V3.smul, V3.cross, V3.dot] <;> field_simp <;> ring

theorem inclined_ne {r v : V3} (h : Inclined r v) : V3.cross r v ≠ ⟨0, 0, 0⟩ := fun h0 => by
  have := h.2
  rw [h0] at this; norm_num at this

theorem size_spec {mu : ℝ} {r v : V3} (hmu : 0 < mu) (h : V3.cross r v ≠ ⟨0, 0, 0⟩) {A : ℝ}
    (hA : A = mu / (-2 * (V3.norm v ^ 2 / 2 - mu / V3.norm r))) :
    (V3.norm (eVec mu r v) < 1 → 0 < A) ∧ (1 < V3.norm (eVec mu r v) → A < 0) ∧
    (V3.norm (eVec mu r v) ≠ 1 → A * (1 - V3.norm (eVec mu r v) ^ 2) = V3.norm (V3.cross r v) ^ 2 / mu) := by
  obtain ⟨-, hs⟩ := e_sq hmu h
  have hH := norm_pos' h
  have he := V3.norm_nonneg (eVec mu r v)
  set e := V3.norm (eVec mu r v)
  set H := V3.norm (V3.cross r v)
  set S := V3.norm v ^ 2 / 2 - mu / V3.norm r with hS
  have hs' : mu ^ 2 * (e ^ 2 - 1) = H ^ 2 * (2 * S) := by rw [hs, hS]; ring
  have key : e ≠ 1 → S ≠ 0 := by
    intro h1 h0
    rw [h0, mul_zero, mul_zero] at hs'
    rcases mul_eq_zero.mp hs' with h2 | h2
    · exact absurd h2 (by positivity)
    · have : (e - 1) * (e + 1) = 0 := by linear_combination h2
      rcases mul_eq_zero.mp this with h3 | h3
      · exact h1 (by linarith)
      · linarith
  refine ⟨fun h1 => ?_, fun h1 => ?_, fun h1 => ?_⟩
  · have : S < 0 := by
      have h2 : e ^ 2 - 1 < 0 := by nlinarith
      have h3 := mul_neg_of_pos_of_neg (show 0 < mu ^ 2 by positivity) h2
      rw [hs'] at h3
      have := neg_of_mul_neg_right h3 (by positivity)
      linarith
    rw [hA]; exact div_pos hmu (by linarith)
  · have : 0 < S := by
      have h2 : 0 < e ^ 2 - 1 := by nlinarith
      have h3 := mul_pos (show 0 < mu ^ 2 by positivity) h2
      rw [hs'] at h3
      have := pos_of_mul_pos_right h3 (show 0 ≤ H ^ 2 by positivity)
      linarith
    rw [hA]; exact div_neg_of_pos_of_neg hmu (by linarith)
  · have hS0 := key h1
    rw [hA]
    field_simp
    linear_combination hs'

/-- The values of an orbit that is inclined, not circular and not parabolic. -/
theorem elements_spec {mu : ℝ} {r v : V3} (t0 : ℝ) (hmu : 0 < mu) (hI : Inclined r v) (he0 : 0 < V3.norm (eVec mu r v))
    (hnp : ¬ parabolic (V3.norm (eVec mu r v))) :
    ∃ A i Ω ω ν, (V3.norm (eVec mu r v) < 1 → 0 < A) ∧ (1 < V3.norm (eVec mu r v) → A < 0) ∧
      (1e-15 ≤ i ∧ i < π) ∧ (0 ≤ Ω ∧ Ω < 2 * π) ∧ (0 ≤ ω ∧ ω < 2 * π) ∧ (0 ≤ ν ∧ ν < 2 * π) ∧ (sin ν < 0 ↔ V3.dot r v < 0) ∧
      0 < 1 + V3.norm (eVec mu r v) * cos ν ∧
      stateOfNu mu (A * (1 - V3.norm (eVec mu r v) ^ 2)) (V3.norm (eVec mu r v)) i Ω ω ν = (r, v) ∧
      (cartesianToKeplerian r v t0 mu).a = some A ∧ (cartesianToKeplerian r v t0 mu).q = A * (1 - V3.norm (eVec mu r v)) ∧
      (cartesianToKeplerian r v t0 mu).e = V3.norm (eVec mu r v) ∧ (cartesianToKeplerian r v t0 mu).i = some (degrees i) ∧
      (cartesianToKeplerian r v t0 mu).raan = some (degrees Ω) ∧
      (cartesianToKeplerian r v t0 mu).ap = some (degrees (if V3.norm (eVec mu r v) < 1e-15 then 0 else ω)) ∧
      (cartesianToKeplerian r v t0 mu).m = (calcMeanAnomaly ν (V3.norm (eVec mu r v))).map degrees ∧
      (cartesianToKeplerian r v t0 mu).tp = (calcMeanAnomaly ν (V3.norm (eVec mu r v))).map fun m =>
        t0 + (if m > π ∧ V3.norm (eVec mu r v) < 1 - tolerance then 2 * π / √(mu / |A| ^ 3) - m / √(mu / |A| ^ 3) else -m / √(mu / |A| ^ 3)) := by
  obtain ⟨i, Ω, ω, ν, hg, hi, hΩ, hω, hν, hsin, hcos, hst, -, -⟩ := angles_spec hmu hI.2 hI.1 he0
  have hne : V3.norm (eVec mu r v) ≠ 1 := fun h1 => hnp (by
    rw [h1]; exact ⟨by linarith [tolerance_pos], by linarith [tolerance_pos]⟩)
  obtain ⟨z1, z2, z3⟩ := size_spec hmu (inclined_ne hI) rfl
  refine ⟨_, i, Ω, ω, ν, z1, z2, hi, hΩ, hω, hν, hsin, hcos, by rw [z3 hne]; exact hst, ?_, ?_, ?_, ?_, ?_, ?_, ?_, ?_⟩ <;>
    unfold cartesianToKeplerian <;> simp only [hg, if_neg hnp, calcMeanMotion, Option.map_some, Option.bind_some, tolerance] <;> congr!

theorem degrees_lt {x y : ℝ} : degrees x < degrees y ↔ x < y := by
  unfold degrees
  exact mul_lt_mul_iff_left₀ (by have := Real.pi_pos; positivity)

theorem degrees_zero : degrees 0 = 0 := by unfold degrees; rw [zero_mul]
theorem degrees_pi : degrees π = 180 := by unfold degrees; have := Real.pi_pos; field_simp
theorem degrees_two_pi : degrees (2 * π) = 360 := by unfold degrees; have := Real.pi_pos; field_simp; norm_num

theorem degrees_turn {x : ℝ} (h : 0 ≤ x ∧ x < 2 * π) : 0 ≤ degrees x ∧ degrees x < 360 := by
  constructor
  · rw [← degrees_zero]; exact not_lt.mp fun h' => not_lt.mpr h.1 (degrees_lt.mp h')
  · rw [← degrees_two_pi]; exact degrees_lt.mpr h.2

/-! ## C99: Keplerian elements of a state -/

/-- C99. An inclined ellipse that is not circular: all six elements exist and lie in their ranges, and the orbit they describe is
in the given state at the given mean anomaly. -/
theorem C99_elliptic {mu : ℝ} {r v : V3} (t0 : ℝ) (hmu : 0 < mu) (hI : Inclined r v)
    (he : 1e-15 ≤ V3.norm (laplaceVec mu r v) ∧ V3.norm (laplaceVec mu r v) ≤ 1 - 1e-15) :
    ∃ k, six (cartesianToKeplerian r v t0 mu) = some k ∧ 0 < k.size ∧ k.e = V3.norm (laplaceVec mu r v) ∧ (0 < k.i ∧ k.i < 180) ∧
      (0 ≤ k.raan ∧ k.raan < 360) ∧ (0 ≤ k.ap ∧ k.ap < 360) ∧ (0 ≤ k.m ∧ k.m < 360) ∧
      ∀ p q, PeriapsisMotion mu (k.size * (1 - k.e)) k.e (radians k.i) (radians k.raan) (radians k.ap) p q →
        p (radians k.m / √(mu / k.size ^ 3)) = r.toE ∧ q (radians k.m / √(mu / k.size ^ 3)) = v.toE := by
  rw [← eVec_laplace hmu (norm_pos' (ne_zero_of_cross (inclined_ne hI)))] at he ⊢
  have he0 : 0 < V3.norm (eVec mu r v) := lt_of_lt_of_le (by norm_num) he.1
  have he1 : V3.norm (eVec mu r v) < 1 := lt_of_le_of_lt he.2 (by norm_num)
  obtain ⟨A, i, Ω, ω, ν, hA, -, hi, hΩ, hω, hν, -, -, hst, f1, f2, f3, f4, f5, f6, f7, -⟩ :=
    elements_spec t0 hmu hI he0 (not_parabolic_of_lt he.2)
  obtain ⟨M, hM, hM0, hM1, hmean, -⟩ := C36_elliptic _ ν ⟨he0.le, he1⟩
  rw [hM] at f7
  rw [if_neg (not_lt.mpr he.1)] at f6
  refine ⟨⟨A, V3.norm (eVec mu r v), degrees i, degrees Ω, degrees ω, degrees M⟩, ?_, hA he1, rfl, ⟨?_, ?_⟩, degrees_turn hΩ,
    degrees_turn hω, degrees_turn ⟨hM0, hM1⟩, ?_⟩
  · unfold six
    rw [f1, f3, f4, f5, f6, f7]; rfl
  · rw [← degrees_zero]; exact degrees_lt.mpr (lt_of_lt_of_le (by norm_num) hi.1)
  · rw [← degrees_pi]; exact degrees_lt.mpr hi.2
  · intro p q hm
    simp only [radians_degrees] at hm ⊢
    have := elliptic_state hmu (hA he1) ⟨he0.le, he1⟩ hm hmean
    rw [hst] at this
    exact ⟨this.1.symm, this.2.symm⟩

/-- C99. There and back: the state computed from the elements of a state is the state of the same motion, at most `e tol² / n`
away in time, when the solver of Kepler's equation stops before the limit of iterations. -/
theorem C99_round_trip {mu : ℝ} {r v : V3} (t0 : ℝ) (hmu : 0 < mu) (hI : Inclined r v)
    (he : 1e-15 ≤ V3.norm (laplaceVec mu r v) ∧ V3.norm (laplaceVec mu r v) ≤ 1 - 1e-15) (maxIter : Nat) (tol : ℝ) (ht : tol < 1e15)
    (k : Six) (hk : six (cartesianToKeplerian r v t0 mu) = some k)
    (hconv : (solveIter k.e (radians k.m) maxIter tol).iterations ≤ maxIter) {p q : ℝ → E3} (hm : IsMotion mu p q)
    (hp : p 0 = r.toE) (hq : q 0 = v.toE) :
    ∃ s t, keplerianToCartesianA k mu maxIter tol = some s ∧ s.1.toE = p t ∧ s.2.toE = q t ∧
      |t| ≤ k.e * tol ^ 2 / √(mu / k.size ^ 3) := by
  obtain ⟨k', hk', ha, hke, -, -, -, -, hmo⟩ := C99_elliptic t0 hmu hI he
  rw [hk] at hk'
  obtain rfl := Option.some.inj hk'
  rw [← hke] at he
  have he0 : 0 ≤ k.e := le_trans (by norm_num) he.1
  have he1 : k.e < 1 := lt_of_le_of_lt he.2 (by norm_num)
  obtain ⟨⟨P, Q, hPQ⟩, -⟩ := C98_motion mu (k.size * (1 - k.e)) k.e (radians k.i) (radians k.raan) (radians k.ap) hmu
    (mul_pos ha (by linarith)) he0
  obtain ⟨s, t, h1, h2, h3, h4⟩ := C98_elliptic k mu hmu ha ⟨he0, he.2⟩ hPQ maxIter tol ht hconv
  obtain ⟨m1, m2⟩ := hmo P Q hPQ
  set c := radians k.m / √(mu / k.size ^ 3) with hc
  obtain ⟨g1, g2⟩ := motion_unique (Univ.Props.shift_motion hPQ.1 c) hm (fun t => hPQ.2.1 _) (t0 := 0)
    (by rw [hp, zero_add]; exact m1) (by rw [hq, zero_add]; exact m2)
  refine ⟨s, t - c, h1, ?_, ?_, h4⟩
  · rw [h2, ← g1]; simp only [sub_add_cancel]
  · rw [h3, ← g2]; simp only [sub_add_cancel]

/-- C99. A hyperbola: the orbit described by the elements is in the given state at the mean anomaly reduced by a full turn when
the body approaches periapsis, and at the mean anomaly itself when it recedes. -/
theorem C99_hyperbolic {mu : ℝ} {r v : V3} (t0 : ℝ) (hmu : 0 < mu) (hI : Inclined r v) (he : 1 + 1e-15 ≤ V3.norm (laplaceVec mu r v)) :
    ∃ k, six (cartesianToKeplerian r v t0 mu) = some k ∧ k.size < 0 ∧ k.e = V3.norm (laplaceVec mu r v) ∧ (0 < k.i ∧ k.i < 180) ∧
      (0 ≤ k.raan ∧ k.raan < 360) ∧ (0 ≤ k.ap ∧ k.ap < 360) ∧
      ∀ p q, PeriapsisMotion mu (k.size * (1 - k.e)) k.e (radians k.i) (radians k.raan) (radians k.ap) p q →
        p ((if V3.dot r v < 0 then radians k.m - 2 * π else radians k.m) / √(mu / |k.size| ^ 3)) = r.toE ∧
        q ((if V3.dot r v < 0 then radians k.m - 2 * π else radians k.m) / √(mu / |k.size| ^ 3)) = v.toE := by
  rw [← eVec_laplace hmu (norm_pos' (ne_zero_of_cross (inclined_ne hI)))] at he ⊢
  have he1 : 1 < V3.norm (eVec mu r v) := lt_of_lt_of_le (by norm_num) he
  have he0 : 0 < V3.norm (eVec mu r v) := by linarith
  obtain ⟨A, i, Ω, ω, ν, -, hA, hi, hΩ, hω, hν, hsin, hcos, hst, f1, f2, f3, f4, f5, f6, f7, -⟩ :=
    elements_spec t0 hmu hI he0 (not_parabolic_of_gt he)
  obtain ⟨M, hmean, -, hsgn, hM⟩ := C36_hyperbolic _ ν he1 hcos
  rw [hM] at f7
  rw [if_neg (by linarith)] at f6
  refine ⟨⟨A, V3.norm (eVec mu r v), degrees i, degrees Ω, degrees ω, degrees (if sin ν < 0 then M + 2 * π else M)⟩, ?_, hA he1, rfl,
    ⟨?_, ?_⟩, degrees_turn hΩ, degrees_turn hω, ?_⟩
  · unfold six
    rw [f1, f3, f4, f5, f6, f7]; rfl
  · rw [← degrees_zero]; exact degrees_lt.mpr (lt_of_lt_of_le (by norm_num) hi.1)
  · rw [← degrees_pi]; exact degrees_lt.mpr hi.2
  · intro p q hm
    simp only [radians_degrees] at hm ⊢
    rw [show (if V3.dot r v < 0 then (if sin ν < 0 then M + 2 * π else M) - 2 * π else (if sin ν < 0 then M + 2 * π else M)) = M by
      by_cases h : sin ν < 0
      · rw [if_pos h, if_pos (hsin.mp h)]; ring
      · rw [if_neg h, if_neg fun h' => h (hsin.mpr h')]]
    have hA' : 0 < -A := by linarith [hA he1]
    rw [show A * (1 - V3.norm (eVec mu r v)) = -A * (V3.norm (eVec mu r v) - 1) by ring] at hm
    obtain ⟨H, hH, hMH⟩ := hmean
    have := hyperbolic_state hmu hA' he1 hm hH
    rw [neg_neg, hst, ← hMH] at this
    rw [abs_of_neg (hA he1)]
    exact ⟨this.1.symm, this.2.1.symm⟩

/-- C99. On every hyperbola before periapsis the elements describe another state. -/
theorem C99_hyperbolic_false {mu : ℝ} {r v : V3} (t0 : ℝ) (hmu : 0 < mu) (hI : Inclined r v) (he : 1 + 1e-15 ≤ V3.norm (laplaceVec mu r v))
    (hneg : V3.dot r v < 0) :
    ∃ k, six (cartesianToKeplerian r v t0 mu) = some k ∧
      ∀ p q, PeriapsisMotion mu (k.size * (1 - k.e)) k.e (radians k.i) (radians k.raan) (radians k.ap) p q →
        p (radians k.m / √(mu / |k.size| ^ 3)) ≠ r.toE := by
  obtain ⟨k, hk, ha, hke, -, -, -, hmo⟩ := C99_hyperbolic t0 hmu hI he
  refine ⟨k, hk, fun p q hm h => ?_⟩
  rw [← hke] at he
  have he1 : 1 < k.e := lt_of_lt_of_le (by norm_num) he
  have h1 := (hmo p q hm).1
  rw [if_pos hneg] at h1
  have hn : 0 < √(mu / |k.size| ^ 3) := Real.sqrt_pos.mpr (div_pos hmu (pow_pos (abs_pos.mpr ha.ne) 3))
  have h2 := hyperbolic_injective hmu (mul_pos_of_neg_of_neg ha (by linarith)) he1 hm (h.trans h1.symm)
  rw [div_left_inj' hn.ne'] at h2
  linarith [Real.pi_pos]

/-! ### elements to state to elements -/

theorem frame_cross (i Ω ω : ℝ) :
    V3.cross (periDir i Ω ω) (normalDir i Ω) = V3.smul (-1) (alongDir i Ω ω) ∧
    V3.cross (alongDir i Ω ω) (normalDir i Ω) = periDir i Ω ω ∧ V3.dot (normalDir i Ω) (normalDir i Ω) = 1 := by
  obtain ⟨h1, h2, h3, h4⟩ := frame i Ω ω
  rw [← h4]
  generalize periDir i Ω ω = P at *
  generalize alongDir i Ω ω = Q at *
  simp only [V3.dot] at h1 h2 h3
  refine ⟨?_, ?_, ?_⟩
  · ext <;> simp only [V3.cross, V3.smul]
    · linear_combination P.x * h3 - Q.x * h1
    · linear_combination P.y * h3 - Q.y * h1
    · linear_combination P.z * h3 - Q.z * h1
  · ext <;> simp only [V3.cross]
    · linear_combination P.x * h2 - Q.x * h3
    · linear_combination P.y * h2 - Q.y * h3
    · linear_combination P.z * h2 - Q.z * h3
  · simp only [V3.cross, V3.dot]
    linear_combination (Q.x * Q.x + Q.y * Q.y + Q.z * Q.z) * h1 + h2 - (P.x * Q.x + P.y * Q.y + P.z * Q.z) * h3

theorem state_elements {mu p e i Ω ω ν : ℝ} (hmu : 0 < mu) (hp : 0 < p) (hd : 0 < 1 + e * cos ν) :
    V3.cross (stateOfNu mu p e i Ω ω ν).1 (stateOfNu mu p e i Ω ω ν).2 = V3.smul √(mu * p) (normalDir i Ω) ∧
    laplaceVec mu (stateOfNu mu p e i Ω ω ν).1 (stateOfNu mu p e i Ω ω ν).2 = V3.smul e (periDir i Ω ω) ∧
    V3.norm (stateOfNu mu p e i Ω ω ν).1 = p / (1 + e * cos ν) := by
  have hsc := Real.sin_sq_add_cos_sq ν
  obtain ⟨h1, h2, h3, h4⟩ := frame i Ω ω
  obtain ⟨k1, k2, -⟩ := frame_cross i Ω ω
  have hs : √(mu / p) = √(mu * p) / p := by
    rw [show mu / p = mu * p / p ^ 2 by field_simp, Real.sqrt_div (by positivity), Real.sqrt_sq hp.le]
  have hq := Real.sq_sqrt (show 0 ≤ mu * p by positivity)
  have hR : V3.norm (stateOfNu mu p e i Ω ω ν).1 = p / (1 + e * cos ν) := by
    have h0 : V3.norm (stateOfNu mu p e i Ω ω ν).1 ^ 2 = (p / (1 + e * cos ν)) ^ 2 := by
      rw [V3.norm_sq]
      unfold stateOfNu
      rw [rotate_eq]
      simp only [V3.dot, V3.add, V3.smul] at h1 h2 h3 ⊢
      generalize 1 + e * cos ν = D at hd
      field_simp
      linear_combination cos ν ^ 2 * h1 + sin ν ^ 2 * h2 + 2 * (cos ν * sin ν) * h3 + hsc
    exact (pow_left_inj₀ (V3.norm_nonneg _) (by positivity) two_ne_zero).mp h0
  have hC : V3.cross (stateOfNu mu p e i Ω ω ν).1 (stateOfNu mu p e i Ω ω ν).2 = V3.smul √(mu * p) (normalDir i Ω) := by
    unfold stateOfNu
    rw [rotate_eq, rotate_eq, hs, ← h4]
    generalize periDir i Ω ω = P
    generalize alongDir i Ω ω = Q
    obtain ⟨D, hD⟩ : ∃ D, D = 1 + e * cos ν := ⟨_, rfl⟩
    rw [← hD] at hd ⊢
    ext <;> simp only [V3.cross, V3.add, V3.smul] <;> field_simp
    · linear_combination (P.y * Q.z - P.z * Q.y) * hsc - (P.y * Q.z - P.z * Q.y) * hD
    · linear_combination (P.z * Q.x - P.x * Q.z) * hsc - (P.z * Q.x - P.x * Q.z) * hD
    · linear_combination (P.x * Q.y - P.y * Q.x) * hsc - (P.x * Q.y - P.y * Q.x) * hD
  refine ⟨hC, ?_, hR⟩
  unfold laplaceVec
  rw [hC, hR]
  unfold stateOfNu
  rw [rotate_eq, rotate_eq, hs]
  have : V3.cross (V3.add (V3.smul (-(√(mu * p) / p) * sin ν) (periDir i Ω ω)) (V3.smul (√(mu * p) / p * (e + cos ν)) (alongDir i Ω ω)))
      (V3.smul √(mu * p) (normalDir i Ω)) =
      V3.add (V3.smul (-(√(mu * p) ^ 2 / p) * sin ν) (V3.cross (periDir i Ω ω) (normalDir i Ω)))
        (V3.smul (√(mu * p) ^ 2 / p * (e + cos ν)) (V3.cross (alongDir i Ω ω) (normalDir i Ω))) := by
    ext <;> simp only [V3.cross, V3.add, V3.smul] <;> ring
  rw [this, k1, k2, hq]
  ext <;> simp only [V3.sub, V3.add, V3.smul] <;> field_simp <;> ring

theorem smul_inj {k k' : ℝ} {a b : V3} (hk : 0 < k) (hk' : 0 < k') (ha : V3.dot a a = 1) (hb : V3.dot b b = 1)
    (h : V3.smul k a = V3.smul k' b) : k = k' ∧ a = b := by
  have na : V3.norm a = 1 := by
    have := V3.norm_sq a
    rw [ha] at this
    exact (pow_left_inj₀ (V3.norm_nonneg _) zero_le_one two_ne_zero).mp (by rw [this, one_pow])
  have nb : V3.norm b = 1 := by
    have := V3.norm_sq b
    rw [hb] at this
    exact (pow_left_inj₀ (V3.norm_nonneg _) zero_le_one two_ne_zero).mp (by rw [this, one_pow])
  have h1 := congrArg V3.norm h
  rw [V3.norm_smul, V3.norm_smul, na, nb, abs_of_pos hk, abs_of_pos hk', mul_one, mul_one] at h1
  subst h1
  refine ⟨rfl, ?_⟩
  simp only [V3.smul, V3.mk.injEq] at h
  obtain ⟨h1, h2, h3⟩ := h
  ext
  · exact mul_left_cancel₀ hk.ne' h1
  · exact mul_left_cancel₀ hk.ne' h2
  · exact mul_left_cancel₀ hk.ne' h3

/-- Different elements describe different states. -/
theorem stateOfNu_injective {mu p e i Ω ω ν p' e' i' Ω' ω' ν' : ℝ} (hmu : 0 < mu) (hp : 0 < p) (hp' : 0 < p') (he : 0 < e) (he' : 0 < e')
    (hi : 0 < i ∧ i < π) (hi' : 0 < i' ∧ i' < π) (hΩ : 0 ≤ Ω ∧ Ω < 2 * π) (hΩ' : 0 ≤ Ω' ∧ Ω' < 2 * π)
    (hω : 0 ≤ ω ∧ ω < 2 * π) (hω' : 0 ≤ ω' ∧ ω' < 2 * π) (hν : 0 ≤ ν ∧ ν < 2 * π) (hν' : 0 ≤ ν' ∧ ν' < 2 * π)
    (hd : 0 < 1 + e * cos ν) (hd' : 0 < 1 + e' * cos ν') (h : stateOfNu mu p e i Ω ω ν = stateOfNu mu p' e' i' Ω' ω' ν') :
    p = p' ∧ e = e' ∧ i = i' ∧ Ω = Ω' ∧ ω = ω' ∧ ν = ν' := by
  obtain ⟨c1, l1, -⟩ := state_elements (i := i) (Ω := Ω) (ω := ω) hmu hp hd
  obtain ⟨c2, l2, -⟩ := state_elements (i := i') (Ω := Ω') (ω := ω') hmu hp' hd'
  rw [h] at c1 l1
  obtain ⟨e1, w⟩ := smul_inj (Real.sqrt_pos.mpr (by positivity)) (Real.sqrt_pos.mpr (by positivity)) (frame_cross i Ω ω).2.2
    (frame_cross i' Ω' ω').2.2 (c1.symm.trans c2)
  obtain ⟨rfl, pd⟩ := smul_inj he he' (frame i Ω ω).1 (frame i' Ω' ω').1 (l1.symm.trans l2)
  have hpp : p = p' := by
    rw [Real.sqrt_inj (by positivity) (by positivity)] at e1
    exact mul_left_cancel₀ hmu.ne' e1
  subst hpp
  simp only [normalDir, V3.mk.injEq] at w
  obtain ⟨w1, w2, w3⟩ := w
  have hii : i = i' := Real.injOn_cos ⟨hi.1.le, hi.2.le⟩ ⟨hi'.1.le, hi'.2.le⟩ w3
  subst hii
  have hsi := (Real.sin_pos_of_pos_of_lt_pi hi.1 hi.2).ne'
  have hΩΩ : Ω = Ω' := angle_unique hΩ hΩ' (mul_right_cancel₀ hsi (neg_injective w2)) (mul_right_cancel₀ hsi w1)
  subst hΩΩ
  have hωω : ω = ω' := by
    have g1 : ∀ ω, V3.dot (periDir i Ω ω) (nodeDir Ω) = cos ω := fun ω => by
      have h1 := Real.sin_sq_add_cos_sq Ω
      simp only [periDir, V3.dot, V3.add, V3.smul, V3.cross, nodeDir, normalDir]
      linear_combination cos ω * h1
    have g2 : ∀ ω, (periDir i Ω ω).z = sin ω * sin i := fun ω => by
      have h1 := Real.sin_sq_add_cos_sq Ω
      simp only [periDir, V3.add, V3.smul, V3.cross, nodeDir, normalDir]
      linear_combination sin ω * sin i * h1
    refine angle_unique hω hω' ?_ ?_
    · rw [← g1 ω, pd, g1]
    · exact mul_right_cancel₀ hsi (by rw [← g2 ω, pd, g2])
  subst hωω
  refine ⟨rfl, rfl, rfl, rfl, rfl, ?_⟩
  have hv := congrArg Prod.snd h
  unfold stateOfNu at hv
  simp only [rotate_eq] at hv
  obtain ⟨f1, f2, f3, -⟩ := frame i Ω ω
  have hsp : √(mu / p) ≠ 0 := (Real.sqrt_pos.mpr (by positivity)).ne'
  have d1 := congrArg (V3.dot (periDir i Ω ω)) hv
  have d2 := congrArg (V3.dot (alongDir i Ω ω)) hv
  have lin : ∀ (a b : ℝ) (P Q R : V3), V3.dot R (V3.add (V3.smul a P) (V3.smul b Q)) = a * V3.dot R P + b * V3.dot R Q := by
    intro a b P Q R; simp only [V3.dot, V3.add, V3.smul]; ring
  have f3' : V3.dot (alongDir i Ω ω) (periDir i Ω ω) = 0 := by rw [← f3]; simp only [V3.dot]; ring
  rw [lin, lin, f1, f3] at d1
  rw [lin, lin, f2, f3'] at d2
  refine angle_unique hν hν' ?_ ?_
  · have : √(mu / p) * cos ν = √(mu / p) * cos ν' := by linear_combination d2
    exact mul_left_cancel₀ hsp this
  · have : √(mu / p) * sin ν = √(mu / p) * sin ν' := by linear_combination -d1
    exact mul_left_cancel₀ hsp this

theorem radians_lt {x y : ℝ} : radians x < radians y ↔ x < y := by
  unfold radians
  exact mul_lt_mul_iff_left₀ (by have := Real.pi_pos; positivity)

theorem radians_turn {x : ℝ} (h : 0 ≤ x ∧ x < 360) : 0 ≤ radians x ∧ radians x < 2 * π := by
  have := Real.pi_pos
  unfold radians
  exact ⟨mul_nonneg h.1 (by positivity), by nlinarith [h.2]⟩

theorem unit_norm {a : V3} (h : V3.dot a a = 1) : V3.norm a = 1 := by
  have := V3.norm_sq a
  rw [h] at this
  exact (pow_left_inj₀ (V3.norm_nonneg _) zero_le_one two_ne_zero).mp (by rw [this, one_pow])

theorem state_inclined {mu p e i Ω ω ν : ℝ} (hmu : 0 < mu) (hp : 0 < p) (he : 0 < e) (hd : 0 < 1 + e * cos ν)
    (hi : 1e-15 ≤ i ∧ i < π) :
    Inclined (stateOfNu mu p e i Ω ω ν).1 (stateOfNu mu p e i Ω ω ν).2 ∧
    V3.norm (laplaceVec mu (stateOfNu mu p e i Ω ω ν).1 (stateOfNu mu p e i Ω ω ν).2) = e := by
  obtain ⟨c1, l1, -⟩ := state_elements (i := i) (Ω := Ω) (ω := ω) hmu hp hd
  have hi0 : 0 < i := lt_of_lt_of_le (by norm_num) hi.1
  have hsq : 0 < √(mu * p) := Real.sqrt_pos.mpr (by positivity)
  constructor
  · unfold Inclined
    rw [c1, V3.norm_smul, unit_norm (frame_cross i Ω ω).2.2, abs_of_pos hsq]
    simp only [V3.smul, normalDir]
    constructor
    · rw [mul_one, mul_div_cancel_left₀ _ hsq.ne', Real.arccos_cos hi0.le hi.2.le]; exact hi.1
    · have h1 := Real.sin_sq_add_cos_sq Ω
      have h2 := Real.sin_pos_of_pos_of_lt_pi hi0 hi.2
      have : (√(mu * p) * (sin Ω * sin i)) ^ 2 + (√(mu * p) * -(cos Ω * sin i)) ^ 2 = (√(mu * p) * sin i) ^ 2 := by
        linear_combination (√(mu * p) * sin i) ^ 2 * h1
      rw [this]; positivity
  · rw [l1, V3.norm_smul, unit_norm (frame i Ω ω).1, abs_of_pos he, mul_one]

/-- C99. Elements to state to elements: the elements of the state of an ellipse are the elements one started from. -/
theorem C99_inverse (k : Six) (t0 mu : ℝ) (hmu : 0 < mu) (ha : 0 < k.size) (he : 1e-15 ≤ k.e ∧ k.e ≤ 1 - 1e-15)
    (hi : 1e-15 ≤ radians k.i ∧ k.i < 180) (hΩ : 0 ≤ k.raan ∧ k.raan < 360) (hω : 0 ≤ k.ap ∧ k.ap < 360) (hM : 0 ≤ k.m ∧ k.m < 360)
    {p q : ℝ → E3} (hm : PeriapsisMotion mu (k.size * (1 - k.e)) k.e (radians k.i) (radians k.raan) (radians k.ap) p q) (r v : V3)
    (hr : r.toE = p (radians k.m / √(mu / k.size ^ 3))) (hv : v.toE = q (radians k.m / √(mu / k.size ^ 3))) :
    six (cartesianToKeplerian r v t0 mu) = some k := by
  have hpi := Real.pi_pos
  have he0 : 0 < k.e := lt_of_lt_of_le (by norm_num) he.1
  have he1 : k.e < 1 := lt_of_le_of_lt he.2 (by norm_num)
  have hi0 : 0 < radians k.i := lt_of_lt_of_le (by norm_num) hi.1
  have hi1 : radians k.i < π := by
    rw [← radians_degrees π, degrees_pi]; exact radians_lt.mpr hi.2
  obtain ⟨ν, ⟨hν, hmean⟩, -⟩ := C97_unique k.e (radians k.m) ⟨he0.le, he1⟩
  obtain ⟨s1, s2⟩ := elliptic_state hmu ha ⟨he0.le, he1⟩ hm hmean
  have hr' := Univ.Props.toE_injective (hr.trans s1.symm)
  have hv' := Univ.Props.toE_injective (hv.trans s2.symm)
  have hp0 : 0 < k.size * (1 - k.e ^ 2) := mul_pos ha (by nlinarith)
  have hd := ell_pos' ⟨he0.le, he1⟩ ν
  obtain ⟨hI, hl⟩ := state_inclined (i := radians k.i) (Ω := radians k.raan) (ω := radians k.ap) hmu hp0 he0 hd ⟨hi.1, hi1⟩
  rw [← hr', ← hv'] at hI hl
  have hee : V3.norm (eVec mu r v) = k.e := by
    rw [eVec_laplace hmu (norm_pos' (ne_zero_of_cross (inclined_ne hI))), hl]
  obtain ⟨A, i, Ω, ω, ν', hA, -, hi', hΩ', hω', hν', -, hd', hst, f1, f2, f3, f4, f5, f6, f7, -⟩ :=
    elements_spec t0 hmu hI (by rw [hee]; exact he0) (by rw [hee]; exact not_parabolic_of_lt he.2)
  rw [hee] at hA hd' hst f2 f3 f6 f7
  have hA0 := hA he1
  obtain ⟨q1, -, rfl, rfl, rfl, rfl⟩ := stateOfNu_injective hmu (mul_pos hA0 (show 0 < 1 - k.e ^ 2 by nlinarith)) hp0 he0 he0
    ⟨lt_of_lt_of_le (by norm_num) hi'.1, hi'.2⟩ ⟨hi0, hi1⟩ hΩ' (radians_turn hΩ) hω' (radians_turn hω) hν' hν hd' hd
    (hst.trans (Prod.ext hr' hv'))
  have hAk : A = k.size := mul_right_cancel₀ (show 1 - k.e ^ 2 ≠ 0 by nlinarith) q1
  subst hAk
  obtain ⟨M, hMc, hM0, hM1, -, hu⟩ := C36_elliptic k.e ν' ⟨he0.le, he1⟩
  obtain ⟨z, hz⟩ := hu _ hmean
  have hMM : radians k.m = M := by
    have h1 := radians_turn hM
    have k1 : (z : ℝ) < 1 := by nlinarith
    have k2 : (-1 : ℝ) < z := by nlinarith
    have k1' : z < 1 := by exact_mod_cast k1
    have k2' : -1 < z := by exact_mod_cast k2
    have : z = 0 := by omega
    rw [hz, this]; simp
  rw [hMc, ← hMM] at f7
  rw [if_neg (not_lt.mpr he.1)] at f6
  unfold six
  rw [f1, f3, f4, f5, f6, f7]
  simp only [Option.map_some, degrees_radians]

/-- C99. The other numbers of an inclined ellipse that is not circular. `P` is the period of the motion through the state and
`n` the mean motion, in degrees; `q` and `Q` are the least and the greatest distance on it; `p = |r × v|² / mu`; the true anomaly is
the angle from periapsis to the position, counted in the direction of motion. -/
theorem C99_derived {mu : ℝ} {r v : V3} (t0 : ℝ) (hmu : 0 < mu) (hI : Inclined r v)
    (he : 1e-15 ≤ V3.norm (laplaceVec mu r v) ∧ V3.norm (laplaceVec mu r v) < 1 - 1e-15) {p q : ℝ → E3} (hm : IsMotion mu p q)
    (hp : p t0 = r.toE) (hq : q t0 = v.toE) :
    ∃ P Q ν, (cartesianToKeplerian r v t0 mu).P = some P ∧ (cartesianToKeplerian r v t0 mu).Q = some Q ∧
      (cartesianToKeplerian r v t0 mu).nu = some ν ∧ 0 < P ∧ (cartesianToKeplerian r v t0 mu).n * P = 360 ∧
      (∀ t, p (t + P) = p t ∧ q (t + P) = q t) ∧
      (∀ t, (cartesianToKeplerian r v t0 mu).q ≤ ‖p t‖ ∧ ‖p t‖ ≤ Q) ∧
      (∃ t, ‖p t‖ = (cartesianToKeplerian r v t0 mu).q) ∧ (∃ t, ‖p t‖ = Q) ∧
      (cartesianToKeplerian r v t0 mu).p = V3.norm (V3.cross r v) ^ 2 / mu ∧ (0 ≤ ν ∧ ν < 360) ∧
      V3.dot (laplaceVec mu r v) r = V3.norm (laplaceVec mu r v) * V3.norm r * cos (radians ν) ∧
      (sin (radians ν) < 0 ↔ V3.dot r v < 0) := by
  have hl := eVec_laplace (v := v) hmu (norm_pos' (ne_zero_of_cross (inclined_ne hI)))
  rw [← hl] at he ⊢
  have he0 : 0 < V3.norm (eVec mu r v) := lt_of_lt_of_le (by norm_num) he.1
  have he1 : V3.norm (eVec mu r v) < 1 := lt_trans he.2 (by norm_num)
  have hnp := not_parabolic_of_lt he.2.le
  obtain ⟨i, Ω, ω, ν, hg, hi, hΩ, hω, hν, hsin, hcos, hst, -, hper⟩ := angles_spec hmu hI.2 hI.1 he0
  obtain ⟨z1, -, z3⟩ := size_spec hmu (inclined_ne hI) rfl
  have hA0 := z1 he1
  have hpi := Real.pi_pos
  have fP : (cartesianToKeplerian r v t0 mu).P = some (2 * π / √(mu / (mu / (-2 * (V3.norm v ^ 2 / 2 - mu / V3.norm r))) ^ 3)) := by
    unfold cartesianToKeplerian
    simp only [if_neg hnp, calcMeanMotion]
    rw [if_pos (show V3.norm (eVec mu r v) < 1 - tolerance from he.2), abs_of_pos hA0]
  have fQ : (cartesianToKeplerian r v t0 mu).Q =
      some (mu / (-2 * (V3.norm v ^ 2 / 2 - mu / V3.norm r)) * (1 + V3.norm (eVec mu r v))) := by
    unfold cartesianToKeplerian
    simp only
    rw [if_pos he1]
  have fq : (cartesianToKeplerian r v t0 mu).q = mu / (-2 * (V3.norm v ^ 2 / 2 - mu / V3.norm r)) * (1 - V3.norm (eVec mu r v)) := by
    unfold cartesianToKeplerian
    simp only [if_neg hnp]
  have fn : (cartesianToKeplerian r v t0 mu).n = degrees √(mu / (mu / (-2 * (V3.norm v ^ 2 / 2 - mu / V3.norm r))) ^ 3) := by
    unfold cartesianToKeplerian
    simp only [if_neg hnp, calcMeanMotion]
    rw [abs_of_pos hA0]
  have fν : (cartesianToKeplerian r v t0 mu).nu = some (degrees ν) := by
    unfold cartesianToKeplerian
    simp only [hg, Option.map_some]
  rw [← z3 he1.ne] at hst
  rw [fP, fQ, fq, fn, fν]
  set a := mu / (-2 * (V3.norm v ^ 2 / 2 - mu / V3.norm r))
  have hee : 0 ≤ V3.norm (eVec mu r v) ∧ V3.norm (eVec mu r v) < 1 := ⟨he0.le, he1⟩
  set e := V3.norm (eVec mu r v)
  set n := √(mu / a ^ 3) with hn
  have hn0 : 0 < n := Real.sqrt_pos.mpr (by positivity)
  obtain ⟨M, -, -, -, hmean, -⟩ := C36_elliptic e ν hee
  obtain ⟨X, hX⟩ := ell_anomaly hee n
  have hPM := elliptic_motion (i := i) (Ω := Ω) (ω := ω) hmu hA0 hee hX
  have hs := elliptic_state hmu hA0 hee hPM hmean
  rw [hst, ← hn] at hs
  have hpq : p = (fun t => ellPos a e (periDir i Ω ω).toE (alongDir i Ω ω).toE (X (t + (M / n - t0)))) ∧
      q = fun t => ellVel mu a e (periDir i Ω ω).toE (alongDir i Ω ω).toE (X (t + (M / n - t0))) := by
    have := motion_unique (Univ.Props.shift_motion hPM.1 (M / n - t0)) hm (fun t => hPM.2.1 _) (t0 := t0)
      (by rw [hp]; simp only [add_sub_cancel]; exact hs.1.symm) (by rw [hq]; simp only [add_sub_cancel]; exact hs.2.symm)
    exact ⟨this.1.symm, this.2.symm⟩
  have hnorm : ∀ t, ‖p t‖ = a * (1 - e * cos (X (t + (M / n - t0)))) := fun t => by
    obtain ⟨hP, hQ, hPQ⟩ := inner_frame i Ω ω
    rw [hpq.1]
    exact ellPos_norm hA0 hee hP hQ hPQ _
  refine ⟨_, _, _, rfl, rfl, rfl, by positivity, ?_, ?_, ?_, ?_, ?_, rfl, degrees_turn hν, ?_, ?_⟩
  · unfold degrees; field_simp; norm_num
  · intro t
    have := C98_period hmu hA0 hee hPM (t + (M / n - t0))
    rw [hpq.1, hpq.2]
    simp only [← hn] at this ⊢
    rw [show t + 2 * π / n + (M / n - t0) = t + (M / n - t0) + 2 * π / n by ring]
    exact this
  · intro t
    rw [hnorm]
    have h1 := Real.neg_one_le_cos (X (t + (M / n - t0)))
    have h2 := Real.cos_le_one (X (t + (M / n - t0)))
    constructor
    · refine mul_le_mul_of_nonneg_left ?_ hA0.le
      nlinarith
    · refine mul_le_mul_of_nonneg_left ?_ hA0.le
      nlinarith
  · refine ⟨t0 - M / n, ?_⟩
    rw [hnorm, show t0 - M / n + (M / n - t0) = 0 by ring,
      show X 0 = 0 from (ell_strictMono hee).injective (show X 0 - e * sin (X 0) = 0 - e * sin 0 by rw [hX]; simp), Real.cos_zero, mul_one]
  · refine ⟨π / n + (t0 - M / n), ?_⟩
    rw [hnorm, show π / n + (t0 - M / n) + (M / n - t0) = π / n by ring,
      show X (π / n) = π from (ell_strictMono hee).injective (show X (π / n) - e * sin (X (π / n)) = π - e * sin π by
        rw [hX, Real.sin_pi]; field_simp; ring), Real.cos_pi]
    ring
  · rw [radians_degrees]
    have hR := norm_pos' (ne_zero_of_cross (inclined_ne hI))
    obtain ⟨-, -, h3⟩ := state_elements (i := i) (Ω := Ω) (ω := ω) hmu (mul_pos hA0 (show 0 < 1 - e ^ 2 by nlinarith)) hcos
    rw [hst] at h3
    have hd := eVec_dot hmu (inclined_ne hI)
    have h4 : V3.norm r * (1 + e * cos ν) = a * (1 - e ^ 2) := by rw [h3]; field_simp
    rw [z3 he1.ne] at h4
    have h5 : V3.norm (V3.cross r v) ^ 2 = mu * (V3.norm r * (1 + e * cos ν)) := by rw [h4]; field_simp
    rw [h5] at hd
    exact mul_left_cancel₀ hmu.ne' (by linear_combination hd)
  · rw [radians_degrees]; exact hsin

/-! ### states without elements -/

/-- C99 fails for orbits in the plane of reference: for every such orbit that is not circular the argument of periapsis is NaN,
although the node has been set to zero, and so there are neither Keplerian nor cometary elements. -/
theorem C99_planar_false {mu : ℝ} {r v : V3} (t0 : ℝ) (hmu : 0 < mu) (hr : r.z = 0) (hv : v.z = 0) (h : V3.cross r v ≠ ⟨0, 0, 0⟩)
    (he : 1e-15 ≤ V3.norm (laplaceVec mu r v)) :
    (cartesianToKeplerian r v t0 mu).ap = none ∧ six (cartesianToKeplerian r v t0 mu) = none ∧
    cometary (cartesianToKeplerian r v t0 mu) = none := by
  rw [← eVec_laplace hmu (norm_pos' (ne_zero_of_cross h))] at he
  have he0 : 0 < V3.norm (eVec mu r v) := lt_of_lt_of_le (by norm_num) he
  have hN : V3.norm (nodeVec (V3.cross r v)) = 0 := by
    rw [V3.norm_eq_zero]
    simp only [nodeVec, V3.cross, V3.mk.injEq, hr, hv]
    refine ⟨?_, ?_, ?_⟩ <;> ring
  have hap : (cartesianToKeplerian r v t0 mu).ap = none := by
    unfold cartesianToKeplerian anglesOf
    simp only
    rw [hN, zero_mul, acosDiv_zero, if_neg]
    · rfl
    · rw [abs_of_pos he0]; exact not_lt.mpr he
  refine ⟨hap, ?_, ?_⟩
  · unfold six
    rw [hap]
    cases (cartesianToKeplerian r v t0 mu).a <;> cases (cartesianToKeplerian r v t0 mu).i <;>
      cases (cartesianToKeplerian r v t0 mu).raan <;> rfl
  · unfold cometary
    rw [hap]
    cases (cartesianToKeplerian r v t0 mu).i <;> cases (cartesianToKeplerian r v t0 mu).raan <;> rfl

/-- C99 fails for circular orbits: for every one of them the true anomaly, the mean anomaly and the time of periapsis are NaN,
although the argument of periapsis has been set to zero. -/
theorem C99_circular_false {mu : ℝ} {r v : V3} (t0 : ℝ) (hmu : 0 < mu) (h : V3.cross r v ≠ ⟨0, 0, 0⟩)
    (he : laplaceVec mu r v = ⟨0, 0, 0⟩) :
    (cartesianToKeplerian r v t0 mu).nu = none ∧ (cartesianToKeplerian r v t0 mu).m = none ∧
    (cartesianToKeplerian r v t0 mu).ap = some 0 ∧
    six (cartesianToKeplerian r v t0 mu) = none ∧ cometary (cartesianToKeplerian r v t0 mu) = none := by
  rw [← eVec_laplace hmu (norm_pos' (ne_zero_of_cross h))] at he
  have he0 : V3.norm (eVec mu r v) = 0 := V3.norm_eq_zero.mpr he
  have hnu : (anglesOf mu r v).nu = none := by
    unfold anglesOf
    simp only
    rw [he0, zero_mul, acosDiv_zero]
    rfl
  have hm : (cartesianToKeplerian r v t0 mu).m = none := by
    unfold cartesianToKeplerian
    simp only [hnu]
    rfl
  have htp : (cartesianToKeplerian r v t0 mu).tp = none := by
    unfold cartesianToKeplerian
    simp only [hnu]
    rfl
  refine ⟨by unfold cartesianToKeplerian; simp only [hnu]; rfl, hm, ?_, ?_, ?_⟩
  · unfold cartesianToKeplerian anglesOf
    simp only
    rw [he0, abs_zero, if_pos tolerance_pos]
    simp [degrees]
  · unfold six
    rw [hm]
    cases (cartesianToKeplerian r v t0 mu).a <;> cases (cartesianToKeplerian r v t0 mu).i <;>
      cases (cartesianToKeplerian r v t0 mu).raan <;> cases (cartesianToKeplerian r v t0 mu).ap <;> rfl
  · unfold cometary
    rw [htp]
    cases (cartesianToKeplerian r v t0 mu).i <;> cases (cartesianToKeplerian r v t0 mu).raan <;>
      cases (cartesianToKeplerian r v t0 mu).ap <;> rfl

/-- C99 is false for eccentricities between zero and `1e-15`. The argument of periapsis is set to zero, but the anomaly is still
counted from periapsis: for every such orbit whose periapsis is not at the node, the elements describe another state. -/
theorem C99_nearly_circular_false {mu : ℝ} {r v : V3} (t0 : ℝ) (hmu : 0 < mu) (hI : Inclined r v)
    (he : 0 < V3.norm (laplaceVec mu r v) ∧ V3.norm (laplaceVec mu r v) < 1e-15)
    (hω : (laplaceVec mu r v).z ≠ 0) :
    ∃ k, six (cartesianToKeplerian r v t0 mu) = some k ∧ k.ap = 0 ∧ 0 < k.size ∧
      ∀ p q, PeriapsisMotion mu (k.size * (1 - k.e)) k.e (radians k.i) (radians k.raan) (radians k.ap) p q →
        p (radians k.m / √(mu / k.size ^ 3)) ≠ r.toE ∨ q (radians k.m / √(mu / k.size ^ 3)) ≠ v.toE := by
  rw [← eVec_laplace hmu (norm_pos' (ne_zero_of_cross (inclined_ne hI)))] at he hω
  obtain ⟨he0, he2⟩ := he
  have he1 : V3.norm (eVec mu r v) < 1 := lt_trans he2 (by norm_num)
  have hle : V3.norm (eVec mu r v) ≤ 1 - tolerance := le_trans he2.le (by unfold tolerance; norm_num)
  obtain ⟨A, i, Ω, ω, ν, hA, -, hi, hΩ, hω', hν, -, hd, hst, f1, f2, f3, f4, f5, f6, f7, -⟩ :=
    elements_spec t0 hmu hI he0 (not_parabolic_of_lt hle)
  obtain ⟨M, hM, hM0, hM1, hmean, -⟩ := C36_elliptic _ ν ⟨he0.le, he1⟩
  have hA0 := hA he1
  rw [hM] at f7
  rw [if_pos he2, degrees_zero] at f6
  refine ⟨⟨A, V3.norm (eVec mu r v), degrees i, degrees Ω, 0, degrees M⟩, ?_, rfl, hA0, ?_⟩
  · unfold six
    rw [f1, f3, f4, f5, f6, f7]; rfl
  · intro p q hm
    have hr0 : radians 0 = 0 := by unfold radians; rw [zero_mul]
    simp only [radians_degrees, hr0] at hm ⊢
    by_contra hcon
    rw [not_or, not_not, not_not] at hcon
    have hs := elliptic_state hmu hA0 ⟨he0.le, he1⟩ hm hmean
    have e1 := Univ.Props.toE_injective (hs.1.trans hcon.1)
    have e2 := Univ.Props.toE_injective (hs.2.trans hcon.2)
    have hp0 : 0 < A * (1 - V3.norm (eVec mu r v) ^ 2) := mul_pos hA0 (by nlinarith)
    obtain ⟨-, l1, -⟩ := state_elements (i := i) (Ω := Ω) (ω := 0) hmu hp0 hd
    rw [e1, e2, ← eVec_laplace hmu (norm_pos' (ne_zero_of_cross (inclined_ne hI)))] at l1
    apply hω
    rw [l1]
    simp [V3.smul, periDir, V3.add, nodeDir]

/-! ## C100: cometary elements of a state -/

/-- C100. An inclined ellipse that is not circular: the cometary elements exist, the time of periapsis is the passage nearest to the
epoch, and the orbit with these elements that passes periapsis at that time is in the given state at the epoch. -/
theorem C100_elliptic {mu : ℝ} {r v : V3} (t0 : ℝ) (hmu : 0 < mu) (hI : Inclined r v)
    (he : 1e-15 ≤ V3.norm (laplaceVec mu r v) ∧ V3.norm (laplaceVec mu r v) < 1 - 1e-15) :
    ∃ k, cometary (cartesianToKeplerian r v t0 mu) = some k ∧ 0 < k.size ∧ k.e = V3.norm (laplaceVec mu r v) ∧
      (0 < k.i ∧ k.i < 180) ∧ (0 ≤ k.raan ∧ k.raan < 360) ∧ (0 ≤ k.ap ∧ k.ap < 360) ∧
      t0 - π / √(mu / (k.size / (1 - k.e)) ^ 3) ≤ k.m ∧ k.m < t0 + π / √(mu / (k.size / (1 - k.e)) ^ 3) ∧
      ∀ p q, PeriapsisMotion mu k.size k.e (radians k.i) (radians k.raan) (radians k.ap) p q →
        p (t0 - k.m) = r.toE ∧ q (t0 - k.m) = v.toE := by
  rw [← eVec_laplace hmu (norm_pos' (ne_zero_of_cross (inclined_ne hI)))] at he ⊢
  have he0 : 0 < V3.norm (eVec mu r v) := lt_of_lt_of_le (by norm_num) he.1
  have he1 : V3.norm (eVec mu r v) < 1 := lt_trans he.2 (by norm_num)
  obtain ⟨A, i, Ω, ω, ν, hA, -, hi, hΩ, hω, hν, -, -, hst, f1, f2, f3, f4, f5, f6, -, f8⟩ :=
    elements_spec t0 hmu hI he0 (not_parabolic_of_lt he.2.le)
  obtain ⟨M, hM, hM0, hM1, hmean, -⟩ := C36_elliptic _ ν ⟨he0.le, he1⟩
  have hA0 := hA he1
  have hpi := Real.pi_pos
  rw [hM] at f8
  rw [if_neg (not_lt.mpr he.1)] at f6
  set e := V3.norm (eVec mu r v)
  have hAe : A * (1 - e) / (1 - e) = A := mul_div_cancel_right₀ _ (by linarith)
  set n := √(mu / A ^ 3) with hn
  have hn0 : 0 < n := Real.sqrt_pos.mpr (by positivity)
  have htp : (cartesianToKeplerian r v t0 mu).tp = some (t0 + if M > π then 2 * π / n - M / n else -M / n) := by
    rw [f8]
    simp only [Option.map_some, abs_of_pos hA0, ← hn]
    congr 2
    by_cases h : M > π
    · rw [if_pos ⟨h, he.2⟩, if_pos h]
    · rw [if_neg fun h' => h h'.1, if_neg h]
  refine ⟨⟨A * (1 - e), e, degrees i, degrees Ω, degrees ω, t0 + if M > π then 2 * π / n - M / n else -M / n⟩, ?_,
    mul_pos hA0 (by linarith), rfl, ⟨?_, ?_⟩, degrees_turn hΩ, degrees_turn hω, ?_, ?_, ?_⟩
  · unfold cometary
    rw [f2, f3, f4, f5, f6, htp]
  · rw [← degrees_zero]; exact degrees_lt.mpr (lt_of_lt_of_le (by norm_num) hi.1)
  · rw [← degrees_pi]; exact degrees_lt.mpr hi.2
  · simp only [hAe, ← hn]
    have h1 : 0 < π / n := by positivity
    split
    · have h2 : 0 < (2 * π - M) / n := div_pos (by linarith) hn0
      rw [sub_div] at h2; linarith
    · have h2 : M / n ≤ π / n := div_le_div_of_nonneg_right (by linarith) hn0.le
      rw [neg_div]; linarith
  · simp only [hAe, ← hn]
    have h1 : 0 < π / n := by positivity
    split
    · rename_i h
      have h2 : 2 * π / n - M / n < π / n := by
        rw [← sub_div]; exact div_lt_div_of_pos_right (by linarith) hn0
      linarith
    · have h2 : 0 ≤ M / n := by positivity
      rw [neg_div]; linarith
  · intro p q hm
    simp only [radians_degrees] at hm ⊢
    have hs := elliptic_state hmu hA0 ⟨he0.le, he1⟩ hm hmean
    rw [hst, ← hn] at hs
    split
    · have hper := C98_period hmu hA0 ⟨he0.le, he1⟩ hm (M / n - 2 * π / n)
      rw [← hn, sub_add_cancel] at hper
      rw [show t0 - (t0 + (2 * π / n - M / n)) = M / n - 2 * π / n by ring, ← hper.1, ← hper.2]
      exact ⟨hs.1.symm, hs.2.symm⟩
    · rw [show t0 - (t0 + -M / n) = M / n by ring]
      exact ⟨hs.1.symm, hs.2.symm⟩

/-- C100. There and back by way of cometary elements: the state of the same motion, at most `e tol² / n` away in time. -/
theorem C100_round_trip {mu : ℝ} {r v : V3} (t0 : ℝ) (hmu : 0 < mu) (hI : Inclined r v)
    (he : 1e-15 ≤ V3.norm (laplaceVec mu r v) ∧ V3.norm (laplaceVec mu r v) < 1 - 1e-15) (maxIter : Nat) (tol n M : ℝ) (ht : tol < 1e15)
    (k : Six) (hk : cometary (cartesianToKeplerian r v t0 mu) = some k) (hn : n = √(mu / (k.size / (1 - k.e)) ^ 3))
    (hM : M = if k.m > t0 then 2 * π - (k.m - t0) * n else (t0 - k.m) * n)
    (hconv : (solveIter k.e M maxIter tol).iterations ≤ maxIter) {p q : ℝ → E3} (hm : IsMotion mu p q)
    (hp : p t0 = r.toE) (hq : q t0 = v.toE) :
    ∃ t, (cometaryToCartesian k t0 mu maxIter tol).1.toE = p t ∧ (cometaryToCartesian k t0 mu maxIter tol).2.toE = q t ∧
      |t - t0| ≤ k.e * tol ^ 2 / n := by
  obtain ⟨k', hk', ha, hke, -, -, -, -, -, hmo⟩ := C100_elliptic t0 hmu hI he
  rw [hk] at hk'
  obtain rfl := Option.some.inj hk'
  rw [← hke] at he
  have he0 : 0 ≤ k.e := le_trans (by norm_num) he.1
  obtain ⟨⟨P, Q, hPQ⟩, -⟩ := C98_motion mu k.size k.e (radians k.i) (radians k.raan) (radians k.ap) hmu ha he0
  obtain ⟨t, h2, h3, h4⟩ := C98_cometary k t0 mu hmu ha ⟨he0, he.2.le⟩ hPQ maxIter tol n M hn hM ht hconv
  obtain ⟨m1, m2⟩ := hmo P Q hPQ
  obtain ⟨g1, g2⟩ := motion_unique (Univ.Props.shift_motion hPQ.1 (-k.m)) hm (fun t => hPQ.2.1 _) (t0 := t0)
    (by rw [hp]; exact m1) (by rw [hq]; exact m2)
  refine ⟨t + k.m, ?_, ?_, ?_⟩
  · rw [h2, ← g1]; simp only [add_neg_cancel_right]
  · rw [h3, ← g2]; simp only [add_neg_cancel_right]
  · rw [show t + k.m - t0 = t - (t0 - k.m) by ring]; exact h4

/-- C100. A hyperbola: the time of periapsis is right when the body recedes from periapsis, and too early by `2π / n` when it
approaches. -/
theorem C100_hyperbolic {mu : ℝ} {r v : V3} (t0 : ℝ) (hmu : 0 < mu) (hI : Inclined r v) (he : 1 + 1e-15 ≤ V3.norm (laplaceVec mu r v)) :
    ∃ k, cometary (cartesianToKeplerian r v t0 mu) = some k ∧ 0 < k.size ∧ k.e = V3.norm (laplaceVec mu r v) ∧
      (0 < k.i ∧ k.i < 180) ∧ (0 ≤ k.raan ∧ k.raan < 360) ∧ (0 ≤ k.ap ∧ k.ap < 360) ∧
      ∀ p q, PeriapsisMotion mu k.size k.e (radians k.i) (radians k.raan) (radians k.ap) p q →
        p (t0 - (k.m + if V3.dot r v < 0 then 2 * π / √(mu / (k.size / (k.e - 1)) ^ 3) else 0)) = r.toE ∧
        q (t0 - (k.m + if V3.dot r v < 0 then 2 * π / √(mu / (k.size / (k.e - 1)) ^ 3) else 0)) = v.toE := by
  rw [← eVec_laplace hmu (norm_pos' (ne_zero_of_cross (inclined_ne hI)))] at he ⊢
  have he1 : 1 < V3.norm (eVec mu r v) := lt_of_lt_of_le (by norm_num) he
  have he0 : 0 < V3.norm (eVec mu r v) := by linarith
  obtain ⟨A, i, Ω, ω, ν, -, hA, hi, hΩ, hω, hν, hsin, hcos, hst, f1, f2, f3, f4, f5, f6, -, f8⟩ :=
    elements_spec t0 hmu hI he0 (not_parabolic_of_gt he)
  obtain ⟨M, hmean, -, hsgn, hM⟩ := C36_hyperbolic _ ν he1 hcos
  have hA0 := hA he1
  rw [hM] at f8
  rw [if_neg (by linarith)] at f6
  set e := V3.norm (eVec mu r v)
  have hAe : A * (1 - e) / (e - 1) = -A := by
    have : e - 1 ≠ 0 := by linarith
    field_simp; ring
  have hA' : 0 < -A := by linarith
  set n := √(mu / (-A) ^ 3) with hn
  have hn0 : 0 < n := Real.sqrt_pos.mpr (by positivity)
  have htp : (cartesianToKeplerian r v t0 mu).tp = some (t0 + -(if sin ν < 0 then M + 2 * π else M) / n) := by
    rw [f8]
    simp only [Option.map_some, abs_of_neg hA0, ← hn]
    rw [if_neg]
    intro h'
    linarith [h'.2, tolerance_pos]
  refine ⟨⟨A * (1 - e), e, degrees i, degrees Ω, degrees ω, t0 + -(if sin ν < 0 then M + 2 * π else M) / n⟩, ?_,
    mul_pos_of_neg_of_neg hA0 (by linarith), rfl, ⟨?_, ?_⟩, degrees_turn hΩ, degrees_turn hω, ?_⟩
  · unfold cometary
    rw [f2, f3, f4, f5, f6, htp]
  · rw [← degrees_zero]; exact degrees_lt.mpr (lt_of_lt_of_le (by norm_num) hi.1)
  · rw [← degrees_pi]; exact degrees_lt.mpr hi.2
  · intro p q hm
    simp only [radians_degrees, hAe, ← hn] at hm ⊢
    rw [show A * (1 - e) = -A * (e - 1) by ring] at hm
    obtain ⟨H, hH, hMH⟩ := hmean
    have hs := hyperbolic_state hmu hA' he1 hm hH
    rw [neg_neg, hst, ← hMH, ← hn] at hs
    have : t0 - (t0 + -(if sin ν < 0 then M + 2 * π else M) / n + if V3.dot r v < 0 then 2 * π / n else 0) = M / n := by
      by_cases h : sin ν < 0
      · rw [if_pos h, if_pos (hsin.mp h)]; ring
      · rw [if_neg h, if_neg fun h' => h (hsin.mpr h')]; ring
    rw [this]
    exact ⟨hs.1.symm, hs.2.1.symm⟩

/-- C100 is false for every hyperbola before periapsis: the orbit with the returned elements is elsewhere at the epoch. -/
theorem C100_hyperbolic_false {mu : ℝ} {r v : V3} (t0 : ℝ) (hmu : 0 < mu) (hI : Inclined r v) (he : 1 + 1e-15 ≤ V3.norm (laplaceVec mu r v))
    (hneg : V3.dot r v < 0) :
    ∃ k, cometary (cartesianToKeplerian r v t0 mu) = some k ∧
      ∀ p q, PeriapsisMotion mu k.size k.e (radians k.i) (radians k.raan) (radians k.ap) p q → p (t0 - k.m) ≠ r.toE := by
  obtain ⟨k, hk, ha, hke, -, -, -, hmo⟩ := C100_hyperbolic t0 hmu hI he
  refine ⟨k, hk, fun p q hm h => ?_⟩
  rw [← hke] at he
  have he1 : 1 < k.e := lt_of_lt_of_le (by norm_num) he
  have h1 := (hmo p q hm).1
  rw [if_pos hneg] at h1
  have hA : 0 < k.size / (k.e - 1) := div_pos ha (by linarith)
  have hn : 0 < √(mu / (k.size / (k.e - 1)) ^ 3) := Real.sqrt_pos.mpr (by positivity)
  have h2 := hyperbolic_injective hmu ha he1 hm (h.trans h1.symm)
  have h3 : 0 < 2 * π / √(mu / (k.size / (k.e - 1)) ^ 3) := div_pos (by linarith [Real.pi_pos]) hn
  linarith

/-! ### the hypotheses are met -/

/-- The states used below: position `(1, 0, 0)`, velocity in the plane of `x` and `z`. -/
theorem witness (a b : ℝ) (hb : b ≠ 0) :
    Inclined ⟨1, 0, 0⟩ ⟨a, 0, b⟩ ∧ laplaceVec 1 ⟨1, 0, 0⟩ ⟨a, 0, b⟩ = ⟨b ^ 2 - 1, 0, -(a * b)⟩ ∧
    V3.dot ⟨1, 0, 0⟩ ⟨a, 0, b⟩ = a := by
  have hc : V3.cross ⟨1, 0, 0⟩ ⟨a, 0, b⟩ = ⟨0, -b, 0⟩ := by
    simp only [V3.cross, V3.mk.injEq]; refine ⟨?_, ?_, ?_⟩ <;> ring
  have hn : V3.norm ⟨1, 0, 0⟩ = 1 := by simp [V3.norm]
  refine ⟨⟨?_, ?_⟩, ?_, by simp [V3.dot]⟩
  · rw [hc, zero_div, Real.arccos_zero]
    linarith [Real.pi_gt_three, show (1e-15 : ℝ) < 1 by norm_num]
  · rw [hc]; simp only
    have : 0 < b ^ 2 := by positivity
    nlinarith
  · unfold laplaceVec
    rw [hc, hn]
    simp only [V3.sub, V3.smul, V3.cross, V3.mk.injEq]
    refine ⟨?_, ?_, ?_⟩ <;> ring

example : Inclined ⟨1, 0, 0⟩ ⟨0, 0, 6 / 5⟩ ∧ 1e-15 ≤ V3.norm (laplaceVec 1 ⟨1, 0, 0⟩ ⟨0, 0, 6 / 5⟩) ∧
    V3.norm (laplaceVec 1 ⟨1, 0, 0⟩ ⟨0, 0, 6 / 5⟩) < 1 - 1e-15 := by
  obtain ⟨h1, h2, -⟩ := witness 0 (6 / 5) (by norm_num)
  have : V3.norm (laplaceVec 1 ⟨1, 0, 0⟩ ⟨0, 0, 6 / 5⟩) = 11 / 25 := by
    rw [h2]
    unfold V3.norm
    rw [show (((6 : ℝ) / 5) ^ 2 - 1) * ((6 / 5) ^ 2 - 1) + 0 * 0 + -(0 * (6 / 5)) * -(0 * (6 / 5)) = (11 / 25) ^ 2 by norm_num,
      Real.sqrt_sq (by norm_num)]
  rw [this]
  exact ⟨h1, by norm_num, by norm_num⟩

example : Inclined ⟨1, 0, 0⟩ ⟨-1, 0, 2⟩ ∧ 1 + 1e-15 ≤ V3.norm (laplaceVec 1 ⟨1, 0, 0⟩ ⟨-1, 0, 2⟩) ∧
    V3.dot ⟨1, 0, 0⟩ ⟨-1, 0, 2⟩ < 0 := by
  obtain ⟨h1, h2, h3⟩ := witness (-1) 2 (by norm_num)
  refine ⟨h1, ?_, by rw [h3]; norm_num⟩
  rw [h2]
  unfold V3.norm
  exact Real.le_sqrt_of_sq_le (by norm_num)

example : 0 < V3.norm (laplaceVec 1 ⟨1, 0, 0⟩ ⟨1e-16, 0, 1⟩) ∧ V3.norm (laplaceVec 1 ⟨1, 0, 0⟩ ⟨1e-16, 0, 1⟩) < 1e-15 ∧
    (laplaceVec 1 ⟨1, 0, 0⟩ ⟨1e-16, 0, 1⟩).z ≠ 0 ∧ Inclined ⟨1, 0, 0⟩ ⟨1e-16, 0, 1⟩ := by
  obtain ⟨h1, h2, h3⟩ := witness 1e-16 1 (by norm_num)
  have : V3.norm (laplaceVec 1 ⟨1, 0, 0⟩ ⟨1e-16, 0, 1⟩) = 1e-16 := by
    rw [h2]
    unfold V3.norm
    rw [show ((1 : ℝ) ^ 2 - 1) * (1 ^ 2 - 1) + 0 * 0 + -(1e-16 * 1) * -(1e-16 * 1) = 1e-16 ^ 2 by norm_num,
      Real.sqrt_sq (by norm_num)]
  rw [this, h2]
  exact ⟨by norm_num, by norm_num, by norm_num, h1⟩

example : laplaceVec 1 ⟨1, 0, 0⟩ ⟨0, 0, 1⟩ = ⟨0, 0, 0⟩ := by
  rw [(witness 0 1 (by norm_num)).2.1]
  simp

example : V3.norm (laplaceVec 1 ⟨1, 0, 0⟩ ⟨0, 6 / 5, 0⟩) = 11 / 25 := by
  have hn : V3.norm ⟨1, 0, 0⟩ = 1 := by simp [V3.norm]
  have : laplaceVec 1 ⟨1, 0, 0⟩ ⟨0, 6 / 5, 0⟩ = ⟨11 / 25, 0, 0⟩ := by
    unfold laplaceVec
    rw [hn]
    simp only [V3.sub, V3.smul, V3.cross, V3.mk.injEq]
    refine ⟨?_, ?_, ?_⟩ <;> norm_num
  rw [this]
  unfold V3.norm
  rw [show (11 / 25 : ℝ) * (11 / 25) + 0 * 0 + 0 * 0 = (11 / 25) ^ 2 by norm_num, Real.sqrt_sq (by norm_num)]

/-- A state at apoapsis whose round trip stops. -/
example : ∃ r v k, Inclined r v ∧ V3.norm (laplaceVec 1 r v) = 1 / 2 ∧ six (cartesianToKeplerian r v 0 1) = some k ∧
    (solveIter k.e (radians k.m) 100 1e-15).iterations ≤ 100 := by
  have he : (0 : ℝ) ≤ 1 / 2 ∧ (1 / 2 : ℝ) < 1 := by norm_num
  obtain ⟨hit, hmean⟩ := apoapsis_run (1 / 2) he
  obtain ⟨⟨p, q, hm⟩, -⟩ := C98_motion 1 (1 * (1 - 1 / 2)) (1 / 2) (radians 90) (radians 0) (radians 0) (by norm_num) (by norm_num) he.1
  have hs := elliptic_state (mu := 1) (a := 1) (by norm_num) (by norm_num) he hm hmean
  have hr180 : radians 180 = π := by rw [← degrees_pi, radians_degrees]
  have hr90 : radians 90 = π / 2 := by unfold radians; ring
  have h90 : 1e-15 ≤ radians 90 := by rw [hr90]; linarith [Real.pi_gt_three, show (1e-15 : ℝ) < 1 by norm_num]
  obtain ⟨h1, h2⟩ := state_inclined (mu := 1) (p := 1 * (1 - (1 / 2) ^ 2)) (e := 1 / 2) (i := radians 90) (Ω := radians 0) (ω := radians 0)
    (ν := solveKepler (1 / 2) π 100 1e-15) (by norm_num) (by norm_num) (by norm_num) (ell_pos' he _)
    ⟨h90, by rw [hr90]; linarith [Real.pi_pos]⟩
  refine ⟨_, _, ⟨1, 1 / 2, 90, 0, 0, 180⟩, h1, h2, ?_, by simp only; rw [hr180]; exact hit⟩
  exact C99_inverse ⟨1, 1 / 2, 90, 0, 0, 180⟩ 0 1 (by norm_num) (by norm_num) ⟨by norm_num, by norm_num⟩ ⟨h90, by norm_num⟩
    (by norm_num) (by norm_num) (by norm_num) hm _ _ (by rw [hs.1, hr180]) (by rw [hs.2, hr180])

end Verif.Kep.Props
