import Verif.Kep.AnomalyProps
import Verif.Univ.Motion

/-! # Motion on a conic in terms of the anomalies -/

namespace Verif.Kep

open Real Verif.Univ

/-! ### orientation -/

theorem frame (i Ω ω : ℝ) :
    V3.dot (periDir i Ω ω) (periDir i Ω ω) = 1 ∧ V3.dot (alongDir i Ω ω) (alongDir i Ω ω) = 1 ∧
    V3.dot (periDir i Ω ω) (alongDir i Ω ω) = 0 ∧ V3.cross (periDir i Ω ω) (alongDir i Ω ω) = normalDir i Ω := by
  have h1 := Real.sin_sq_add_cos_sq i
  have h2 := Real.sin_sq_add_cos_sq Ω
  have h3 := Real.sin_sq_add_cos_sq ω
  have c1 : cos i ^ 2 = 1 - sin i ^ 2 := by linarith
  have c2 : cos Ω ^ 2 = 1 - sin Ω ^ 2 := by linarith
  have c3 : cos ω ^ 2 = 1 - sin ω ^ 2 := by linarith
  have hN : V3.dot (nodeDir Ω) (nodeDir Ω) = 1 := by simp only [V3.dot, nodeDir]; linear_combination h2
  have hW : V3.dot (normalDir i Ω) (normalDir i Ω) = 1 := by
    simp only [V3.dot, normalDir]; linear_combination sin i ^ 2 * h2 + h1
  have hNW : V3.dot (nodeDir Ω) (normalDir i Ω) = 0 := by simp only [V3.dot, nodeDir, normalDir]; ring
  have hWP : V3.dot (normalDir i Ω) (periDir i Ω ω) = 0 := by
    have : V3.dot (normalDir i Ω) (periDir i Ω ω) = cos ω * V3.dot (nodeDir Ω) (normalDir i Ω) := by
      simp only [V3.dot, periDir, V3.add, V3.smul, V3.cross]; ring
    rw [this, hNW, mul_zero]
  have hPP : V3.dot (periDir i Ω ω) (periDir i Ω ω) = 1 := by
    have : V3.dot (periDir i Ω ω) (periDir i Ω ω) = cos ω ^ 2 * V3.dot (nodeDir Ω) (nodeDir Ω) +
        sin ω ^ 2 * (V3.dot (normalDir i Ω) (normalDir i Ω) * V3.dot (nodeDir Ω) (nodeDir Ω) -
          V3.dot (nodeDir Ω) (normalDir i Ω) ^ 2) := by
      simp only [V3.dot, periDir, V3.add, V3.smul, V3.cross]; ring
    rw [this, hN, hW, hNW]; linear_combination h3
  refine ⟨hPP, ?_, ?_, ?_⟩
  · have : V3.dot (alongDir i Ω ω) (alongDir i Ω ω) = V3.dot (normalDir i Ω) (normalDir i Ω) * V3.dot (periDir i Ω ω) (periDir i Ω ω) -
        V3.dot (normalDir i Ω) (periDir i Ω ω) ^ 2 := by
      simp only [V3.dot, alongDir, V3.cross]; ring
    rw [this, hPP, hW, hWP]; ring
  · simp only [V3.dot, alongDir, V3.cross]; ring
  · have : V3.cross (periDir i Ω ω) (alongDir i Ω ω) = V3.sub (V3.smul (V3.dot (periDir i Ω ω) (periDir i Ω ω)) (normalDir i Ω))
        (V3.smul (V3.dot (normalDir i Ω) (periDir i Ω ω)) (periDir i Ω ω)) := by
      simp only [V3.dot, alongDir, V3.cross, V3.sub, V3.smul, V3.mk.injEq]
      refine ⟨?_, ?_, ?_⟩ <;> ring
    rw [this, hPP, hWP]
    ext <;> simp [V3.sub, V3.smul]

theorem rotate_eq (i Ω ω a b : ℝ) :
    rotate i Ω ω ⟨a, b, 0⟩ = V3.add (V3.smul a (periDir i Ω ω)) (V3.smul b (alongDir i Ω ω)) := by
  have h1 := Real.sin_sq_add_cos_sq i
  have h2 := Real.sin_sq_add_cos_sq Ω
  simp only [rotate, periDir, alongDir, V3.add, V3.smul, V3.cross, nodeDir, normalDir, V3.mk.injEq]
  refine ⟨?_, ?_, ?_⟩
  · linear_combination cos Ω * sin ω * b * sin i ^ 2 * h2 + cos Ω * sin ω * b * h1
  · linear_combination sin Ω * sin ω * b * sin i ^ 2 * h2 + sin Ω * sin ω * b * h1
  · linear_combination (-(cos ω * b * sin i) - a * sin ω * sin i) * h2

theorem norm_comb {P Q : E3} (hP : inner ℝ P P = (1 : ℝ)) (hQ : inner ℝ Q Q = (1 : ℝ)) (hPQ : inner ℝ P Q = (0 : ℝ)) (a b : ℝ) :
    ‖a • P + b • Q‖ ^ 2 = a ^ 2 + b ^ 2 := by
  rw [← real_inner_self_eq_norm_sq, inner_add_left, inner_add_right, inner_add_right]
  simp only [inner_smul_left, inner_smul_right, hP, hQ, hPQ, real_inner_comm P Q, conj_trivial]
  ring

/-! ### ellipses -/

/-- A differentiable inverse. -/
theorem deriv_inverse {f f' X : ℝ → ℝ} {n : ℝ} (hn : 0 < n) (hf : ∀ x, HasDerivAt f (f' x) x) (hpos : ∀ x, 0 < f' x)
    (hX : ∀ t, f (X t) = n * t) (t : ℝ) : HasDerivAt X (n / f' (X t)) t := by
  have hS : StrictMono f := strictMono_of_deriv_pos fun x => by rw [(hf x).deriv]; exact hpos x
  have hmono : Monotone X := fun t1 t2 ht => by
    rw [← hS.le_iff_le, hX, hX]
    exact mul_le_mul_of_nonneg_left ht hn.le
  have hsurj : Function.Surjective X := fun x => by
    refine ⟨f x / n, hS.injective ?_⟩
    rw [hX]
    field_simp
  have hc : Continuous X := hmono.continuous_of_surjective hsurj
  have hd : HasDerivAt (fun x => f x / n) (f' (X t) / n) (X t) := (hf _).div_const _
  have := hd.of_local_left_inverse hc.continuousAt (div_pos (hpos _) hn).ne' (Filter.Eventually.of_forall fun y => by
    rw [hX]
    field_simp)
  rwa [inv_div] at this

theorem ell_deriv (e x : ℝ) : HasDerivAt (fun E : ℝ => E - e * sin E) (1 - e * cos x) x :=
  (hasDerivAt_id x).sub ((Real.hasDerivAt_sin x).const_mul e)

/-- The position on an ellipse at eccentric anomaly `E`. -/
noncomputable def ellPos (a e : ℝ) (P Q : E3) (E : ℝ) : E3 := (a * (cos E - e)) • P + (a * √(1 - e ^ 2) * sin E) • Q

/-- The velocity on an ellipse at eccentric anomaly `E`. -/
noncomputable def ellVel (mu a e : ℝ) (P Q : E3) (E : ℝ) : E3 :=
  (a * √(mu / a ^ 3) * (-sin E / (1 - e * cos E))) • P + (a * √(mu / a ^ 3) * √(1 - e ^ 2) * (cos E / (1 - e * cos E))) • Q

theorem ellPos_norm {a e : ℝ} (ha : 0 < a) (he : 0 ≤ e ∧ e < 1) {P Q : E3} (hP : inner ℝ P P = (1 : ℝ)) (hQ : inner ℝ Q Q = (1 : ℝ))
    (hPQ : inner ℝ P Q = (0 : ℝ)) (E : ℝ) : ‖ellPos a e P Q E‖ = a * (1 - e * cos E) := by
  have h1 := ell_pos he E
  refine (pow_left_inj₀ (norm_nonneg _) (by positivity) two_ne_zero).mp ?_
  unfold ellPos
  rw [norm_comb hP hQ hPQ, mul_pow (a * √(1 - e ^ 2)), mul_pow a √(1 - e ^ 2), (sqrt_ell he).1]
  linear_combination a ^ 2 * (1 - e ^ 2) * Real.sin_sq_add_cos_sq E

theorem ell_motion {mu a e : ℝ} (hmu : 0 < mu) (ha : 0 < a) (he : 0 ≤ e ∧ e < 1) {P Q : E3} (hP : inner ℝ P P = (1 : ℝ))
    (hQ : inner ℝ Q Q = (1 : ℝ)) (hPQ : inner ℝ P Q = (0 : ℝ)) {X : ℝ → ℝ} (hX : ∀ t, X t - e * sin (X t) = √(mu / a ^ 3) * t) :
    IsMotion mu (fun t => ellPos a e P Q (X t)) (fun t => ellVel mu a e P Q (X t)) := by
  intro t
  have hn : 0 < √(mu / a ^ 3) := Real.sqrt_pos.mpr (by positivity)
  have hn2 : √(mu / a ^ 3) ^ 2 = mu / a ^ 3 := Real.sq_sqrt (by positivity)
  have hx := deriv_inverse hn (ell_deriv e) (ell_pos he) hX t
  have hR := (ell_pos he (X t)).ne'
  have hnorm := ellPos_norm ha he hP hQ hPQ (X t)
  have hsc := Real.sin_sq_add_cos_sq (X t)
  set n := √(mu / a ^ 3) with hndef
  have dc : HasDerivAt (fun t => cos (X t)) (-sin (X t) * (n / (1 - e * cos (X t)))) t := (Real.hasDerivAt_cos _).comp t hx
  have ds : HasDerivAt (fun t => sin (X t)) (cos (X t) * (n / (1 - e * cos (X t)))) t := (Real.hasDerivAt_sin _).comp t hx
  have dR := (dc.const_mul e).const_sub 1
  have dn : HasDerivAt (fun t => -sin (X t)) (-(cos (X t) * (n / (1 - e * cos (X t))))) t := ds.neg
  constructor
  · refine ((((dc.sub_const e).const_mul a).smul_const P).add ((ds.const_mul (a * √(1 - e ^ 2))).smul_const Q)).congr_deriv ?_
    show _ = ellVel mu a e P Q (X t)
    unfold ellVel
    rw [← hndef]
    congr 2 <;> ring
  · refine ((((dn.div dR hR).const_mul (a * n)).smul_const P).add
      (((dc.div dR hR).const_mul (a * n * √(1 - e ^ 2))).smul_const Q)).congr_deriv ?_
    show _ = -(mu / ‖ellPos a e P Q (X t)‖ ^ 3) • ellPos a e P Q (X t)
    rw [hnorm]
    unfold ellPos
    rw [smul_add, smul_smul, smul_smul]
    have hmu' : mu = n ^ 2 * a ^ 3 := by rw [hn2]; field_simp
    congr 2
    · rw [hmu']
      field_simp
      linear_combination e / (1 - e * cos (X t)) ^ 3 * hsc
    · rw [hmu']
      field_simp
      ring

/-- On every ellipse there is a motion with eccentric anomalies that solve Kepler's equation. -/
theorem ell_anomaly {e : ℝ} (he : 0 ≤ e ∧ e < 1) (n : ℝ) : ∃ X : ℝ → ℝ, ∀ t, X t - e * sin (X t) = n * t := by
  choose X hX using fun t => ell_surjective he (n * t)
  exact ⟨X, hX⟩

theorem ell_state {mu a e i Ω ω ν E : ℝ} (hmu : 0 < mu) (ha : 0 < a) (he : 0 ≤ e ∧ e < 1) (h : EllipticAt e ν E) :
    (stateOfNu mu (a * (1 - e ^ 2)) e i Ω ω ν).1.toE = ellPos a e (periDir i Ω ω).toE (alongDir i Ω ω).toE E ∧
    (stateOfNu mu (a * (1 - e ^ 2)) e i Ω ω ν).2.toE = ellVel mu a e (periDir i Ω ω).toE (alongDir i Ω ω).toE E := by
  have hR := (ell_pos he E).ne'
  have hd := (ell_pos' he ν).ne'
  obtain ⟨hq, hp⟩ := sqrt_ell he
  have hprod : (1 - e * cos E) * (1 + e * cos ν) = 1 - e ^ 2 := by linear_combination e * h.1
  have he2 : (1 - e ^ 2) ≠ 0 := by rw [← hprod]; positivity
  have hs : √(mu / (a * (1 - e ^ 2))) = a * √(mu / a ^ 3) / √(1 - e ^ 2) := by
    rw [show mu / (a * (1 - e ^ 2)) = (a ^ 2 * (mu / a ^ 3)) / (1 - e ^ 2) by field_simp,
      Real.sqrt_div (by positivity), Real.sqrt_mul (by positivity), Real.sqrt_sq ha.le]
  unfold stateOfNu
  simp only [rotate_eq, V3.toE_add, V3.toE_smul]
  unfold ellPos ellVel
  constructor
  · congr 2
    · rw [div_eq_iff hd]; linear_combination a * (1 + e * cos ν) * h.1 - a * cos ν * hprod
    · rw [div_eq_iff hd]; linear_combination a * (1 + e * cos ν) * h.2 - a * sin ν * hprod
  · rw [hs]
    congr 2
    · have : sin ν = √(1 - e ^ 2) * sin E / (1 - e * cos E) := by rw [eq_div_iff hR]; linear_combination h.2
      rw [this]; field_simp
    · have : e + cos ν = √(1 - e ^ 2) ^ 2 * cos E / (1 - e * cos E) := by
        rw [eq_div_iff hR, hq]; linear_combination h.1
      rw [this]; field_simp

/-! ### hyperbolas; `A` is minus the semi-major axis -/

noncomputable def hypPos (A e : ℝ) (P Q : E3) (H : ℝ) : E3 := (A * (e - cosh H)) • P + (A * √(e ^ 2 - 1) * sinh H) • Q

noncomputable def hypVel (mu A e : ℝ) (P Q : E3) (H : ℝ) : E3 :=
  (A * √(mu / A ^ 3) * (-sinh H / (e * cosh H - 1))) • P + (A * √(mu / A ^ 3) * √(e ^ 2 - 1) * (cosh H / (e * cosh H - 1))) • Q

theorem hypPos_norm {A e : ℝ} (ha : 0 < A) (he : 1 < e) {P Q : E3} (hP : inner ℝ P P = (1 : ℝ)) (hQ : inner ℝ Q Q = (1 : ℝ))
    (hPQ : inner ℝ P Q = (0 : ℝ)) (H : ℝ) : ‖hypPos A e P Q H‖ = A * (e * cosh H - 1) := by
  have h1 := hyp_pos he H
  refine (pow_left_inj₀ (norm_nonneg _) (by positivity) two_ne_zero).mp ?_
  unfold hypPos
  rw [norm_comb hP hQ hPQ, mul_pow (A * √(e ^ 2 - 1)), mul_pow A √(e ^ 2 - 1), (sqrt_hyp he).1]
  linear_combination -A ^ 2 * (e ^ 2 - 1) * Real.cosh_sq H

theorem hyp_motion {mu A e : ℝ} (hmu : 0 < mu) (ha : 0 < A) (he : 1 < e) {P Q : E3} (hP : inner ℝ P P = (1 : ℝ))
    (hQ : inner ℝ Q Q = (1 : ℝ)) (hPQ : inner ℝ P Q = (0 : ℝ)) {X : ℝ → ℝ} (hX : ∀ t, e * sinh (X t) - X t = √(mu / A ^ 3) * t) :
    IsMotion mu (fun t => hypPos A e P Q (X t)) (fun t => hypVel mu A e P Q (X t)) := by
  intro t
  have hn : 0 < √(mu / A ^ 3) := Real.sqrt_pos.mpr (by positivity)
  have hn2 : √(mu / A ^ 3) ^ 2 = mu / A ^ 3 := Real.sq_sqrt (by positivity)
  have hx := deriv_inverse hn (hyp_deriv e) (hyp_pos he) hX t
  have hR := (hyp_pos he (X t)).ne'
  have hnorm := hypPos_norm ha he hP hQ hPQ (X t)
  have hsc := Real.cosh_sq (X t)
  set n := √(mu / A ^ 3) with hndef
  have dc : HasDerivAt (fun t => cosh (X t)) (sinh (X t) * (n / (e * cosh (X t) - 1))) t := (Real.hasDerivAt_cosh _).comp t hx
  have ds : HasDerivAt (fun t => sinh (X t)) (cosh (X t) * (n / (e * cosh (X t) - 1))) t := (Real.hasDerivAt_sinh _).comp t hx
  have dR := (dc.const_mul e).sub_const 1
  have dn : HasDerivAt (fun t => -sinh (X t)) (-(cosh (X t) * (n / (e * cosh (X t) - 1)))) t := ds.neg
  constructor
  · refine ((((dc.const_sub e).const_mul A).smul_const P).add ((ds.const_mul (A * √(e ^ 2 - 1))).smul_const Q)).congr_deriv ?_
    show _ = hypVel mu A e P Q (X t)
    unfold hypVel
    rw [← hndef]
    congr 2 <;> ring
  · refine ((((dn.div dR hR).const_mul (A * n)).smul_const P).add
      (((dc.div dR hR).const_mul (A * n * √(e ^ 2 - 1))).smul_const Q)).congr_deriv ?_
    show _ = -(mu / ‖hypPos A e P Q (X t)‖ ^ 3) • hypPos A e P Q (X t)
    rw [hnorm]
    unfold hypPos
    rw [smul_add, smul_smul, smul_smul]
    have hmu' : mu = n ^ 2 * A ^ 3 := by rw [hn2]; field_simp
    congr 2
    · rw [hmu']
      field_simp
      linear_combination -e / (e * cosh (X t) - 1) ^ 3 * hsc
    · rw [hmu']
      field_simp
      ring

theorem hyp_anomaly {e : ℝ} (he : 1 < e) (n : ℝ) : ∃ X : ℝ → ℝ, ∀ t, e * sinh (X t) - X t = n * t := by
  choose X hX using fun t => hyp_surjective he (n * t)
  exact ⟨X, hX⟩

theorem hyp_state {mu A e i Ω ω ν H : ℝ} (hmu : 0 < mu) (ha : 0 < A) (he : 1 < e) (h : HyperbolicAt e ν H) :
    (stateOfNu mu (-A * (1 - e ^ 2)) e i Ω ω ν).1.toE = hypPos A e (periDir i Ω ω).toE (alongDir i Ω ω).toE H ∧
    (stateOfNu mu (-A * (1 - e ^ 2)) e i Ω ω ν).2.toE = hypVel mu A e (periDir i Ω ω).toE (alongDir i Ω ω).toE H := by
  have hR := (hyp_pos he H).ne'
  have hd := (hyperbolic_range he h).ne'
  obtain ⟨hq, hp⟩ := sqrt_hyp he
  have hprod : (e * cosh H - 1) * (1 + e * cos ν) = e ^ 2 - 1 := by linear_combination e * h.1
  have he2 : (0 : ℝ) < e ^ 2 - 1 := by nlinarith
  have hs : √(mu / (-A * (1 - e ^ 2))) = A * √(mu / A ^ 3) / √(e ^ 2 - 1) := by
    rw [show mu / (-A * (1 - e ^ 2)) = (A ^ 2 * (mu / A ^ 3)) / (e ^ 2 - 1) by
        rw [show -A * (1 - e ^ 2) = A * (e ^ 2 - 1) by ring]; field_simp,
      Real.sqrt_div (by positivity), Real.sqrt_mul (by positivity), Real.sqrt_sq ha.le]
  unfold stateOfNu
  simp only [rotate_eq, V3.toE_add, V3.toE_smul]
  unfold hypPos hypVel
  constructor
  · congr 2
    · rw [div_eq_iff hd]; linear_combination A * (1 + e * cos ν) * h.1 - A * cos ν * hprod
    · rw [div_eq_iff hd]; linear_combination A * (1 + e * cos ν) * h.2 - A * sin ν * hprod
  · rw [hs]
    congr 2
    · have : sin ν = √(e ^ 2 - 1) * sinh H / (e * cosh H - 1) := by rw [eq_div_iff hR]; linear_combination h.2
      rw [this]; field_simp
    · have : e + cos ν = √(e ^ 2 - 1) ^ 2 * cosh H / (e * cosh H - 1) := by
        rw [eq_div_iff hR, hq]; linear_combination h.1
      rw [this]; field_simp

/-! ### parabolas; `D` is the tangent of half the true anomaly -/

noncomputable def parPos (q : ℝ) (P Q : E3) (D : ℝ) : E3 := (q * (1 - D ^ 2)) • P + (q * (2 * D)) • Q

noncomputable def parVel (mu q : ℝ) (P Q : E3) (D : ℝ) : E3 :=
  (2 * q * √(mu / (2 * q ^ 3)) * (-D / (1 + D ^ 2))) • P + (2 * q * √(mu / (2 * q ^ 3)) * (1 / (1 + D ^ 2))) • Q

theorem parPos_norm {q : ℝ} (hq : 0 < q) {P Q : E3} (hP : inner ℝ P P = (1 : ℝ)) (hQ : inner ℝ Q Q = (1 : ℝ))
    (hPQ : inner ℝ P Q = (0 : ℝ)) (D : ℝ) : ‖parPos q P Q D‖ = q * (1 + D ^ 2) := by
  refine (pow_left_inj₀ (norm_nonneg _) (by positivity) two_ne_zero).mp ?_
  unfold parPos
  rw [norm_comb hP hQ hPQ]
  ring

theorem par_deriv (x : ℝ) : HasDerivAt (fun D : ℝ => D + D ^ 3 / 3) (1 + x ^ 2) x := by
  refine ((hasDerivAt_id x).add ((hasDerivAt_pow 3 x).div_const 3)).congr_deriv ?_
  norm_num

theorem par_motion {mu q : ℝ} (hmu : 0 < mu) (hq : 0 < q) {P Q : E3} (hP : inner ℝ P P = (1 : ℝ))
    (hQ : inner ℝ Q Q = (1 : ℝ)) (hPQ : inner ℝ P Q = (0 : ℝ)) {X : ℝ → ℝ} (hX : ∀ t, X t + X t ^ 3 / 3 = √(mu / (2 * q ^ 3)) * t) :
    IsMotion mu (fun t => parPos q P Q (X t)) (fun t => parVel mu q P Q (X t)) := by
  intro t
  have hn : 0 < √(mu / (2 * q ^ 3)) := Real.sqrt_pos.mpr (by positivity)
  have hn2 : √(mu / (2 * q ^ 3)) ^ 2 = mu / (2 * q ^ 3) := Real.sq_sqrt (by positivity)
  have hx := deriv_inverse hn par_deriv (fun x => by positivity) hX t
  have hR : 1 + X t ^ 2 ≠ 0 := by positivity
  have hnorm := parPos_norm hq hP hQ hPQ (X t)
  set n := √(mu / (2 * q ^ 3)) with hndef
  have d2 : HasDerivAt (fun t => X t ^ 2) (2 * X t * (n / (1 + X t ^ 2))) t := by
    refine (hx.pow 2).congr_deriv ?_
    norm_num
  have dR := d2.const_add 1
  have dn : HasDerivAt (fun t => -X t) (-(n / (1 + X t ^ 2))) t := hx.neg
  constructor
  · refine ((((d2.const_sub 1).const_mul q).smul_const P).add (((hx.const_mul 2).const_mul q).smul_const Q)).congr_deriv ?_
    show _ = parVel mu q P Q (X t)
    unfold parVel
    rw [← hndef]
    congr 2 <;> ring
  · refine ((((dn.div dR hR).const_mul (2 * q * n)).smul_const P).add
      ((((hasDerivAt_const t (1 : ℝ)).div dR hR).const_mul (2 * q * n)).smul_const Q)).congr_deriv ?_
    show _ = -(mu / ‖parPos q P Q (X t)‖ ^ 3) • parPos q P Q (X t)
    rw [hnorm]
    unfold parPos
    rw [smul_add, smul_smul, smul_smul]
    have hmu' : mu = 2 * n ^ 2 * q ^ 3 := by rw [mul_assoc, mul_comm (n ^ 2), ← mul_assoc, hn2]; field_simp
    congr 2
    · rw [hmu']
      field_simp
      ring
    · rw [hmu']
      field_simp
      ring

theorem par_anomaly (n : ℝ) : ∃ X : ℝ → ℝ, ∀ t, X t + X t ^ 3 / 3 = n * t := by
  refine ⟨fun t => tan (solveBarker (n * t / 2) / 2), fun t => ?_⟩
  have := (Props.C37_twice (n * t / 2)).1.2
  rw [this]; ring

theorem par_state {mu q i Ω ω ν M : ℝ} (hmu : 0 < mu) (hq : 0 < q) (h : ParabolicMean ν M) :
    (stateOfNu mu (2 * q) 1 i Ω ω ν).1.toE = parPos q (periDir i Ω ω).toE (alongDir i Ω ω).toE (tan (ν / 2)) ∧
    (stateOfNu mu (2 * q) 1 i Ω ω ν).2.toE = parVel mu q (periDir i Ω ω).toE (alongDir i Ω ω).toE (tan (ν / 2)) := by
  have hc := h.1
  have c1 : cos ν = 2 * cos (ν / 2) ^ 2 - 1 := by rw [← Real.cos_two_mul]; congr 1; ring
  have s1 : sin ν = 2 * sin (ν / 2) * cos (ν / 2) := by rw [← Real.sin_two_mul]; congr 1; ring
  have hsc := Real.sin_sq_add_cos_sq (ν / 2)
  have hT : 1 + (sin (ν / 2) / cos (ν / 2)) ^ 2 = 1 / cos (ν / 2) ^ 2 := by field_simp; linear_combination hsc
  have hs : √(mu / (2 * q)) = q * √(mu / (2 * q ^ 3)) := by
    rw [show mu / (2 * q) = q ^ 2 * (mu / (2 * q ^ 3)) by field_simp, Real.sqrt_mul (by positivity), Real.sqrt_sq hq.le]
  have hd : 1 + 1 * cos ν = 2 * cos (ν / 2) ^ 2 := by rw [c1]; ring
  unfold stateOfNu
  simp only [rotate_eq, V3.toE_add, V3.toE_smul]
  unfold parPos parVel
  rw [hs, hd, Real.tan_eq_sin_div_cos, hT]
  constructor
  · congr 2
    · rw [c1]; field_simp; linear_combination hsc
    · rw [s1]; field_simp
  · congr 2
    · rw [s1]; field_simp
    · rw [c1]; field_simp; ring

end Verif.Kep
