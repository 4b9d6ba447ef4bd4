import Verif.Lambert.Props
import Verif.Lambert.Deriv

/-! # Every motion from one position to the other is a transfer of the solver's family -/

namespace Verif.Lambert

open Verif Verif.Univ Verif.Univ.Props Verif.Lambert.Props

/-- The universal functions at the time of arrival. -/
theorem universal_at {r1 r2 v1 v2 : V3} {mu x : ℝ} {prograde : Bool} (hmu : 0 < mu) (hc : V3.cross r1 r2 ≠ ⟨0, 0, 0⟩)
    (hv : (v1, v2) = velocities mu (geometry r1 r2 prograde) x (computeY x (geometry r1 r2 prograde).ll))
    (hcr : V3.cross r1 v1 ≠ ⟨0, 0, 0⟩) {p q : ℝ → E3} {t0 t : ℝ} (hm : IsMotion mu p q) (hp : p t0 = r1.toE) (hq : q t0 = v1.toE)
    (ha : p (t0 + t) = r2.toE) : ∃ chi, keplerF mu r1 v1 t chi = 0 ∧
      let g := geometry r1 r2 prograde; let y := computeY x g.ll
      U2 (alpha mu r1 v1) chi = g.s * (y - g.ll * x) ^ 2 ∧
      U1 (alpha mu r1 v1) chi = 2 * √(g.s / 2) * (y - g.ll * x) * (x * y + g.ll * (1 - x ^ 2)) := by
  obtain ⟨rho, sg, C, S, F⟩ := geometry_facts r1 r2 hc prograde
  set g := geometry r1 r2 prograde
  obtain ⟨t1, t2, -, t4, t5⟩ := transfer F hmu (x := x)
  rw [← sigma_eq' F hmu, ← norm_r1 F] at t4
  rw [← hv] at t4
  simp only at t4
  obtain ⟨chi, hchi, -⟩ := exists_unique_chi hmu hcr t
  have hchi' : keplerF mu r1 v1 (t0 + t - t0) chi = 0 := by rw [add_sub_cancel_left]; exact hchi
  obtain ⟨a1, -⟩ := C35_newton hmu hcr hm hp hq (t0 + t) hchi'
  obtain ⟨s1, -, -⟩ := state_coeffs hmu hcr hchi'
  rw [← a1] at ha
  have e := toE_injective ha
  rw [s1] at e
  conv at e => rhs; rw [t4]
  have hr1 := norm_pos' (ne_zero_of_cross hc)
  have key : ∀ A B A' B' : ℝ, V3.add (V3.smul A r1) (V3.smul B v1) = V3.add (V3.smul A' r1) (V3.smul B' v1) → A = A' ∧ B = B' := by
    intro A B A' B' h
    have hx := congrArg V3.x h; have hy := congrArg V3.y h; have hz := congrArg V3.z h
    simp only [V3.add, V3.smul] at hx hy hz
    have k1 : ∀ c : ℝ, (c * (V3.cross r1 v1).x = 0 ∧ c * (V3.cross r1 v1).y = 0 ∧ c * (V3.cross r1 v1).z = 0) → c = 0 := by
      intro c ⟨c1, c2, c3⟩
      by_contra hcne
      apply hcr
      ext
      · exact (mul_eq_zero.mp c1).resolve_left hcne
      · exact (mul_eq_zero.mp c2).resolve_left hcne
      · exact (mul_eq_zero.mp c3).resolve_left hcne
    constructor
    · have := k1 (A - A') ⟨by unfold V3.cross; simp only; linear_combination v1.z * hy - v1.y * hz,
        by unfold V3.cross; simp only; linear_combination v1.x * hz - v1.z * hx,
        by unfold V3.cross; simp only; linear_combination v1.y * hx - v1.x * hy⟩
      linarith
    · have := k1 (B - B') ⟨by unfold V3.cross; simp only; linear_combination r1.y * hz - r1.z * hy,
        by unfold V3.cross; simp only; linear_combination r1.z * hx - r1.x * hz,
        by unfold V3.cross; simp only; linear_combination r1.x * hy - r1.y * hx⟩
      linarith
  obtain ⟨q1, q2⟩ := key _ _ _ _ e
  have hU2 : U2 (alpha mu r1 v1) chi = g.s * (computeY x g.ll - g.ll * x) ^ 2 := by
    have : U2 (alpha mu r1 v1) chi / V3.norm r1 = g.s * (computeY x g.ll - g.ll * x) ^ 2 / V3.norm r1 := by linarith
    exact (div_left_inj' hr1.ne').mp this
  refine ⟨chi, hchi, hU2, ?_⟩
  rw [hU2] at q2
  have hsm := (Real.sqrt_pos.mpr hmu).ne'
  have := (div_left_inj' hsm).mp q2
  exact mul_left_cancel₀ hr1.ne' (by linarith)

theorem chi_pos {r v : V3} {mu t chi : ℝ} (hmu : 0 < mu) (hcr : V3.cross r v ≠ ⟨0, 0, 0⟩) (ht : 0 < t)
    (h : keplerF mu r v t chi = 0) : 0 < chi := by
  have hmono := FF_strictMono (norm_pos' (ne_zero_of_cross hcr)) (disc_pos hmu hcr)
  rw [← hmono.lt_iff_lt, FF_zero]
  rw [keplerF_eq] at h
  have := mul_pos (Real.sqrt_pos.mpr hmu) ht
  linarith

/-- The orbit equation. -/
theorem laplace_self {mu : ℝ} {r v : V3} (hr : r ≠ ⟨0, 0, 0⟩) :
    V3.dot (laplace mu (r, v)) r = V3.dot (V3.cross r v) (V3.cross r v) - mu * V3.norm r := by
  have h0 := norm_pos' hr
  have h2 : V3.norm r ^ 2 = r.x * r.x + r.y * r.y + r.z * r.z := by
    unfold V3.norm
    rw [Real.sq_sqrt (by nlinarith [mul_self_nonneg r.x, mul_self_nonneg r.y, mul_self_nonneg r.z])]
  unfold laplace V3.dot V3.cross V3.sub V3.smul
  simp only
  field_simp
  linear_combination mu * h2

/-- The velocity at the first position is determined by the angular momentum and the second position. -/
theorem same_velocity {mu : ℝ} {r1 r2 u v : V3} (hc : V3.cross r1 r2 ≠ ⟨0, 0, 0⟩) (hh : V3.cross r1 u = V3.cross r1 v) {k : ℝ} (hk : k ≠ 0)
    (hv : V3.cross r1 v = V3.smul k (V3.cross r1 r2)) (hl : V3.dot (laplace mu (r1, u)) r2 = V3.dot (laplace mu (r1, v)) r2) : u = v := by
  have hr := ne_zero_of_cross hc
  have h0 : 0 < r1.x * r1.x + r1.y * r1.y + r1.z * r1.z := by
    have := norm_pos' hr
    unfold V3.norm at this
    exact Real.sqrt_pos.mp this
  have hx := congrArg V3.x hh; have hy := congrArg V3.y hh; have hz := congrArg V3.z hh
  simp only [V3.cross] at hx hy hz
  -- the difference is along `r1`
  obtain ⟨c, c1, c2, c3⟩ : ∃ c : ℝ, u.x - v.x = c * r1.x ∧ u.y - v.y = c * r1.y ∧ u.z - v.z = c * r1.z := by
    refine ⟨((u.x - v.x) * r1.x + (u.y - v.y) * r1.y + (u.z - v.z) * r1.z) / (r1.x * r1.x + r1.y * r1.y + r1.z * r1.z), ?_, ?_, ?_⟩
    · rw [div_mul_eq_mul_div, eq_div_iff h0.ne']
      linear_combination r1.z * hy - r1.y * hz
    · rw [div_mul_eq_mul_div, eq_div_iff h0.ne']
      linear_combination r1.x * hz - r1.z * hx
    · rw [div_mul_eq_mul_div, eq_div_iff h0.ne']
      linear_combination r1.y * hx - r1.x * hy
  have hu : u = ⟨v.x + c * r1.x, v.y + c * r1.y, v.z + c * r1.z⟩ := by
    ext <;> simp only <;> linarith
  have hcx := congrArg V3.x hv; have hcy := congrArg V3.y hv; have hcz := congrArg V3.z hv
  simp only [V3.smul] at hcx hcy hcz
  set a := (V3.cross r1 r2).x with hax
  set b := (V3.cross r1 r2).y with hby
  set d := (V3.cross r1 r2).z with hdz
  have hsum : 0 < a * a + b * b + d * d := by
    by_contra hn
    push Not at hn
    apply hc
    ext
    · show a = 0; nlinarith [mul_self_nonneg a, mul_self_nonneg b, mul_self_nonneg d]
    · show b = 0; nlinarith [mul_self_nonneg a, mul_self_nonneg b, mul_self_nonneg d]
    · show d = 0; nlinarith [mul_self_nonneg a, mul_self_nonneg b, mul_self_nonneg d]
  have hmain : c * (k * (a * a + b * b + d * d)) = 0 := by
    have e : V3.dot (laplace mu (r1, v)) r2 - V3.dot (laplace mu (r1, u)) r2 =
        c * ((V3.cross r1 v).x * a + (V3.cross r1 v).y * b + (V3.cross r1 v).z * d) := by
      rw [hu, hax, hby, hdz]
      unfold laplace V3.dot V3.cross V3.sub V3.smul
      simp only
      ring
    rw [hl, sub_self, hcx, hcy, hcz] at e
    linear_combination -e
  have hc0 : c = 0 := (mul_eq_zero.mp hmain).resolve_right (mul_ne_zero hk hsum.ne')
  rw [hu, hc0]
  ext <;> simp

/-- A hyperbola or parabola through the second position before the first reaches it. -/
theorem x_gt {r1 r2 v1 v2 : V3} {mu x : ℝ} {prograde : Bool} (hmu : 0 < mu) (hc : V3.cross r1 r2 ≠ ⟨0, 0, 0⟩)
    (hv : (v1, v2) = velocities mu (geometry r1 r2 prograde) x (computeY x (geometry r1 r2 prograde).ll))
    {chi : ℝ} (hchi : 0 < chi) (hU1 : let g := geometry r1 r2 prograde; let y := computeY x g.ll
      U1 (alpha mu r1 v1) chi = 2 * √(g.s / 2) * (y - g.ll * x) * (x * y + g.ll * (1 - x ^ 2))) : -1 < x := by
  obtain ⟨rho, sg, C, S, F⟩ := geometry_facts r1 r2 hc prograde
  have ha := alpha_eq F hmu (x := x)
  simp only at hU1
  set g := geometry r1 r2 prograde
  rw [← hv] at ha
  simp only at ha
  obtain ⟨hq2, hq⟩ := halfs F
  have he := eta_pos x F.hl
  by_contra hn
  push Not at hn
  have hkap : x * computeY x g.ll + g.ll * (1 - x ^ 2) < 0 := by
    rcases hn.lt_or_eq with hn | hn
    · have h := (psi_hyperbolic (x := -x) (l := -g.ll) (by rw [neg_sq]; exact F.hl) (by linarith)).1
      have hy : computeY (-x) (-g.ll) = computeY x g.ll := by unfold computeY; rw [neg_sq, neg_sq]
      rw [hy] at h
      have := Real.cosh_pos (computePsi (-x) (computeY x g.ll) (-g.ll))
      rw [h] at this
      nlinarith
    · subst hn
      have := y_pos (-1) F.hl
      nlinarith
  have hneg : U1 (alpha mu r1 v1) chi < 0 := by
    rw [hU1]
    exact mul_neg_of_pos_of_neg (by positivity) hkap
  have hs := F.spos
  have hal : alpha mu r1 v1 ≤ 0 := by
    rw [ha]
    exact div_nonpos_of_nonpos_of_nonneg (by nlinarith) hs.le
  rcases hal.lt_or_eq with hal | hal
  · rw [(neg_form hal chi).2.1] at hneg
    have hw := Real.sqrt_pos.mpr (neg_pos.mpr hal)
    have : 0 < Real.sinh (√(-alpha mu r1 v1) * chi) := by rw [Real.sinh_pos_iff]; positivity
    have := div_pos this hw
    linarith
  · rw [hal, (zero_form chi).2.1] at hneg
    linarith

theorem time_unit {g : Geometry} {mu : ℝ} (hmu : 0 < mu) (hs : 0 < g.s) : √mu * √(g.s ^ 3 / (2 * mu)) = g.s * √(g.s / 2) := by
  have hq2 := Real.sq_sqrt (show 0 ≤ g.s / 2 by linarith)
  have hm := Real.sqrt_pos.mpr hmu
  rw [show g.s ^ 3 / (2 * mu) = (g.s * √(g.s / 2) / √mu) ^ 2 by
      rw [div_pow, mul_pow, hq2, Real.sq_sqrt hmu.le]; field_simp, Real.sqrt_sq (by positivity)]
  field_simp

/-- The time of the flight from the universal functions at the time of arrival. -/
theorem time_at {r1 r2 v1 v2 : V3} {mu x : ℝ} {prograde : Bool} (hmu : 0 < mu) (hc : V3.cross r1 r2 ≠ ⟨0, 0, 0⟩)
    (hv : (v1, v2) = velocities mu (geometry r1 r2 prograde) x (computeY x (geometry r1 r2 prograde).ll))
    {chi t : ℝ} (hchi : 0 < chi) (hk : keplerF mu r1 v1 t chi = 0) (hx : -1 < x) :
    let g := geometry r1 r2 prograde; let y := computeY x g.ll
    U2 (alpha mu r1 v1) chi = g.s * (y - g.ll * x) ^ 2 →
    U1 (alpha mu r1 v1) chi = 2 * √(g.s / 2) * (y - g.ll * x) * (x * y + g.ll * (1 - x ^ 2)) →
    ∃ M : ℕ, (x < 1 ∨ M = 0) ∧ t = √(g.s ^ 3 / (2 * mu)) * exactTime x g.ll M := by
  obtain ⟨rho, sg, C, S, F⟩ := geometry_facts r1 r2 hc prograde
  have ha := alpha_eq F hmu (x := x)
  intro g y hU2 hU1
  rw [← hv] at ha
  simp only at ha
  have hs := F.spos
  have hm := Real.sqrt_pos.mpr hmu
  -- it is enough that the two anomalies agree
  have fin : ∀ M : ℕ, (x < 1 ∨ M = 0) → (∀ c, U2 (alpha mu r1 v1) c = U2 (alpha mu r1 v1) chi → U1 (alpha mu r1 v1) c = U1 (alpha mu r1 v1) chi →
      0 < c → (x < 1 → 0 < alpha mu r1 v1 ∧ ∃ psi, 0 < psi ∧ psi < Real.pi ∧ √(alpha mu r1 v1) * c = 2 * (psi + M * Real.pi)) → c = chi) →
      (x < 1 ∨ M = 0) ∧ t = √(g.s ^ 3 / (2 * mu)) * exactTime x g.ll M := by
    intro M hM hcc
    obtain ⟨c, c1, c2, c3, c4, c5⟩ := anomaly_transfer F hmu (M := M) hx hM
    rw [← hv] at c1 c2 c3 c5
    have := hcc c (c1.trans hU2.symm) (c2.trans hU1.symm) c4 c5
    subst this
    rw [keplerF_eq, c3] at hk
    refine ⟨hM, mul_left_cancel₀ hm.ne' ?_⟩
    rw [← mul_assoc, time_unit hmu hs]
    linarith
  rcases lt_trichotomy x 1 with h1 | h1 | h1
  · have hap : 0 < alpha mu r1 v1 := by rw [ha]; exact div_pos (by nlinarith) hs
    have hw := Real.sqrt_pos.mpr hap
    have hpi := Real.pi_pos
    refine ⟨⌊√(alpha mu r1 v1) * chi / (2 * Real.pi)⌋₊, fin _ (Or.inl h1) ?_⟩
    intro c e2 e1 c0 c5
    obtain ⟨-, psi, p0, p1, pe⟩ := c5 h1
    set w := √(alpha mu r1 v1)
    have f1 := Nat.floor_le (show 0 ≤ w * chi / (2 * Real.pi) by positivity)
    have f2 := Nat.lt_floor_add_one (w * chi / (2 * Real.pi))
    set M := ⌊w * chi / (2 * Real.pi)⌋₊
    rw [le_div_iff₀ (by positivity)] at f1
    rw [div_lt_iff₀ (by positivity)] at f2
    rw [(pos_form hap c).2.2.1, (pos_form hap chi).2.2.1, div_left_inj' hap.ne'] at e2
    rw [(pos_form hap c).2.1, (pos_form hap chi).2.1, div_left_inj' hw.ne'] at e1
    have hcos : Real.cos (w * c - w * chi) = 1 := by
      rw [Real.cos_sub, show Real.cos (w * c) = Real.cos (w * chi) by simp only [w]; linarith, show Real.sin (w * c) = Real.sin (w * chi) from e1]
      nlinarith [Real.sin_sq_add_cos_sq (w * chi)]
    obtain ⟨n, hn⟩ := (Real.cos_eq_one_iff _).mp hcos
    have hn0 : n = 0 := by
      have h3 : (n : ℝ) * (2 * Real.pi) < 1 * (2 * Real.pi) := by rw [hn, pe]; nlinarith
      have h4 : -1 * (2 * Real.pi) < (n : ℝ) * (2 * Real.pi) := by rw [hn, pe]; nlinarith
      have h5 := lt_of_mul_lt_mul_right h3 (by positivity)
      have h6 := lt_of_mul_lt_mul_right h4 (by positivity)
      have h7 : n < 1 := by exact_mod_cast h5
      have h8 : -1 < n := by exact_mod_cast h6
      omega
    rw [hn0, Int.cast_zero, zero_mul] at hn
    exact mul_left_cancel₀ hw.ne' (by linarith)
  · refine ⟨0, fin 0 (Or.inr rfl) ?_⟩
    intro c _ e1 _ _
    have hz : alpha mu r1 v1 = 0 := by rw [ha, h1]; norm_num
    rwa [hz, (zero_form c).2.1, (zero_form chi).2.1] at e1
  · refine ⟨0, fin 0 (Or.inr rfl) ?_⟩
    intro c _ e1 _ _
    have hz : alpha mu r1 v1 < 0 := by rw [ha]; exact div_neg_of_neg_of_pos (by nlinarith) hs
    have hw := Real.sqrt_pos.mpr (neg_pos.mpr hz)
    rw [(neg_form hz c).2.1, (neg_form hz chi).2.1, div_left_inj' hw.ne'] at e1
    exact mul_left_cancel₀ hw.ne' (Real.sinh_injective e1)

/-- Every motion from the one position to the other, of the sense asked for, has the velocities the formulas give for some `x`. -/
theorem complete {r1 r2 v1 v2 : V3} {mu t0 t : ℝ} {prograde : Bool} (hmu : 0 < mu) (hc : V3.cross r1 r2 ≠ ⟨0, 0, 0⟩) {p q : ℝ → E3}
    (hm : IsMotion mu p q) (hp : p t0 = r1.toE) (hq : q t0 = v1.toE) (ht : 0 < t) (hp2 : p (t0 + t) = r2.toE) (hq2 : q (t0 + t) = v2.toE)
    {k : ℝ} (hk : V3.cross r1 v1 = V3.smul k (V3.cross r1 r2)) (hk0 : k ≠ 0) (hks : 0 < k ↔ (prograde = true ↔ 0 ≤ (V3.cross r1 r2).z)) :
    ∃ (x : ℝ) (M : ℕ), -1 < x ∧ (x < 1 ∨ M = 0) ∧
      (v1, v2) = velocities mu (geometry r1 r2 prograde) x (computeY x (geometry r1 r2 prograde).ll) ∧
      t = √((geometry r1 r2 prograde).s ^ 3 / (2 * mu)) * exactTime x (geometry r1 r2 prograde).ll M := by
  obtain ⟨rho, sg, C, S, F⟩ := geometry_facts r1 r2 hc prograde
  have hcr : V3.cross r1 v1 ≠ ⟨0, 0, 0⟩ := by
    rw [hk]
    intro e0
    apply hc
    have h1 := congrArg V3.x e0; have h2 := congrArg V3.y e0; have h3 := congrArg V3.z e0
    simp only [V3.smul] at h1 h2 h3
    ext
    · exact (mul_eq_zero.mp h1).resolve_left hk0
    · exact (mul_eq_zero.mp h2).resolve_left hk0
    · exact (mul_eq_zero.mp h3).resolve_left hk0
  have hr1 := ne_zero_of_cross hc
  have hr2 : r2 ≠ ⟨0, 0, 0⟩ := by
    rintro rfl
    apply hc
    simp [V3.cross]
  -- what is conserved by the motion
  obtain ⟨w1, w2⟩ : V3.cross r2 v2 = V3.cross r1 v1 ∧ laplace mu (r2, v2) = laplace mu (r1, v1) := by
    obtain ⟨chi, hchi, -⟩ := exists_unique_chi hmu hcr t
    have hchi' : keplerF mu r1 v1 (t0 + t - t0) chi = 0 := by rw [add_sub_cancel_left]; exact hchi
    obtain ⟨a1, a2⟩ := C35_newton hmu hcr hm hp hq (t0 + t) hchi'
    rw [hp2] at a1
    rw [hq2] at a2
    have b1 := toE_injective a1
    have b2 := toE_injective a2
    have := C35_conserved hmu hr1 hchi' (by rw [b1]; exact hr2)
    have b3 : stateAt mu r1 v1 (t0 + t - t0) chi = (r2, v2) := Prod.ext b1 b2
    rw [b3] at this
    exact ⟨this.2.1, this.2.2.2⟩
  set g := geometry r1 r2 prograde with hg
  have P1 := F.r1pos; have P2 := F.r2pos; have P3 := F.sgpos; have P4 := Real.sqrt_pos.mpr hmu
  obtain ⟨hq2, hqp⟩ := halfs F
  have hl0 : g.ll ≠ 0 := by
    intro h0
    have := F.hS
    rw [h0] at this
    have h1 : g.r1Norm * g.r2Norm * S = 0 := by linarith
    exact F.S0 ((mul_eq_zero.mp h1).resolve_left (by positivity))
  -- the value of `x`
  set Z := k * (g.r1Norm * g.r2Norm * S) / (√mu * √(g.s / 2) * sg) with hZ
  have hkS : 0 < k * S := by
    rcases lt_or_gt_of_ne hk0 with h | h
    · have : ¬ 0 < S := fun h' => absurd (hks.mpr (F.sign.mp h')) (not_lt.mpr h.le)
      exact mul_pos_of_neg_of_neg h (lt_of_le_of_ne (not_lt.mp this) F.S0)
    · exact mul_pos h (F.sign.mpr (hks.mp h))
  have hZp : 0 < Z := by
    rw [hZ, show k * (g.r1Norm * g.r2Norm * S) = g.r1Norm * g.r2Norm * (k * S) by ring]
    positivity
  set x := (Z ^ 2 - 1 + g.ll ^ 2) / (2 * Z * g.ll) with hx
  have hlx : g.ll * x = (Z ^ 2 - 1 + g.ll ^ 2) / (2 * Z) := by rw [hx]; field_simp
  have hyx : computeY x g.ll = Z - g.ll * x := by
    have hp : 0 ≤ Z - g.ll * x := by
      rw [hlx, show Z - (Z ^ 2 - 1 + g.ll ^ 2) / (2 * Z) = (Z ^ 2 + (1 - g.ll ^ 2)) / (2 * Z) by field_simp; ring]
      have := F.hl
      exact div_nonneg (by nlinarith [sq_nonneg Z]) (by positivity)
    have h2 := y_sq (x := x) F.hl
    have h3 : (Z - g.ll * x) ^ 2 = computeY x g.ll ^ 2 := by
      rw [h2]
      have : 2 * Z * (g.ll * x) = Z ^ 2 - 1 + g.ll ^ 2 := by rw [hlx]; field_simp
      linear_combination -this
    exact ((pow_left_inj₀ hp (y_pos x F.hl).le two_ne_zero).mp h3).symm
  have hYZ : computeY x g.ll + g.ll * x = Z := by rw [hyx]; ring
  clear_value x
  obtain ⟨u1, u2, hu⟩ : ∃ u1 u2, (u1, u2) = velocities mu g x (computeY x g.ll) := ⟨_, _, rfl⟩
  obtain ⟨d1, -, d3⟩ := conic_x hmu hc hu
  have e := (cross_eq F hmu (x := x) (computeY x g.ll)).1
  rw [← hu] at e
  simp only at e
  have hkk : √mu * √(g.s / 2) * sg * (computeY x g.ll + g.ll * x) / (g.r1Norm * g.r2Norm * S) = k := by
    have hS := F.S0
    rw [hYZ, hZ]
    field_simp
  rw [hkk] at e
  have hv1 : v1 = u1 := by
    apply same_velocity (mu := mu) hc (hk.trans e.symm) hk0 e
    rw [← w2, ← d3, laplace_self hr2, laplace_self hr2, w1, d1, hk, e]
  have hv2 : v2 = u2 := by
    have e2 : V3.cross r2 u2 = V3.smul (-k) (V3.cross r2 r1) := by
      rw [d1, e]
      ext <;> simp only [V3.smul, V3.cross] <;> ring
    have hc' : V3.cross r2 r1 ≠ ⟨0, 0, 0⟩ := by
      intro h0
      apply hc
      have h1 := congrArg V3.x h0; have h2 := congrArg V3.y h0; have h3 := congrArg V3.z h0
      simp only [V3.cross] at h1 h2 h3
      ext <;> simp only [V3.cross] <;> linarith
    apply same_velocity (mu := mu) hc' (by rw [w1, d1, hk, e]) (neg_ne_zero.mpr hk0) e2
    rw [w2, d3, hv1]
  rw [← hv1, ← hv2] at hu
  obtain ⟨chi, c1, c2, c3⟩ := universal_at hmu hc hu hcr hm hp hq hp2
  have hcp := chi_pos hmu hcr ht c1
  have hx1 := x_gt hmu hc hu hcp c3
  obtain ⟨M, m1, m2⟩ := time_at hmu hc hu hcp c1 hx1 c2 c3
  exact ⟨x, M, hx1, m1, hu, m2⟩

end Verif.Lambert
