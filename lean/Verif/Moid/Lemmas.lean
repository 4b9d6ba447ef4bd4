import Verif.Moid.Model
import Verif.Univ.Props
import Verif.Kep.Lemmas
import Mathlib.Tactic.LinearCombination

/-! Geometry of orbits and of the points that the search uses. -/

namespace Verif.Moid

open Classical Verif V3 Real Univ Univ.Props

/-- Specification: a position of the two-body motion through the state of an orbit. -/
def OnOrbit (o : Orbit) (X : V3) : Prop :=
  ∃ (p q : ℝ → E3) (t : ℝ), IsMotion o.mu p q ∧ p o.t0 = o.r.toE ∧ q o.t0 = o.v.toE ∧ p t = X.toE

/-- Specification: `prop` follows the two-body motion of an orbit. -/
def Follows (prop : Orbit → ℝ → V3) (o : Orbit) : Prop :=
  ∃ p q : ℝ → E3, IsMotion o.mu p q ∧ p o.t0 = o.r.toE ∧ q o.t0 = o.v.toE ∧ ∀ t, (prop o t).toE = p t

/-! ### the projection -/

theorem project_spec {P0 : V3} {o : Orbit} {P : V3} (h : project P0 o = some P) :
    cross o.r o.v ≠ ⟨0, 0, 0⟩ ∧ dot P (cross o.r o.v) = 0 ∧
    ∀ X, dot X (cross o.r o.v) = 0 → norm (sub P0 X) ^ 2 = norm (sub P P0) ^ 2 + norm (sub P X) ^ 2 := by
  unfold project at h
  simp only at h
  split_ifs at h with h0
  rw [Option.some.injEq] at h
  have hn := norm_sq (cross o.r o.v)
  generalize cross o.r o.v = c at *
  refine ⟨fun hc => h0 (norm_eq_zero.mpr hc), ?_, ?_⟩
  · have e : dot P c = dot P0 c - dot P0 c * dot c c / norm c ^ 2 := by
      rw [← h]
      unfold dot sub smul
      simp only
      field_simp
      ring
    rw [e, ← hn]
    field_simp
    ring
  · intro X hX
    rw [norm_sq, norm_sq, norm_sq]
    set k := dot P0 c / norm c ^ 2 with hk
    have hP : P = sub P0 (smul k c) := by
      rw [← h, hk]
      unfold sub smul dot
      ext <;> simp only <;> field_simp
    have hkc : k * dot c c = dot P0 c := by rw [hk, ← hn]; field_simp
    rw [hP]
    clear_value k
    unfold dot sub smul at *
    simp only at *
    linear_combination (-2 * k) * hX - 2 * k * hkc

/-! ### the points of the search -/

theorem twiceArctan_spec {k : ℝ} (hk : 0 < k) (u : ℝ) :
    cos (twiceArctan k u) = (cos (u / 2) ^ 2 - k ^ 2 * sin (u / 2) ^ 2) / (cos (u / 2) ^ 2 + k ^ 2 * sin (u / 2) ^ 2) ∧
    sin (twiceArctan k u) = 2 * k * sin (u / 2) * cos (u / 2) / (cos (u / 2) ^ 2 + k ^ 2 * sin (u / 2) ^ 2) := by
  have h1 := sin_sq_add_cos_sq (u / 2)
  unfold twiceArctan
  split_ifs with hc
  · rw [hc] at h1 ⊢
    have hs : sin (u / 2) ^ 2 = 1 := by linarith
    rw [hs, cos_pi, sin_pi]
    constructor
    · field_simp; ring
    · ring
  · have hd : cos (u / 2) ^ 2 + k ^ 2 * sin (u / 2) ^ 2 ≠ 0 := by positivity
    rw [tan_eq_sin_div_cos]
    set c := cos (u / 2)
    set s := sin (u / 2)
    have hx : 1 + (k * (s / c)) ^ 2 = (c ^ 2 + k ^ 2 * s ^ 2) / c ^ 2 := by field_simp
    have hpos : 0 < 1 + (k * (s / c)) ^ 2 := by positivity
    constructor
    · rw [cos_two_mul, cos_sq_arctan, hx]
      field_simp
      ring
    · rw [sin_two_mul, sin_arctan, cos_arctan]
      have : 2 * (k * (s / c) / √(1 + (k * (s / c)) ^ 2)) * (1 / √(1 + (k * (s / c)) ^ 2)) =
          2 * (k * (s / c)) / (√(1 + (k * (s / c)) ^ 2) * √(1 + (k * (s / c)) ^ 2)) := by
        field_simp
      rw [this, mul_self_sqrt hpos.le, hx]
      field_simp

theorem half (u : ℝ) : cos (u / 2) ^ 2 = (1 + cos u) / 2 ∧ sin (u / 2) ^ 2 = (1 - cos u) / 2 := by
  have h1 := cos_sq (u / 2)
  have h2 := sin_sq_add_cos_sq (u / 2)
  rw [show 2 * (u / 2) = u by ring] at h1
  constructor <;> linarith

theorem half_sin (u : ℝ) : 2 * sin (u / 2) * cos (u / 2) = sin u := by
  rw [← sin_two_mul]
  congr 1
  ring

/-- The point of the search: the radius of true anomaly `u` in the direction of the true anomaly of eccentric anomaly `u`. -/
theorem ellipsePoint_eq {a e : ℝ} (he : 0 ≤ e ∧ e < 1) (u : ℝ) :
    let rad := a * (1 - e ^ 2) / (1 + e * cos u)
    ellipsePoint a e u = ⟨rad * ((cos u - e) / (1 - e * cos u)), rad * (√(1 - e ^ 2) * sin u / (1 - e * cos u)), 0⟩ := by
  have h1 : 0 < 1 + e * cos u := Kep.ell_pos' he u
  have h2 : 0 < 1 - e * cos u := Kep.ell_pos he u
  have hp : 0 < 1 + e := by linarith [he.1]
  have hm : 0 < 1 - e := by linarith [he.2]
  have k1 : 0 < √((1 - e) / (1 + e)) := sqrt_pos.mpr (by positivity)
  have k2 : 0 < √((1 + e) / (1 - e)) := sqrt_pos.mpr (by positivity)
  have s1 : √((1 - e) / (1 + e)) ^ 2 = (1 - e) / (1 + e) := sq_sqrt (by positivity)
  have s2 : √((1 + e) / (1 - e)) ^ 2 = (1 + e) / (1 - e) := sq_sqrt (by positivity)
  obtain ⟨hc, hs⟩ := half u
  have hE : cos (twiceArctan (√((1 - e) / (1 + e))) u) = (cos u + e) / (1 + e * cos u) := by
    rw [(twiceArctan_spec k1 u).1, s1, hc, hs]
    have : (1 + cos u) / 2 + (1 - e) / (1 + e) * ((1 - cos u) / 2) = (1 + e * cos u) / (1 + e) := by field_simp; ring
    rw [this]
    field_simp
    ring
  have hd : (1 + cos u) / 2 + (1 + e) / (1 - e) * ((1 - cos u) / 2) = (1 - e * cos u) / (1 - e) := by field_simp; ring
  have hv : cos (twiceArctan (√((1 + e) / (1 - e))) u) = (cos u - e) / (1 - e * cos u) := by
    rw [(twiceArctan_spec k2 u).1, s2, hc, hs, hd]
    field_simp
    ring
  have hv' : sin (twiceArctan (√((1 + e) / (1 - e))) u) = √(1 - e ^ 2) * sin u / (1 - e * cos u) := by
    rw [(twiceArctan_spec k2 u).2, s2, hc, hs, hd]
    have e1 : √(1 - e ^ 2) = √((1 + e) / (1 - e)) * (1 - e) := by
      rw [show 1 - e ^ 2 = (1 + e) / (1 - e) * (1 - e) ^ 2 by field_simp; ring, sqrt_mul (by positivity), sqrt_sq hm.le]
    rw [e1, ← half_sin u]
    field_simp
  have hr : a * (1 - e * ((cos u + e) / (1 + e * cos u))) = a * (1 - e ^ 2) / (1 + e * cos u) := by
    field_simp
    ring
  simp only
  unfold ellipsePoint
  simp only
  rw [hE, hv, hv', hr]

theorem ellipsePoint_zero (a u : ℝ) : ellipsePoint a 0 u = ⟨a * cos u, a * sin u, 0⟩ := by
  rw [ellipsePoint_eq ⟨le_refl 0, by norm_num⟩]
  simp

theorem ellipsePoint_norm {a e : ℝ} (ha : 0 < a) (he : 0 ≤ e ∧ e < 1) (u : ℝ) :
    norm (ellipsePoint a e u) = a * (1 - e ^ 2) / (1 + e * cos u) := by
  have h1 : 0 < 1 + e * cos u := Kep.ell_pos' he u
  have h2 : 0 < 1 - e * cos u := Kep.ell_pos he u
  have h3 : 0 < 1 - e ^ 2 := by nlinarith [he.1, he.2]
  rw [ellipsePoint_eq he]
  have hpos : 0 ≤ a * (1 - e ^ 2) / (1 + e * cos u) := by positivity
  generalize a * (1 - e ^ 2) / (1 + e * cos u) = rad at *
  unfold V3.norm
  simp only
  have hsq : √(1 - e ^ 2) ^ 2 = 1 - e ^ 2 := sq_sqrt h3.le
  have hs := sin_sq_add_cos_sq u
  have hs' : sin u ^ 2 = 1 - cos u ^ 2 := by linarith
  rw [show rad * ((cos u - e) / (1 - e * cos u)) * (rad * ((cos u - e) / (1 - e * cos u))) +
      rad * (√(1 - e ^ 2) * sin u / (1 - e * cos u)) * (rad * (√(1 - e ^ 2) * sin u / (1 - e * cos u))) + 0 * 0 =
      rad ^ 2 * (((cos u - e) ^ 2 + √(1 - e ^ 2) ^ 2 * sin u ^ 2) / (1 - e * cos u) ^ 2) by field_simp; ring, hsq, hs',
    show (cos u - e) ^ 2 + (1 - e ^ 2) * (1 - cos u ^ 2) = (1 - e * cos u) ^ 2 by ring, div_self (by positivity), mul_one, sqrt_sq hpos]

/-! ### orbits -/

/-- The positions of an orbit are in its plane and on its conic. -/
theorem conic {o : Orbit} (hmu : 0 < o.mu) (h : cross o.r o.v ≠ ⟨0, 0, 0⟩) {X : V3} (hX : OnOrbit o X) :
    dot X (cross o.r o.v) = 0 ∧ o.mu * norm X + dot (laplace o.mu (o.r, o.v)) X = norm (cross o.r o.v) ^ 2 ∧
    X ≠ ⟨0, 0, 0⟩ := by
  obtain ⟨p, q, t, hm, hp, hq, hX⟩ := hX
  obtain ⟨x, hx, -⟩ := exists_unique_chi hmu h (t - o.t0)
  have hn := C35_newton hmu h hm hp hq t hx
  have hX' : X = (stateAt o.mu o.r o.v (t - o.t0) x).1 := toE_injective (hX.symm.trans hn.1.symm)
  have hne := motion_ne hmu h hx
  obtain ⟨-, c1, -, c3⟩ := C35_conserved hmu (ne_zero_of_cross h) hx hne
  set s := stateAt o.mu o.r o.v (t - o.t0) x
  refine ⟨?_, ?_, ?_⟩
  · rw [hX', ← c1]
    unfold dot cross
    simp only
    ring
  · rw [hX', ← c3, ← c1]
    have hr := norm_pos' hne
    have hr2 := norm_sq s.1
    rw [norm_sq (cross s.1 s.2)]
    have e : dot (laplace o.mu s) s.1 = (dot s.2 s.2 - o.mu / norm s.1) * dot s.1 s.1 - dot s.1 s.2 * dot s.2 s.1 := by
      unfold laplace dot sub smul
      simp only
      ring
    have e2 : dot (cross s.1 s.2) (cross s.1 s.2) = dot s.1 s.1 * dot s.2 s.2 - dot s.1 s.2 * dot s.2 s.1 := by
      unfold dot cross
      simp only
      ring
    rw [e, e2, ← hr2]
    field_simp
    ring
  · rw [hX']
    exact hne

/-- Specification: an orbit that is a circle in the reference plane. -/
structure PlanarCircle (o : Orbit) : Prop where
  mu : 0 < o.mu
  r : o.r.z = 0
  v : o.v.z = 0
  ne : o.r ≠ ⟨0, 0, 0⟩
  perp : dot o.r o.v = 0
  speed : norm o.v ^ 2 * norm o.r = o.mu

namespace PlanarCircle

variable {o : Orbit} (h : PlanarCircle o)
include h

theorem pos : 0 < norm o.r := norm_pos' h.ne

theorem cross_ne : cross o.r o.v ≠ ⟨0, 0, 0⟩ := by
  intro h0
  have hd : norm (cross o.r o.v) ^ 2 = norm o.r ^ 2 * norm o.v ^ 2 - dot o.r o.v ^ 2 := by
    rw [norm_sq, norm_sq, norm_sq]; unfold dot cross; simp only; ring
  have h1 : norm (cross o.r o.v) = 0 := norm_eq_zero.mpr h0
  rw [h1, h.perp] at hd
  have h2 := h.pos
  have h3 := h.mu
  rw [← h.speed] at h3
  have h4 : 0 < norm o.v ^ 2 := pos_of_mul_pos_left h3 h2.le
  have : 0 < norm o.r ^ 2 * norm o.v ^ 2 := by positivity
  linarith

theorem cross_z : cross o.r o.v = ⟨0, 0, (cross o.r o.v).z⟩ ∧ (cross o.r o.v).z ≠ 0 := by
  have h1 : cross o.r o.v = ⟨0, 0, (cross o.r o.v).z⟩ := by
    unfold cross
    rw [h.r, h.v]
    simp
  refine ⟨h1, fun h2 => h.cross_ne ?_⟩
  rw [h1, h2]

theorem eVec_zero : Kep.eVec o.mu o.r o.v = ⟨0, 0, 0⟩ := by
  have h2 := h.pos
  have h1 : norm o.v ^ 2 - o.mu / norm o.r = 0 := by
    rw [← h.speed]
    field_simp
    ring
  unfold Kep.eVec
  rw [h1, h.perp]
  unfold sub smul
  simp

theorem laplace_zero : laplace o.mu (o.r, o.v) = ⟨0, 0, 0⟩ := by
  have h2 := h.pos
  have h1 : norm o.v ^ 2 - o.mu / norm o.r = 0 := by
    rw [← h.speed]
    field_simp
    ring
  unfold laplace
  simp only
  rw [← norm_sq, h1, h.perp]
  unfold sub smul
  simp

theorem elements : (Kep.cartesianToKeplerian o.r o.v o.t0 o.mu).a = some (norm o.r) ∧ (Kep.cartesianToKeplerian o.r o.v o.t0 o.mu).e = 0 := by
  have he : norm (Kep.eVec o.mu o.r o.v) = 0 := norm_eq_zero.mpr h.eVec_zero
  have h2 := h.pos
  have h3 := h.mu
  unfold Kep.cartesianToKeplerian
  simp only
  rw [he]
  refine ⟨?_, rfl⟩
  rw [if_neg (by unfold Kep.parabolic Kep.tolerance; norm_num)]
  congr 1
  rw [show norm o.v ^ 2 = o.mu / norm o.r by rw [← h.speed]; field_simp]
  field_simp
  norm_num

/-- The positions of the orbit are the points of the circle. -/
theorem onOrbit_iff (X : V3) : OnOrbit o X ↔ ∃ u, X = ⟨norm o.r * cos u, norm o.r * sin u, 0⟩ := by
  have hp := h.pos
  have hmu := h.mu
  obtain ⟨hz, hzn⟩ := h.cross_z
  constructor
  · intro hX
    obtain ⟨c1, c2, -⟩ := conic h.mu h.cross_ne hX
    rw [hz] at c1
    have hX0 : X.z = 0 := by
      unfold dot at c1
      simp only at c1
      have : X.z * (cross o.r o.v).z = 0 := by linarith
      exact (mul_eq_zero.mp this).resolve_right hzn
    have hcr : norm (cross o.r o.v) ^ 2 = o.mu * norm o.r := by
      have : norm (cross o.r o.v) ^ 2 = norm o.r ^ 2 * norm o.v ^ 2 - dot o.r o.v ^ 2 := by
        rw [norm_sq, norm_sq, norm_sq]; unfold dot cross; simp only; ring
      rw [this, h.perp, ← h.speed]
      ring
    have hn : norm X = norm o.r := by
      rw [h.laplace_zero, hcr] at c2
      have : dot (⟨0, 0, 0⟩ : V3) X = 0 := by unfold dot; simp
      rw [this, add_zero] at c2
      exact mul_left_cancel₀ hmu.ne' c2
    have hn2 : X.x ^ 2 + X.y ^ 2 = norm o.r ^ 2 := by
      rw [← hn, norm_sq]
      unfold dot
      rw [hX0]
      ring
    obtain ⟨e1, e2, -⟩ := Kep.arctan2_spec hp hn2
    refine ⟨Kep.arctan2 X.y X.x, ?_⟩
    rw [e1, e2]
    ext
    · simp only; field_simp
    · simp only; field_simp
    · simp only; exact hX0
  · rintro ⟨u, rfl⟩
    have hv0 : 0 < norm o.v ^ 2 := by
      have h3 := h.mu
      rw [← h.speed] at h3
      exact pos_of_mul_pos_left h3 hp.le
    set X : V3 := ⟨norm o.r * cos u, norm o.r * sin u, 0⟩ with hXd
    -- the components of the point along position and velocity
    set A := dot X o.r / norm o.r ^ 2 with hA
    set B := dot X o.v / norm o.v ^ 2 with hB
    have r2 : o.r.x ^ 2 + o.r.y ^ 2 = norm o.r ^ 2 := by rw [norm_sq]; unfold dot; rw [h.r]; ring
    have v2 : o.v.x ^ 2 + o.v.y ^ 2 = norm o.v ^ 2 := by rw [norm_sq]; unfold dot; rw [h.v]; ring
    have hd : o.r.x * o.v.x + o.r.y * o.v.y = 0 := by have := h.perp; unfold dot at this; rw [h.r] at this; linarith
    have hcr : (o.r.x * o.v.y - o.r.y * o.v.x) ^ 2 = norm o.r ^ 2 * norm o.v ^ 2 := by
      rw [← r2, ← v2]
      linear_combination (-(o.r.x * o.v.x + o.r.y * o.v.y)) * hd
    have hcz : o.r.x * o.v.y - o.r.y * o.v.x ≠ 0 := hzn
    have dXr : dot X o.r = X.x * o.r.x + X.y * o.r.y := by unfold dot; rw [h.r]; ring
    have dXv : dot X o.v = X.x * o.v.x + X.y * o.v.y := by unfold dot; rw [h.v]; ring
    have X2 : X.x ^ 2 + X.y ^ 2 = norm o.r ^ 2 := by
      rw [hXd]
      simp only
      have := sin_sq_add_cos_sq u
      linear_combination (norm o.r ^ 2) * this
    have hA' : A * norm o.r ^ 2 = X.x * o.r.x + X.y * o.r.y := by rw [hA, dXr]; field_simp
    have hB' : B * norm o.v ^ 2 = X.x * o.v.x + X.y * o.v.y := by rw [hB, dXv, div_mul_cancel₀ _ hv0.ne']
    have hXx : X.x = A * o.r.x + B * o.v.x ∧ X.y = A * o.r.y + B * o.v.y := by
      have k1 : (A * o.r.x + B * o.v.x - X.x) * o.r.x + (A * o.r.y + B * o.v.y - X.y) * o.r.y = 0 := by
        linear_combination A * r2 + B * hd + hA'
      have k2 : (A * o.r.x + B * o.v.x - X.x) * o.v.x + (A * o.r.y + B * o.v.y - X.y) * o.v.y = 0 := by
        linear_combination A * hd + B * v2 + hB'
      have k3 : (A * o.r.x + B * o.v.x - X.x) * (o.r.x * o.v.y - o.r.y * o.v.x) = 0 := by
        linear_combination o.v.y * k1 - o.r.y * k2
      have k4 : (A * o.r.y + B * o.v.y - X.y) * (o.r.x * o.v.y - o.r.y * o.v.x) = 0 := by
        linear_combination o.r.x * k2 - o.v.x * k1
      have k5 := (mul_eq_zero.mp k3).resolve_right hcz
      have k6 := (mul_eq_zero.mp k4).resolve_right hcz
      exact ⟨by linarith, by linarith⟩
    have hAB : A ^ 2 * norm o.r ^ 2 + B ^ 2 * norm o.v ^ 2 = norm o.r ^ 2 := by
      have X2' := X2
      rw [hXx.1, hXx.2] at X2'
      linear_combination X2' - A ^ 2 * r2 - B ^ 2 * v2 - 2 * A * B * hd
    have hvp : 0 < norm o.v := lt_of_le_of_ne (norm_nonneg _) (fun h0 => by rw [← h0] at hv0; norm_num at hv0)
    have hcs : A ^ 2 + (B * norm o.v / norm o.r) ^ 2 = 1 ^ 2 := by
      field_simp
      linarith
    obtain ⟨e1, e2, -⟩ := Kep.arctan2_spec one_pos hcs
    rw [div_one] at e1 e2
    set θ := Kep.arctan2 (B * norm o.v / norm o.r) A
    -- the universal anomaly
    have ha : alpha o.mu o.r o.v = 1 / norm o.r := by
      unfold alpha
      rw [show norm o.v ^ 2 = o.mu / norm o.r by rw [← h.speed]; field_simp]
      field_simp
      norm_num
    have hap : 0 < alpha o.mu o.r o.v := by rw [ha]; positivity
    have hs : sigma o.mu o.r o.v = 0 := by unfold sigma; rw [h.perp]; simp
    set x := θ / √(alpha o.mu o.r o.v) with hx
    have hsa := sqrt_pos.mpr hap
    have hxt : √(alpha o.mu o.r o.v) * x = θ := by rw [hx]; field_simp
    set dt := FF (norm o.r) (sigma o.mu o.r o.v) (alpha o.mu o.r o.v) x / √o.mu with hdt
    have hm := sqrt_pos.mpr hmu
    have hk : keplerF o.mu o.r o.v dt x = 0 := by
      rw [keplerF_eq, hdt]
      field_simp
      ring
    obtain ⟨p, q, hpq, hp0, hq0⟩ := C35_motion_exists hmu h.cross_ne o.t0
    refine ⟨p, q, o.t0 + dt, hpq, hp0, hq0, ?_⟩
    have hn := (C35_newton hmu h.cross_ne hpq hp0 hq0 (o.t0 + dt) (x := x) (by rw [add_sub_cancel_left]; exact hk)).1
    rw [← hn, add_sub_cancel_left]
    congr 1
    rw [(state_coeffs hmu h.cross_ne hk).1, hs]
    obtain ⟨-, f1, f2, -⟩ := pos_form hap x
    rw [hxt] at f1 f2
    rw [f1, f2, e1, e2, ha]
    have hsm : √o.mu = norm o.v * √(norm o.r) := by
      rw [← h.speed, sqrt_mul (by positivity), sqrt_sq hvp.le]
    have hsr := sqrt_pos.mpr hp
    have hsr2 : √(norm o.r) * √(norm o.r) = norm o.r := mul_self_sqrt hp.le
    have k1 : 1 - (1 - A) / (1 / norm o.r) / norm o.r = A := by field_simp; ring
    have k2 : (0 * ((1 - A) / (1 / norm o.r)) + norm o.r * (B * norm o.v / norm o.r / √(1 / norm o.r))) / √o.mu = B := by
      rw [hsm, sqrt_div one_pos.le, sqrt_one, zero_mul, zero_add]
      field_simp
    rw [k1, k2]
    unfold add smul
    ext
    · simp only; exact hXx.1.symm
    · simp only; exact hXx.2.symm
    · simp only; rw [h.r, h.v, hXd]; ring

end PlanarCircle

/-- A bound motion repeats after its period. -/
theorem motion_period {mu : ℝ} {r v : V3} (hmu : 0 < mu) (h : cross r v ≠ ⟨0, 0, 0⟩) {A : ℝ} (hA : 0 < A) (ha : alpha mu r v = 1 / A)
    {p q : ℝ → E3} (hm : IsMotion mu p q) {t0 : ℝ} (hp : p t0 = r.toE) (hq : q t0 = v.toE) (t : ℝ) (n : ℤ) :
    p (t + n * calcPeriod A mu) = p t := by
  have hs := sqrt_pos.mpr hmu
  have hsA := sqrt_pos.mpr hA
  have hap : 0 < alpha mu r v := by rw [ha]; positivity
  have hper : calcPeriod A mu = 2 * π / (√mu * (alpha mu r v * √(alpha mu r v))) := by
    unfold calcPeriod
    rw [ha, sqrt_div (by positivity), sqrt_div one_pos.le, sqrt_one, show A ^ 3 = A ^ 2 * A by ring, sqrt_mul (by positivity), sqrt_sq hA.le]
    field_simp
  have hne : ∀ t, p t ≠ 0 := by
    intro t
    obtain ⟨x, hx, -⟩ := exists_unique_chi hmu h (t - t0)
    rw [← (C35_newton hmu h hm hp hq t hx).1]
    exact toE_ne (motion_ne hmu h hx)
  have one : ∀ t, p (t + calcPeriod A mu) = p t := by
    obtain ⟨x, hx, -⟩ := exists_unique_chi hmu h (calcPeriod A mu)
    have hn := C35_newton hmu h hm hp hq (t0 + calcPeriod A mu) (x := x) (by rw [add_sub_cancel_left]; exact hx)
    rw [add_sub_cancel_left] at hn
    rw [hper] at hx hn
    rw [C96_period hmu h hap hx, ← hper] at hn
    obtain ⟨k1, -⟩ := motion_unique (shift_motion hm (calcPeriod A mu)) hm (fun t => hne _) (t0 := t0)
      (by rw [← hn.1, hp]) (by rw [← hn.2, hq])
    exact fun t => congrFun k1 t
  have nat : ∀ (k : ℕ) (t : ℝ), p (t + k * calcPeriod A mu) = p t := by
    intro k
    induction k with
    | zero => intro t; simp
    | succ k ih =>
      intro t
      rw [Nat.cast_succ, add_mul, one_mul, ← add_assoc, one, ih]
  rcases Int.eq_nat_or_neg n with ⟨k, rfl | rfl⟩
  · exact_mod_cast nat k t
  · have := nat k (t + ((-(k : ℤ) : ℤ) : ℝ) * calcPeriod A mu)
    rw [← this]
    congr 1
    push_cast
    ring

end Verif.Moid
