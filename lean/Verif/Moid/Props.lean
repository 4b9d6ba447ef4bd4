import Verif.Moid.Lemmas
import Verif.Kep.ElementsProps
import Verif.Sched.Lemmas
import Mathlib.Topology.MetricSpace.HausdorffDistance

/-! # C41: minimum orbit intersection distances -/

namespace Verif.Moid.Props

open Classical Verif V3 Real Univ Univ.Props

/-- Specification of a minimiser: the answer is a point between the bounds with its value; a value that is not a number is reported. -/
def Faithful (min : Minimiser) : Prop :=
  ∀ f lo hi, lo < hi → lo ≤ (min f lo hi).x ∧ (min f lo hi).x ≤ hi ∧ (min f lo hi).fn = f (min f lo hi).x ∧
    (f (min f lo hi).x = none → (min f lo hi).status ≠ 0)

/-- `m` is the least value of `f` between the bounds. -/
def Least (f : ℝ → Option ℝ) (lo hi m : ℝ) : Prop :=
  (∃ x, lo ≤ x ∧ x ≤ hi ∧ f x = some m) ∧ ∀ y d, lo ≤ y → y ≤ hi → f y = some d → m ≤ d

/-- Specification of a perfect minimiser: it finds the least value if there is one. -/
structure Perfect (min : Minimiser) : Prop where
  faithful : Faithful min
  least : ∀ f lo hi m, lo < hi → Least f lo hi m → (min f lo hi).status = 0 ∧ (min f lo hi).fn = some m

/-- A minimiser that picks the least value if there is one. -/
noncomputable def best : Minimiser := fun f lo hi =>
  if h : ∃ m, Least f lo hi m then ⟨Classical.choose (Classical.choose_spec h).1, some (Classical.choose h), 0⟩ else ⟨lo, f lo, 1⟩

/-- There is such a minimiser. -/
theorem perfect_exists : ∃ min, Perfect min := by
  refine ⟨best, ?_, ?_⟩
  · intro f lo hi hlt
    by_cases h : ∃ m, Least f lo hi m
    · have hb : best f lo hi = ⟨Classical.choose (Classical.choose_spec h).1, some (Classical.choose h), 0⟩ := dif_pos h
      obtain ⟨h1, h2, h3⟩ := Classical.choose_spec (Classical.choose_spec h).1
      rw [hb]
      exact ⟨h1, h2, h3.symm, fun h4 => by simp [h3] at h4⟩
    · have hb : best f lo hi = ⟨lo, f lo, 1⟩ := dif_neg h
      rw [hb]
      exact ⟨le_refl _, hlt.le, rfl, fun _ => one_ne_zero⟩
  · intro f lo hi m _ hm
    have h : ∃ m, Least f lo hi m := ⟨m, hm⟩
    have hb : best f lo hi = ⟨Classical.choose (Classical.choose_spec h).1, some (Classical.choose h), 0⟩ := dif_pos h
    rw [hb]
    refine ⟨rfl, congrArg some ?_⟩
    have h1 := Classical.choose_spec h
    obtain ⟨x, a1, a2, a3⟩ := h1.1
    obtain ⟨y, b1, b2, b3⟩ := hm.1
    exact le_antisymm (h1.2 y m b1 b2 b3) (hm.2 x _ a1 a2 a3)

/-! ### circular orbits in the reference plane -/

theorem coplanar_circle {s : Orbit} (h : PlanarCircle s) (P : V3) (u : ℝ) :
    coplanarDistance P (Kep.cartesianToKeplerian s.r s.v s.t0 s.mu).a (Kep.cartesianToKeplerian s.r s.v s.t0 s.mu).e u =
      some (norm (sub P ⟨norm s.r * cos u, norm s.r * sin u, 0⟩)) := by
  rw [h.elements.1, h.elements.2]
  unfold coplanarDistance
  simp only
  rw [if_pos one_pos, ellipsePoint_zero]

theorem in_plane {s : Orbit} (h : PlanarCircle s) (u : ℝ) : dot ⟨norm s.r * cos u, norm s.r * sin u, 0⟩ (cross s.r s.v) = 0 := by
  rw [h.cross_z.1]
  unfold dot
  simp

theorem total {P0 P : V3} {s : Orbit} (hP : project P0 s = some P) {X : V3} (hX : dot X (cross s.r s.v) = 0) :
    √(norm (sub P P0) ^ 2 + norm (sub P X) ^ 2) = norm (sub P0 X) := by
  rw [← (project_spec hP).2.2 X hX, sqrt_sq (norm_nonneg _)]

theorem point_circle {min : Minimiser} (hmin : Faithful min) {s : Orbit} (h : PlanarCircle s) {P0 : V3} {d : ℝ}
    (hd : pointDistance min P0 s = some d) : ∃ Y, OnOrbit s Y ∧ d = norm (sub P0 Y) := by
  unfold pointDistance at hd
  cases hP : project P0 s with
  | none => rw [hP] at hd; simp at hd
  | some P =>
    rw [hP] at hd
    simp only at hd
    unfold minimizeCoplanar at hd
    have := hmin (fun u => coplanarDistance P (Kep.cartesianToKeplerian s.r s.v s.t0 s.mu).a
      (Kep.cartesianToKeplerian s.r s.v s.t0 s.mu).e u) 0 (2 * π) (by positivity)
    simp only [coplanar_circle h] at this hd
    obtain ⟨-, -, h3, -⟩ := this
    rw [h3] at hd
    simp only [Option.some.injEq] at hd
    rw [total hP (in_plane h _)] at hd
    exact ⟨_, (h.onOrbit_iff _).mpr ⟨_, rfl⟩, hd.symm⟩

theorem upper_pos {p : Orbit} (hmu : 0 < p.mu) (hc : cross p.r p.v ≠ ⟨0, 0, 0⟩) {hi : ℝ} (h : upper p = some hi) : 0 < hi := by
  unfold upper at h
  simp only at h
  split_ifs at h with he
  · have he' : norm (Kep.eVec p.mu p.r p.v) < 1 := he
    obtain ⟨z1, -, -⟩ := Kep.Props.size_spec hmu hc rfl
    have hA := z1 he'
    unfold Kep.cartesianToKeplerian at h
    simp only at h
    split_ifs at h with hp
    · simp at h
    · simp only [Option.map_some, Option.some.injEq] at h
      rw [← h]
      unfold calcPeriod
      have := sqrt_pos.mpr (show 0 < (p.mu / (-2 * (norm p.v ^ 2 / 2 - p.mu / norm p.r))) ^ 3 / p.mu by positivity)
      have := pi_pos
      positivity
  · rw [Option.some.injEq] at h
    rw [← h]
    norm_num

/-- C41. If the perturber's orbit is a circle in the reference plane, the distance reported is the distance between a point of the
perturber's orbit and the position of the object at the time reported, which is not before the epoch: never less than the minimum
distance of the two orbits. It is a number. -/
theorem C41_circle {prop : Orbit → ℝ → V3} {min : Minimiser} {p s : Orbit} (hmu : 0 < p.mu) (hc : cross p.r p.v ≠ ⟨0, 0, 0⟩)
    (hprop : Follows prop p) (hmin : Faithful min) (hs : PlanarCircle s) {m : Option ℝ} {T : ℝ}
    (h : calculateMoid prop min p s = .ok (m, T)) :
    p.t0 ≤ T ∧ OnOrbit p (prop p T) ∧ ∃ Y, OnOrbit s Y ∧ m = some (norm (sub (prop p T) Y)) := by
  unfold calculateMoid at h
  cases hu : upper p with
  | none => rw [hu] at h; simp at h
  | some hi =>
    rw [hu] at h
    simp only at h
    split_ifs at h with hst
    rw [Except.ok.injEq, Prod.mk.injEq] at h
    push Not at hst
    obtain ⟨h1, h2, h3, h4⟩ := hmin (distanceAt prop min p s) 0 hi (upper_pos hmu hc hu)
    obtain ⟨g1, g2⟩ := h
    rw [← g2, ← g1]
    refine ⟨by linarith, ?_, ?_⟩
    · obtain ⟨P, Q, m1, m2, m3, m4⟩ := hprop
      exact ⟨P, Q, _, m1, m2, m3, (m4 _).symm⟩
    · rw [h3]
      cases hf : distanceAt prop min p s (min (distanceAt prop min p s) 0 hi).x with
      | none => exact absurd hst (h4 hf)
      | some d =>
        obtain ⟨Y, hY, hd⟩ := point_circle hmin hs hf
        exact ⟨Y, hY, by rw [hd]⟩

theorem reduce_angle (u : ℝ) : ∃ u', 0 ≤ u' ∧ u' ≤ 2 * π ∧ cos u' = cos u ∧ sin u' = sin u := by
  obtain ⟨h1, h2, k, h3⟩ := Kep.pyMod_spec (x := u) (m := 2 * π) (by positivity)
  obtain ⟨h4, h5⟩ := Kep.angle_congr ⟨k, h3⟩
  exact ⟨_, h1, h2.le, h4, h5⟩

/-- With a perfect minimiser the distance from a point is the distance to the circle. -/
theorem point_perfect {min : Minimiser} (hmin : Perfect min) {s : Orbit} (h : PlanarCircle s) (P0 : V3) :
    pointDistance min P0 s = some (Metric.infDist P0.toE {x | ∃ Y, OnOrbit s Y ∧ x = Y.toE}) := by
  have hP : ∃ P, project P0 s = some P := by
    unfold project
    simp only
    rw [if_neg (fun h0 => h.cross_ne (norm_eq_zero.mp h0))]
    exact ⟨_, rfl⟩
  obtain ⟨P, hP⟩ := hP
  have hdist : ∀ Y : V3, dist P0.toE Y.toE = norm (sub P0 Y) := by
    intro Y
    rw [dist_eq_norm, ← toE_sub, norm_toE]
  unfold pointDistance
  rw [hP]
  simp only
  unfold minimizeCoplanar
  simp only [coplanar_circle h]
  -- the least value
  have hcont : Continuous fun u : ℝ => norm (sub P ⟨norm s.r * cos u, norm s.r * sin u, 0⟩) := by
    unfold V3.norm sub
    simp only
    fun_prop
  obtain ⟨u, hu, hmin'⟩ := isCompact_Icc.exists_isMinOn (Set.nonempty_Icc.mpr (by positivity : (0 : ℝ) ≤ 2 * π)) hcont.continuousOn
  have hl : Least (fun u => some (norm (sub P ⟨norm s.r * cos u, norm s.r * sin u, 0⟩))) 0 (2 * π)
      (norm (sub P ⟨norm s.r * cos u, norm s.r * sin u, 0⟩)) := by
    refine ⟨⟨u, hu.1, hu.2, rfl⟩, ?_⟩
    intro y d hy hy' hd
    rw [Option.some.injEq] at hd
    rw [← hd]
    exact hmin' ⟨hy, hy'⟩
  rw [(hmin.least _ 0 (2 * π) _ (by positivity) hl).2]
  simp only [Option.some.injEq]
  rw [total hP (in_plane h u)]
  have hne : ({x | ∃ Y, OnOrbit s Y ∧ x = Y.toE} : Set E3).Nonempty := ⟨_, _, (h.onOrbit_iff _).mpr ⟨0, rfl⟩, rfl⟩
  refine le_antisymm ?_ ?_
  · rw [Metric.le_infDist hne]
    rintro y ⟨Y, hY, rfl⟩
    obtain ⟨w, rfl⟩ := (h.onOrbit_iff Y).mp hY
    obtain ⟨w', w1, w2, w3, w4⟩ := reduce_angle w
    rw [← w3, ← w4, hdist]
    have h1 : norm (sub P ⟨norm s.r * cos u, norm s.r * sin u, 0⟩) ≤ norm (sub P ⟨norm s.r * cos w', norm s.r * sin w', 0⟩) :=
      hmin' ⟨w1, w2⟩
    rw [← total hP (in_plane h u), ← total hP (in_plane h w')]
    refine sqrt_le_sqrt ?_
    have := pow_le_pow_left₀ (norm_nonneg _) h1 2
    linarith
  · rw [← hdist]
    exact Metric.infDist_le_dist_of_mem ⟨_, (h.onOrbit_iff _).mpr ⟨u, rfl⟩, rfl⟩

theorem upper_elliptic {p : Orbit} (hmu : 0 < p.mu) (hc : cross p.r p.v ≠ ⟨0, 0, 0⟩) (he : norm (Kep.eVec p.mu p.r p.v) ≤ 1 - 1e-15) :
    ∃ A, 0 < A ∧ alpha p.mu p.r p.v = 1 / A ∧ upper p = some (calcPeriod A p.mu) := by
  have he1 : norm (Kep.eVec p.mu p.r p.v) < 1 := by
    have : (0 : ℝ) < 1e-15 := by norm_num
    linarith
  obtain ⟨z1, -, -⟩ := Kep.Props.size_spec hmu hc rfl
  have hA := z1 he1
  refine ⟨_, hA, ?_, ?_⟩
  · have hr := norm_pos' (ne_zero_of_cross hc)
    have : -2 * (norm p.v ^ 2 / 2 - p.mu / norm p.r) ≠ 0 := by
      intro h0
      rw [h0, div_zero] at hA
      exact lt_irrefl _ hA
    unfold alpha
    rw [one_div_div]
    field_simp
    ring
  · unfold upper
    simp only
    have e1 : (Kep.cartesianToKeplerian p.r p.v p.t0 p.mu).e = norm (Kep.eVec p.mu p.r p.v) := rfl
    rw [e1, if_pos he1]
    unfold Kep.cartesianToKeplerian
    simp only
    rw [if_neg (fun hp => absurd hp.1 (by unfold Kep.tolerance; linarith))]
    rfl

/-- C41. With a perfect minimiser, a perturber on a circle in the reference plane and an object on an ellipse, the distance reported is
the minimum distance of the two orbits. -/
theorem C41_circle_minimum {prop : Orbit → ℝ → V3} {min : Minimiser} {p s : Orbit} (hmu : 0 < p.mu) (hc : cross p.r p.v ≠ ⟨0, 0, 0⟩)
    (he : norm (Kep.eVec p.mu p.r p.v) ≤ 1 - 1e-15) (hprop : Follows prop p) (hmin : Perfect min) (hs : PlanarCircle s) :
    ∃ m T, calculateMoid prop min p s = .ok (some m, T) ∧ IsLeast {d | ∃ X Y, OnOrbit p X ∧ OnOrbit s Y ∧ d = norm (sub X Y)} m := by
  obtain ⟨A, hA, hal, hup⟩ := upper_elliptic hmu hc he
  have hprop' := hprop
  obtain ⟨P, Q, m1, m2, m3, m4⟩ := hprop
  have hPp := upper_pos hmu hc hup
  have hcont : Continuous fun dt : ℝ => Metric.infDist (prop p (p.t0 + dt)).toE {x | ∃ Y, OnOrbit s Y ∧ x = Y.toE} := by
    have hP : Continuous P := continuous_iff_continuousAt.mpr fun t => (m1 t).1.continuousAt
    simp only [m4]
    exact (Metric.continuous_infDist_pt _).comp (hP.comp (by fun_prop))
  obtain ⟨x, hx, hx'⟩ := isCompact_Icc.exists_isMinOn (Set.nonempty_Icc.mpr hPp.le) hcont.continuousOn
  have hf : ∀ dt, distanceAt prop min p s dt = some (Metric.infDist (prop p (p.t0 + dt)).toE {x | ∃ Y, OnOrbit s Y ∧ x = Y.toE}) :=
    fun dt => point_perfect hmin hs _
  have hl : Least (distanceAt prop min p s) 0 (calcPeriod A p.mu)
      (Metric.infDist (prop p (p.t0 + x)).toE {x | ∃ Y, OnOrbit s Y ∧ x = Y.toE}) := by
    refine ⟨⟨x, hx.1, hx.2, hf x⟩, ?_⟩
    intro y d hy hy' hd
    rw [hf, Option.some.injEq] at hd
    rw [← hd]
    exact hx' ⟨hy, hy'⟩
  obtain ⟨r1, r2⟩ := hmin.least _ _ _ _ hPp hl
  have hres : calculateMoid prop min p s = .ok (some (Metric.infDist (prop p (p.t0 + x)).toE {x | ∃ Y, OnOrbit s Y ∧ x = Y.toE}),
      p.t0 + (min (distanceAt prop min p s) 0 (calcPeriod A p.mu)).x) := by
    unfold calculateMoid
    rw [hup]
    simp only
    rw [if_neg (by rw [r1]; simp), r2]
  refine ⟨_, _, hres, ?_, ?_⟩
  · obtain ⟨-, h1, Y, h2, h3⟩ := C41_circle hmu hc hprop' hmin.faithful hs hres
    exact ⟨_, Y, h1, h2, Option.some.inj h3⟩
  · rintro d ⟨X, Y, ⟨P', Q', t, k1, k2, k3, k4⟩, hY, rfl⟩
    -- the motion is the same, and the time can be moved into the first period
    have hne : ∀ t, P' t ≠ 0 := by
      intro t
      obtain ⟨y, hy, -⟩ := exists_unique_chi hmu hc (t - p.t0)
      rw [← (C35_newton hmu hc k1 k2 k3 t hy).1]
      exact toE_ne (motion_ne hmu hc hy)
    have hPP : P' = P := (motion_unique k1 m1 hne (k2.trans m2.symm) (k3.trans m3.symm)).1
    subst hPP
    obtain ⟨w1, w2, n, w3⟩ := Kep.pyMod_spec (x := t - p.t0) hPp
    have hX : (prop p (p.t0 + Kep.pyMod (t - p.t0) (calcPeriod A p.mu))).toE = X.toE := by
      rw [m4, w3, ← k4, ← motion_period hmu hc hA hal m1 m2 m3 t (-n)]
      congr 1
      push_cast
      ring
    have h1 := hl.2 _ _ w1 w2.le (hf _)
    refine le_trans h1 ?_
    rw [hX]
    have : norm (sub X Y) = dist X.toE Y.toE := by rw [dist_eq_norm, ← toE_sub, norm_toE]
    rw [this]
    exact Metric.infDist_le_dist_of_mem ⟨Y, hY, rfl⟩

/-- C41. The distance reported for a perturber that is not on an ellipse: none, the call raises ValueError. -/
theorem C41_unbound {prop : Orbit → ℝ → V3} {min : Minimiser} {p s : Orbit} (hmu : 0 < p.mu) (hc : cross p.r p.v ≠ ⟨0, 0, 0⟩)
    (hmin : Faithful min) (hs : 1 ≤ norm (Kep.eVec s.mu s.r s.v)) : calculateMoid prop min p s = .error .valueError := by
  unfold calculateMoid
  cases hu : upper p with
  | none => rfl
  | some hi =>
    simp only
    have hf : distanceAt prop min p s = fun _ => none := by
      funext dt
      unfold distanceAt pointDistance
      cases hP : project (prop p (p.t0 + dt)) s with
      | none => rfl
      | some P =>
        simp only
        have : minimizeCoplanar min P (Kep.cartesianToKeplerian s.r s.v s.t0 s.mu).a (Kep.cartesianToKeplerian s.r s.v s.t0 s.mu).e = none := by
          unfold minimizeCoplanar
          have hg : (fun u => coplanarDistance P (Kep.cartesianToKeplerian s.r s.v s.t0 s.mu).a (Kep.cartesianToKeplerian s.r s.v s.t0 s.mu).e u) =
              fun _ => none := by
            funext u
            unfold coplanarDistance
            cases (Kep.cartesianToKeplerian s.r s.v s.t0 s.mu).a with
            | none => rfl
            | some a =>
              have e1 : (Kep.cartesianToKeplerian s.r s.v s.t0 s.mu).e = norm (Kep.eVec s.mu s.r s.v) := rfl
              simp only
              rw [e1, if_neg (not_lt.mpr hs)]
          rw [hg]
          exact (hmin _ 0 (2 * π) (by positivity)).2.2.1
        rw [this]
    obtain ⟨-, -, -, h4⟩ := hmin (distanceAt prop min p s) 0 hi (upper_pos hmu hc hu)
    rw [if_pos (h4 (by rw [hf]))]

/-! ### other orbits -/

/-- C41. Even for an ellipse in the reference plane with its periapsis on the x axis, for which no rotation is needed, the point that
the search compares with is not on the orbit, for every eccentricity except zero and every value of the search variable except the two
that belong to the apsides. -/
theorem C41_ellipse_false {o : Orbit} {a e : ℝ} (hmu : 0 < o.mu) (he : 0 < e ∧ e < 1) (hc : cross o.r o.v ≠ ⟨0, 0, 0⟩)
    (hev : Kep.eVec o.mu o.r o.v = ⟨e, 0, 0⟩) (ha : (Kep.cartesianToKeplerian o.r o.v o.t0 o.mu).a = some a) {u : ℝ} (hu : sin u ≠ 0) :
    (Kep.cartesianToKeplerian o.r o.v o.t0 o.mu).e = e ∧ ¬ OnOrbit o (ellipsePoint a e u) := by
  have hne : norm (Kep.eVec o.mu o.r o.v) = e := by
    rw [hev]
    unfold V3.norm
    simp only
    rw [show e * e + 0 * 0 + 0 * 0 = e ^ 2 by ring, sqrt_sq he.1.le]
  refine ⟨hne, fun hX => ?_⟩
  obtain ⟨z1, -, z3⟩ := Kep.Props.size_spec hmu hc rfl
  rw [hne] at z1 z3
  have hA := z1 he.2
  have z3 := z3 he.2.ne
  have haA : a = o.mu / (-2 * (norm o.v ^ 2 / 2 - o.mu / norm o.r)) := by
    unfold Kep.cartesianToKeplerian at ha
    simp only at ha
    split_ifs at ha
    exact (Option.some.inj ha).symm
  rw [← haA] at hA z3
  obtain ⟨-, c2, -⟩ := conic hmu hc hX
  have hlap : laplace o.mu (o.r, o.v) = ⟨o.mu * e, 0, 0⟩ := by
    have h1 : smul o.mu (Kep.eVec o.mu o.r o.v) = laplace o.mu (o.r, o.v) := by
      unfold Kep.eVec laplace smul
      simp only
      rw [← norm_sq]
      ext <;> simp only <;> field_simp
    rw [← h1, hev]
    unfold smul
    simp
  rw [hlap] at c2
  have h1 : 0 < 1 + e * cos u := Kep.ell_pos' ⟨he.1.le, he.2⟩ u
  have h2 : 0 < 1 - e * cos u := Kep.ell_pos ⟨he.1.le, he.2⟩ u
  have h3 : 0 < 1 - e ^ 2 := by nlinarith [he.1, he.2]
  have hnorm := ellipsePoint_norm hA ⟨he.1.le, he.2⟩ u
  have hx : (ellipsePoint a e u).x = a * (1 - e ^ 2) / (1 + e * cos u) * ((cos u - e) / (1 - e * cos u)) := by
    rw [ellipsePoint_eq ⟨he.1.le, he.2⟩]
  have hdot : dot ⟨o.mu * e, 0, 0⟩ (ellipsePoint a e u) = o.mu * e * (ellipsePoint a e u).x := by
    unfold dot
    simp
  rw [hdot, hx, hnorm] at c2
  have z4 : norm (cross o.r o.v) ^ 2 = o.mu * (a * (1 - e ^ 2)) := by rw [z3]; field_simp
  rw [z4] at c2
  have hs := sin_sq_add_cos_sq u
  have key : e ^ 2 * (1 - cos u ^ 2) = 0 := by
    have c3 : 1 / (1 + e * cos u) + e * (1 / (1 + e * cos u)) * ((cos u - e) / (1 - e * cos u)) = 1 := by
      have : o.mu * (a * (1 - e ^ 2)) ≠ 0 := by positivity
      refine mul_left_cancel₀ this ?_
      rw [mul_one]
      linear_combination c2
    field_simp at c3
    linear_combination -c3
  have : sin u ^ 2 = 0 := by
    rcases mul_eq_zero.mp key with h | h
    · exact absurd h (by have := he.1; positivity)
    · linarith
  exact hu (pow_eq_zero_iff (by norm_num) |>.mp this)

/-- C41. For a circle that is not in the reference plane the point is on the orbit only where it crosses the reference plane. -/
theorem C41_inclined_false {o : Orbit} {a u : ℝ} (hmu : 0 < o.mu) (ha : a ≠ 0) (hc : cross o.r o.v ≠ ⟨0, 0, 0⟩)
    (hX : OnOrbit o (ellipsePoint a 0 u)) : (cross o.r o.v).x * cos u + (cross o.r o.v).y * sin u = 0 := by
  have := (conic hmu hc hX).1
  rw [ellipsePoint_zero] at this
  unfold dot at this
  simp only at this
  have h2 : a * ((cross o.r o.v).x * cos u + (cross o.r o.v).y * sin u) = 0 := by linarith
  exact (mul_eq_zero.mp h2).resolve_left ha

end Verif.Moid.Props
