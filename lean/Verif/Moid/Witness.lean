import Verif.Moid.Props

/-! # C41: values that are not the minimum distance -/

namespace Verif.Moid.Props

open Classical Verif V3 Real Univ Univ.Props

theorem norm_of_sq {v : V3} {c : ℝ} (hc : 0 ≤ c) (h : v.x * v.x + v.y * v.y + v.z * v.z = c ^ 2) : norm v = c := by
  unfold V3.norm
  rw [h, sqrt_sq hc]

theorem start {prop : Orbit → ℝ → V3} {o : Orbit} (h : Follows prop o) : prop o o.t0 = o.r := by
  obtain ⟨p, q, -, h2, -, h4⟩ := h
  exact toE_injective ((h4 o.t0).trans h2)

theorem on_start {o : Orbit} (hmu : 0 < o.mu) (hc : cross o.r o.v ≠ ⟨0, 0, 0⟩) : OnOrbit o o.r := by
  obtain ⟨p, q, h1, h2, h3⟩ := C35_motion_exists hmu hc o.t0
  exact ⟨p, q, o.t0, h1, h2, h3, h2⟩

theorem distance_nonneg {min : Minimiser} {P0 : V3} {o : Orbit} {d : ℝ} (h : pointDistance min P0 o = some d) : 0 ≤ d := by
  unfold pointDistance at h
  cases hP : project P0 o with
  | none => rw [hP] at h; simp at h
  | some P =>
    rw [hP] at h
    simp only at h
    split at h
    · simp at h
    · rw [Option.some.injEq] at h
      rw [← h]
      exact sqrt_nonneg _

/-- An ellipse in the reference plane with its periapsis on the x axis: semi-major axis 1, eccentricity 0.6. -/
noncomputable def outer : Orbit := ⟨"outer", 0, ⟨2 / 5, 0, 0⟩, ⟨0, 2, 0⟩, 1⟩

/-- A smaller ellipse inside it: semi-major axis 0.64, eccentricity 0.6. -/
noncomputable def inner : Orbit := ⟨"inner", 0, ⟨-48 / 125, 64 / 125, 0⟩, ⟨-5 / 4, 0, 0⟩, 1⟩

theorem outer_r : norm outer.r = 2 / 5 := norm_of_sq (by norm_num) (by unfold outer; norm_num)
theorem outer_v : norm outer.v = 2 := norm_of_sq (by norm_num) (by unfold outer; norm_num)
theorem inner_r : norm inner.r = 16 / 25 := norm_of_sq (by norm_num) (by unfold inner; norm_num)
theorem inner_v : norm inner.v = 5 / 4 := norm_of_sq (by norm_num) (by unfold inner; norm_num)

theorem outer_cross : cross outer.r outer.v = ⟨0, 0, 4 / 5⟩ := by
  unfold cross outer
  ext <;> norm_num

theorem inner_cross : cross inner.r inner.v = ⟨0, 0, 16 / 25⟩ := by
  unfold cross inner
  ext <;> norm_num

theorem outer_e : Kep.eVec outer.mu outer.r outer.v = ⟨3 / 5, 0, 0⟩ := by
  unfold Kep.eVec
  rw [outer_r, outer_v]
  unfold sub smul dot outer
  ext <;> norm_num

theorem inner_e : Kep.eVec inner.mu inner.r inner.v = ⟨3 / 5, 0, 0⟩ := by
  unfold Kep.eVec
  rw [inner_r, inner_v]
  unfold sub smul dot inner
  ext <;> norm_num

theorem outer_laplace : laplace outer.mu (outer.r, outer.v) = ⟨3 / 5, 0, 0⟩ := by
  unfold laplace
  rw [outer_r]
  unfold sub smul dot outer
  ext <;> norm_num

theorem inner_laplace : laplace inner.mu (inner.r, inner.v) = ⟨3 / 5, 0, 0⟩ := by
  unfold laplace
  rw [inner_r]
  unfold sub smul dot inner
  ext <;> norm_num

theorem e_norm : norm (⟨3 / 5, 0, 0⟩ : V3) = 3 / 5 := norm_of_sq (by norm_num) (by norm_num)

theorem outer_elements : (Kep.cartesianToKeplerian outer.r outer.v outer.t0 outer.mu).a = some 1 ∧
    (Kep.cartesianToKeplerian outer.r outer.v outer.t0 outer.mu).e = 3 / 5 := by
  unfold Kep.cartesianToKeplerian
  simp only
  rw [outer_e, e_norm, outer_r, outer_v]
  refine ⟨?_, rfl⟩
  rw [if_neg (by unfold Kep.parabolic Kep.tolerance; norm_num)]
  unfold outer
  norm_num

theorem hit : ellipsePoint 1 (3 / 5) (π / 2) = inner.r := by
  rw [ellipsePoint_eq ⟨by norm_num, by norm_num⟩, cos_pi_div_two, sin_pi_div_two]
  have : √(1 - (3 / 5 : ℝ) ^ 2) = 4 / 5 := by
    rw [show 1 - (3 / 5 : ℝ) ^ 2 = (4 / 5) ^ 2 by norm_num, sqrt_sq (by norm_num)]
  rw [this]
  unfold inner
  ext <;> norm_num

/-- C41. Not true for other orbits: of two ellipses in the reference plane, one inside the other and nowhere closer than 0.144 to it,
the distance reported by a perfect minimiser is 0. -/
theorem C41_touching_false {prop : Orbit → ℝ → V3} {min : Minimiser} (hprop : Follows prop inner) (hmin : Perfect min) :
    (∃ T, calculateMoid prop min inner outer = .ok (some 0, T)) ∧
    ∀ X Y, OnOrbit inner X → OnOrbit outer Y → 0.144 ≤ norm (sub X Y) := by
  have hci : cross inner.r inner.v ≠ ⟨0, 0, 0⟩ := by rw [inner_cross]; intro h; rw [V3.mk.injEq] at h; norm_num at h
  have hco : cross outer.r outer.v ≠ ⟨0, 0, 0⟩ := by rw [outer_cross]; intro h; rw [V3.mk.injEq] at h; norm_num at h
  have hmi : 0 < inner.mu := by unfold inner; norm_num
  have hmo : 0 < outer.mu := by unfold outer; norm_num
  constructor
  · obtain ⟨A, -, -, hup⟩ := upper_elliptic hmi hci (by rw [inner_e, e_norm]; norm_num)
    have hpos := upper_pos hmi hci hup
    have hproj : project inner.r outer = some inner.r := by
      unfold project
      simp only
      rw [if_neg (fun h0 => hco (norm_eq_zero.mp h0)), outer_cross]
      unfold sub smul dot inner
      simp
    have h0 : pointDistance min inner.r outer = some 0 := by
      unfold pointDistance
      rw [hproj]
      simp only
      unfold minimizeCoplanar
      rw [outer_elements.1, outer_elements.2]
      have hl : Least (fun u => coplanarDistance inner.r (some 1) (3 / 5) u) 0 (2 * π) 0 := by
        refine ⟨⟨π / 2, by positivity, by linarith [pi_pos], ?_⟩, ?_⟩
        · unfold coplanarDistance
          simp only
          rw [if_pos (by norm_num), hit]
          congr 1
          exact norm_eq_zero.mpr (by unfold sub; simp)
        · intro y d _ _ hd
          unfold coplanarDistance at hd
          simp only at hd
          rw [if_pos (by norm_num), Option.some.injEq] at hd
          rw [← hd]
          exact norm_nonneg _
      rw [(hmin.least _ _ _ _ (by positivity) hl).2]
      simp only [Option.some.injEq]
      have : norm (sub inner.r inner.r) = 0 := norm_eq_zero.mpr (by unfold sub; simp)
      rw [this]
      simp
    have hl : Least (distanceAt prop min inner outer) 0 (calcPeriod A inner.mu) 0 := by
      refine ⟨⟨0, le_refl _, hpos.le, ?_⟩, fun y d _ _ hd => distance_nonneg hd⟩
      unfold distanceAt
      rw [add_zero, start hprop, h0]
    obtain ⟨r1, r2⟩ := hmin.least _ _ _ _ hpos hl
    refine ⟨inner.t0 + (min (distanceAt prop min inner outer) 0 (calcPeriod A inner.mu)).x, ?_⟩
    unfold calculateMoid
    rw [hup]
    simp only
    rw [if_neg (by rw [r1]; simp), r2]
  · intro X Y hX hY
    obtain ⟨-, c1, -⟩ := conic hmi hci hX
    obtain ⟨-, c2, -⟩ := conic hmo hco hY
    rw [inner_laplace, inner_cross, norm_sq] at c1
    rw [outer_laplace, outer_cross, norm_sq] at c2
    have m1 : inner.mu = 1 := rfl
    have m2 : outer.mu = 1 := rfl
    rw [m1] at c1
    rw [m2] at c2
    unfold dot at c1 c2
    simp only at c1 c2
    have t1 : norm Y ≤ norm X + norm (sub X Y) := by
      have := norm_sub_norm_le Y.toE X.toE
      rw [← toE_sub, norm_toE, norm_toE, norm_toE] at this
      have e : norm (sub Y X) = norm (sub X Y) := by unfold V3.norm sub; congr 1; simp only; ring
      linarith
    have t2 : Y.x - X.x ≤ norm (sub X Y) := by
      have h1 := norm_sq (sub X Y)
      unfold dot sub at h1
      simp only at h1
      refine abs_le_of_sq_le_sq' ?_ (norm_nonneg _) |>.2
      change _ ≤ norm (⟨X.x - Y.x, X.y - Y.y, X.z - Y.z⟩ : V3) ^ 2
      rw [h1]
      nlinarith [sq_nonneg (X.y - Y.y), sq_nonneg (X.z - Y.z)]
    norm_num at c1 c2 ⊢
    linarith

/-- The circle of radius 1 in the plane of x and z. -/
noncomputable def small : Orbit := ⟨"small", 0, ⟨0, 0, 1⟩, ⟨1, 0, 0⟩, 1⟩

/-- The circle of radius 3 in the plane of y and z. -/
noncomputable def large : Orbit := ⟨"large", 0, ⟨0, 0, 3⟩, ⟨0, √(1 / 3), 0⟩, 1⟩

/-- C41. Not true for circles that are not in the reference plane: whatever the minimiser finds, the distance reported for these two
circles, which approach each other to a distance of 2, is √10. -/
theorem C41_circles_false {prop : Orbit → ℝ → V3} {min : Minimiser} (hprop : Follows prop small) (hmin : Faithful min) :
    (∀ m T, calculateMoid prop min small large = .ok (m, T) → m = some √10) ∧
    ∃ X Y, OnOrbit small X ∧ OnOrbit large Y ∧ norm (sub X Y) = 2 := by
  have s3 : √(1 / 3) * √(1 / 3) = 1 / 3 := mul_self_sqrt (by norm_num)
  have sp : 0 < √(1 / 3 : ℝ) := sqrt_pos.mpr (by norm_num)
  have hcs : cross small.r small.v = ⟨0, 1, 0⟩ := by unfold cross small; ext <;> norm_num
  have hcl : cross large.r large.v = ⟨-3 * √(1 / 3), 0, 0⟩ := by unfold cross large; ext <;> simp
  have hcs' : cross small.r small.v ≠ ⟨0, 0, 0⟩ := by rw [hcs]; intro h; rw [V3.mk.injEq] at h; norm_num at h
  have hcl' : cross large.r large.v ≠ ⟨0, 0, 0⟩ := by
    rw [hcl]; intro h; rw [V3.mk.injEq] at h; nlinarith [h.1]
  have hms : 0 < small.mu := by unfold small; norm_num
  have hml : 0 < large.mu := by unfold large; norm_num
  have nr : norm small.r = 1 := norm_of_sq (by norm_num) (by unfold small; norm_num)
  have nlr : norm large.r = 3 := norm_of_sq (by norm_num) (by unfold large; norm_num)
  have nlv : norm large.v = √(1 / 3) := norm_of_sq sp.le (by unfold large; simp only; ring)
  have nlv2 : norm large.v ^ 2 = 1 / 3 := by rw [nlv, sq]; exact s3
  constructor
  · intro m T h
    have hel : (Kep.cartesianToKeplerian large.r large.v large.t0 large.mu).a = some 3 ∧
        (Kep.cartesianToKeplerian large.r large.v large.t0 large.mu).e = 0 := by
      have he : norm (Kep.eVec large.mu large.r large.v) = 0 := by
        refine norm_eq_zero.mpr ?_
        unfold Kep.eVec
        rw [nlr, nlv2]
        unfold sub smul dot large
        ext <;> norm_num
      unfold Kep.cartesianToKeplerian
      simp only
      rw [he, nlr, nlv2]
      refine ⟨?_, rfl⟩
      rw [if_neg (by unfold Kep.parabolic Kep.tolerance; norm_num)]
      unfold large
      norm_num
    have hlap : laplace small.mu (small.r, small.v) = ⟨0, 0, 0⟩ := by
      unfold laplace
      rw [nr]
      unfold sub smul dot small
      ext <;> norm_num
    unfold calculateMoid at h
    cases hu : upper small with
    | none => rw [hu] at h; simp at h
    | some hi =>
      rw [hu] at h
      simp only at h
      split_ifs at h with hst
      rw [Except.ok.injEq, Prod.mk.injEq] at h
      push Not at hst
      obtain ⟨-, -, h3, h4⟩ := hmin (distanceAt prop min small large) 0 hi (upper_pos hms hcs' hu)
      rw [← h.1, h3]
      cases hf : distanceAt prop min small large (min (distanceAt prop min small large) 0 hi).x with
      | none => exact absurd hst (h4 hf)
      | some d =>
        congr 1
        have hf' : pointDistance min (prop small (small.t0 + (min (distanceAt prop min small large) 0 hi).x)) large = some d := hf
        clear hf
        obtain ⟨X, hXd⟩ : ∃ X, X = prop small (small.t0 + (min (distanceAt prop min small large) 0 hi).x) := ⟨_, rfl⟩
        rw [← hXd] at hf'
        have hX : OnOrbit small X := by
          obtain ⟨P, Q, m1, m2, m3, m4⟩ := hprop
          rw [hXd]
          exact ⟨P, Q, _, m1, m2, m3, (m4 _).symm⟩
        obtain ⟨k1, k2, -⟩ := conic hms hcs' hX
        rw [hcs] at k1
        rw [hlap, hcs, norm_sq] at k2
        unfold dot at k1 k2
        simp only at k1 k2
        have hy : X.y = 0 := by linarith
        have hn : norm X = 1 := by
          have : small.mu = 1 := rfl
          rw [this] at k2
          linarith
        have hn2 : X.x * X.x + X.z * X.z = 1 := by
          have := norm_sq X
          rw [hn] at this
          unfold dot at this
          rw [hy] at this
          linarith
        have hproj : project X large = some ⟨0, X.y, X.z⟩ := by
          unfold project
          simp only
          rw [if_neg (fun h0 => hcl' (norm_eq_zero.mp h0)), hcl]
          have : norm (⟨-3 * √(1 / 3), 0, 0⟩ : V3) = 3 * √(1 / 3) := norm_of_sq (by positivity) (by ring)
          rw [this]
          congr 1
          unfold sub smul dot
          ext
          · simp only; field_simp; ring
          · simp
          · simp
        unfold pointDistance at hf'
        rw [hproj] at hf'
        simp only at hf'
        unfold minimizeCoplanar at hf'
        rw [hel.1, hel.2] at hf'
        have := (hmin (fun u => coplanarDistance ⟨0, X.y, X.z⟩ (some 3) 0 u) 0 (2 * π) (by positivity)).2.2.1
        rw [this] at hf'
        generalize (min (fun u => coplanarDistance ⟨0, X.y, X.z⟩ (some 3) 0 u) 0 (2 * π)).x = u at hf'
        unfold coplanarDistance at hf'
        simp only at hf'
        rw [if_pos one_pos] at hf'
        simp only [Option.some.injEq] at hf'
        rw [← hf', ellipsePoint_zero, norm_sq, norm_sq]
        congr 1
        unfold dot sub
        simp only
        have := sin_sq_add_cos_sq u
        rw [hy]
        linear_combination hn2 + 9 * this
  · refine ⟨_, _, on_start hms hcs', on_start hml hcl', ?_⟩
    exact norm_of_sq (by norm_num) (by unfold sub small large; norm_num)

/-- A circle of radius 1 in the reference plane. -/
noncomputable def unit : Orbit := ⟨"unit", 0, ⟨1, 0, 0⟩, ⟨0, 1, 0⟩, 1⟩

theorem unit_circle : PlanarCircle unit := by
  have h1 : norm unit.r = 1 := norm_of_sq (by norm_num) (by unfold unit; norm_num)
  have h2 : norm unit.v = 1 := norm_of_sq (by norm_num) (by unfold unit; norm_num)
  refine ⟨by unfold unit; norm_num, rfl, rfl, ?_, ?_, ?_⟩
  · intro h
    have : unit.r.x = 0 := by rw [h]
    unfold unit at this
    norm_num at this
  · unfold dot unit
    norm_num
  · rw [h1, h2]
    unfold unit
    norm_num

/-- The hypotheses of `C41_circle_minimum` hold for the ellipse `inner` and the unit circle. -/
example : ∃ (prop : Orbit → ℝ → V3) (min : Minimiser) (m T : ℝ), calculateMoid prop min inner unit = .ok (some m, T) ∧
    IsLeast {d | ∃ X Y, OnOrbit inner X ∧ OnOrbit unit Y ∧ d = norm (sub X Y)} m := by
  have hci : cross inner.r inner.v ≠ ⟨0, 0, 0⟩ := by rw [inner_cross]; intro h; rw [V3.mk.injEq] at h; norm_num at h
  have hmi : 0 < inner.mu := by unfold inner; norm_num
  obtain ⟨p, q, h1, h2, h3⟩ := C35_motion_exists hmi hci inner.t0
  have hV : ∀ e : E3, ∃ X : V3, X.toE = e := by
    intro e
    refine ⟨⟨e 0, e 1, e 2⟩, ?_⟩
    ext i
    fin_cases i <;> rfl
  choose back hback using hV
  obtain ⟨min, hmin⟩ := perfect_exists
  obtain ⟨m, T, h4, h5⟩ := C41_circle_minimum (prop := fun _ t => back (p t)) (p := inner) (s := unit) hmi hci
    (by rw [inner_e, e_norm]; norm_num) ⟨p, q, h1, h2, h3, fun t => hback _⟩ hmin unit_circle
  exact ⟨_, min, m, T, h4, h5⟩

end Verif.Moid.Props
