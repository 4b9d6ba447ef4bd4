import Verif.Kep.Model
import Verif.Sched.Model

/-! # Minimum orbit intersection distances (dynamics/moid.py)

Numbers are exact reals instead of float64; `none` is NaN. `scipy.optimize.minimize_scalar` is an arbitrary function from an objective
and two bounds to a result; `_propagate_2body` (C35) and `get_perturber_state` (C22) are arbitrary as well. -/

namespace Verif.Moid

open Classical Verif Sched V3 Real

/-- What `minimize_scalar` returns. Used for moid.py:87-102. -/
structure Opt where
  x : ℝ
  fn : Option ℝ
  status : ℤ

/-- `minimize_scalar(f, bounds=(lo, hi), method="bounded")`. Used for moid.py:87-102. -/
abbrev Minimiser := (ℝ → Option ℝ) → ℝ → ℝ → Opt

/-- One orbit: id, epoch (MJD), position, velocity and the gravitational parameter of its origin. Used for moid.py:54-64. -/
structure Orbit where
  id : String
  t0 : ℝ
  r : V3
  v : V3
  mu : ℝ

/-- `project_point_on_plane`; NaN for a state without angular momentum. moid.py:54-64. -/
noncomputable def project (P0 : V3) (o : Orbit) : Option V3 :=
  let h := cross o.r o.v
  if norm h = 0 then none
  else
    let n := smul (1 / norm h) h
    some (sub P0 (smul (dot P0 n) n))

/-- `2 * np.arctan(k * np.tan(u / 2))`; the tangent of the float64 nearest to a right angle is so large that the result is π.
moid.py:75, 77. -/
noncomputable def twiceArctan (k u : ℝ) : ℝ := if cos (u / 2) = 0 then π else 2 * arctan (k * tan (u / 2))

/-- `r_vec`. moid.py:74-81. -/
noncomputable def ellipsePoint (a e u : ℝ) : V3 :=
  let E := twiceArctan (√((1 - e) / (1 + e))) u
  let v := twiceArctan (√((1 + e) / (1 - e))) u
  let r := a * (1 - e * cos E)
  ⟨r * cos v, r * sin v, 0⟩

/-- `coplanar_distance_to_ellipse`; NaN unless the orbit is an ellipse, and for the semi-major axis of a parabola. moid.py:67-84. -/
noncomputable def coplanarDistance (P : V3) (a : Option ℝ) (e u : ℝ) : Option ℝ :=
  match a with
  | none => none
  | some a => if e < 1 then some (norm (sub P (ellipsePoint a e u))) else none

/-- `minimize_distance_from_coplanar_point_to_ellipse`: the status is not looked at. moid.py:87-102. -/
noncomputable def minimizeCoplanar (min : Minimiser) (P : V3) (a : Option ℝ) (e : ℝ) : Option ℝ :=
  (min (fun u => coplanarDistance P a e u) 0 (2 * π)).fn

/-- `calculate_distance_from_point_to_ellipse` and `distance_from_point_to_ellipse`. moid.py:105-128. -/
noncomputable def pointDistance (min : Minimiser) (P0 : V3) (o : Orbit) : Option ℝ :=
  match project P0 o with
  | none => none
  | some P =>
    let k := Kep.cartesianToKeplerian o.r o.v o.t0 o.mu
    match minimizeCoplanar min P k.a k.e with
    | none => none
    | some d => some (√(norm (sub P P0) ^ 2 + d ^ 2))

/-- `calculate_moid_for_dt`. `prop` is the position of `_propagate_2body`: orbit, new time. moid.py:131-146. -/
noncomputable def distanceAt (prop : Orbit → ℝ → V3) (min : Minimiser) (p s : Orbit) (dt : ℝ) : Option ℝ :=
  pointDistance min (prop p (p.t0 + dt)) s

/-- The period; a negative semi-major axis, for which the code gives infinity, does not occur below eccentricity 1. kepler.py:13-30. -/
noncomputable def calcPeriod (a mu : ℝ) : ℝ := 2 * π * √(a ^ 3 / mu)

/-- The upper bound of the search; `none`: NaN, the period of a parabola. moid.py:156-162. -/
noncomputable def upper (p : Orbit) : Option ℝ :=
  let k := Kep.cartesianToKeplerian p.r p.v p.t0 p.mu
  if k.e < 1 then k.a.map fun a => calcPeriod a p.mu else some 10000

/-- `calculate_moid`: distance and MJD. Bounds that are not finite are refused by SciPy. moid.py:150-178. -/
noncomputable def calculateMoid (prop : Orbit → ℝ → V3) (min : Minimiser) (p s : Orbit) : Except PyErr (Option ℝ × ℝ) :=
  match upper p with
  | none => .error .valueError
  | some hi =>
    let res := min (distanceAt prop min p s) 0 hi
    if res.status ≠ 0 then .error .valueError else .ok (res.fn, p.t0 + res.x)

/-- A row of `PerturberMOIDs`. moid.py:47-51. -/
structure MoidRow where
  id : String
  perturber : String
  moid : Option ℝ
  time : ℝ

/-- `moid_worker` on a chunk of orbits. `state` is `get_perturber_state`: the orbit of the perturber through its state at the epoch.
moid.py:181-209. -/
noncomputable def worker (prop : Orbit → ℝ → V3) (min : Minimiser) (state : String → ℝ → Except PyErr Orbit) (chunk : List Orbit)
    (perturber : String) : Except PyErr (List MoidRow) :=
  match gather (fun o => state perturber o.t0) chunk with
  | .error e => .error e
  | .ok states =>
    gather (fun (o, s) =>
      match calculateMoid prop min o s with
      | .error e => .error e
      | .ok m => .ok ⟨o.id, perturber, m.1, m.2⟩) (List.zip chunk states)

/-- `calculate_perturber_moids`. `origins` are the origin codes of the orbits. `maxProc = none` stands for `None`: ray is used, and the
comparison of the number of futures with `None * 1.5` raises TypeError. moid.py:215-293. -/
noncomputable def calculatePerturberMoids (prop : Orbit → ℝ → V3) (min : Minimiser) (state : String → ℝ → Except PyErr Orbit)
    (pick : Nat → Nat) (orbits : List Orbit) (origins : List String) (perturbers : List String) (chunkSize : ℤ) (maxProc : Option ℤ) :
    Except PyErr (List MoidRow) :=
  if (uniq (orbits.map Orbit.id)).length ≠ orbits.length then .error .assertionError
  else if (uniq origins).length ≠ 1 then .error .assertionError
  else if perturbers = [] then .ok []
  else
    match Chunk.iterateChunks orbits chunkSize with
    | .error e => .error e
    | .ok chunks =>
      let tasks := perturbers.flatMap fun b => chunks.map fun c => (c, b)
      match maxProc with
      | none => if tasks = [] then .ok [] else .error .typeError
      | some n =>
        if n > 1 then
          match runTasks (atLeast n.toNat) pick (fun t => worker prop min state t.1 t.2) tasks with
          | .error e => .error e
          | .ok parts => .ok parts.flatten
        else
          match gather (fun t => worker prop min state t.1 t.2) tasks with
          | .error e => .error e
          | .ok parts => .ok parts.flatten

end Verif.Moid
