import Verif.Ric.Model
import Verif.Cart.Model
import Verif.Xform.Model

/-! # Model of spheres and ellipsoids (`src/adam_core/dynamics/plots.py`, `src/adam_core/orbits/plots.py`)

Exact real arithmetic. Rows of points are rows of the grid that the surface is drawn from. -/

namespace Verif.Viz

open Verif Ric

/-- `np.linspace(a, b, n)`. dynamics/plots.py:290-291, orbits/plots.py:215-216. -/
noncomputable def linspace (a b : ℝ) (n : Nat) : List ℝ := (List.range n).map fun k : Nat => a + k * ((b - a) / ((n : ℝ) - 1))

/-- A point of the sphere. dynamics/plots.py:294-300. -/
noncomputable def spherePoint (radius : ℝ) (offset : V3) (phi theta : ℝ) : V3 :=
  ⟨radius * Real.sin phi * Real.cos theta + offset.x, radius * Real.sin phi * Real.sin theta + offset.y, radius * Real.cos phi + offset.z⟩

/-- `create_sphere`: a row for every `theta`, with a point for every `phi`. dynamics/plots.py:276-302. -/
noncomputable def sphere (radius : ℝ) (offset : Option V3) : List (List V3) :=
  (linspace 0 (2 * Real.pi) 50).map fun theta => (linspace 0 Real.pi 50).map fun phi => spherePoint radius (offset.getD ⟨0, 0, 0⟩) phi theta

/-- `np.dot(p, rotation)`. orbits/plots.py:222-224. -/
def rowTimes (p : V3) (m : Mat3) : V3 := V3.add (V3.smul p.x m.a) (V3.add (V3.smul p.y m.b) (V3.smul p.z m.c))

/-- `ellipsoid`: a row for every `u`, with a point for every `v`. orbits/plots.py:209-225. -/
noncomputable def ellipsoid (center radii : V3) (rotation : Mat3) (n : Nat) : List (List V3) :=
  (linspace 0 (2 * Real.pi) n).map fun u => (linspace 0 Real.pi n).map fun v =>
    V3.add (rowTimes ⟨radii.x * (Real.cos u * Real.sin v), radii.y * (Real.sin u * Real.sin v), radii.z * (1 * Real.cos v)⟩ rotation) center

/-- The surface that `add_observation_plot` adds for one row, with complete position and velocity; `none`: all points are NaN.
orbits/plots.py:228-251. -/
noncomputable def uncertainty (r v : V3) (c : Cart.Cov) (mult : ℝ) : Option (List (List V3)) :=
  let rotated : Cart.Cov := Xform.rotateCov (Matrix.of (ric6 r v)) c
  (Cart.three fun i => Cart.sigma rotated (Cart.col false i)).map fun s => ellipsoid r ⟨s.x * mult, s.y * mult, s.z * mult⟩ (ric3 r v) 100

end Verif.Viz
