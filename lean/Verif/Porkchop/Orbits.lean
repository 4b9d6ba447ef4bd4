import Verif.Porkchop.Model
import Verif.Sph.Model
import Verif.Mpc.Model

/-! # Orbits and departure directions of Lambert solutions (missions/porkchop.py)

Numbers are exact reals instead of float64; `none` is NaN. -/

namespace Verif.Porkchop

open Classical Verif

/-- A row of the orbits made from a `LambertSolutions` table: no covariance, no object id. Used for porkchop.py:237-318. -/
structure OrbitRow where
  id : List Char
  days : ℤ
  nanos : ℤ
  r : V3
  v : Option V3
  origin : String
  frame : String

/-- `departure_body_orbit`. porkchop.py:237-254. -/
def departureBodyOrbit (S : Solutions) : List OrbitRow :=
  S.rows.map fun s => ⟨s.dep.id.toList, s.dep.days, s.dep.nanos, s.dep.r, some s.dep.v, s.origin, S.frame⟩

/-- `arrival_body_orbit`. porkchop.py:256-273. -/
def arrivalBodyOrbit (S : Solutions) : List OrbitRow :=
  S.rows.map fun s => ⟨s.arr.id.toList, s.arr.days, s.arr.nanos, s.arr.r, some s.arr.v, s.origin, S.frame⟩

/-- `solution_departure_orbit`. porkchop.py:275-296. -/
def solutionDepartureOrbit (S : Solutions) : List OrbitRow :=
  S.rows.mapIdx fun i s => ⟨"solution_departure_orbit_".toList ++ Mpc.dec i, s.dep.days, s.dep.nanos, s.dep.r, s.v.map Prod.fst,
    s.origin, S.frame⟩

/-- `solution_arrival_orbit`. porkchop.py:298-318. -/
def solutionArrivalOrbit (S : Solutions) : List OrbitRow :=
  S.rows.mapIdx fun i s => ⟨"solution_arrival_orbit_".toList ++ Mpc.dec i, s.arr.days, s.arr.nanos, s.arr.r, s.v.map Prod.snd,
    s.origin, S.frame⟩

/-- The frames of departure vectors. Used for porkchop.py:415-482. The rotating frame ITRF93 is left out. -/
inductive Axes
  | ecliptic
  | equatorial
  deriving DecidableEq

/-- The rotation to equatorial axes in `transform_coordinates`, with the obliquity `ε`. Used for porkchop.py:475-480. -/
noncomputable def toEquatorial (ε : ℝ) (f : Axes) (a : V3) : V3 :=
  match f with
  | .equatorial => a
  | .ecliptic => ⟨a.x, Real.cos ε * a.y - Real.sin ε * a.z, Real.sin ε * a.y + Real.cos ε * a.z⟩

/-- One row of `departure_spherical_coordinates`; a division by zero gives NaN. porkchop.py:448-481. -/
noncomputable def departureRow (ε : ℝ) (f : Axes) (v : V3) : Option Sph.Spherical :=
  let m := Real.sqrt (v.x ^ 2 + v.y ^ 2 + v.z ^ 2)
  if m = 0 then none
  else some (Sph.cartesianToSpherical (toEquatorial ε f ⟨v.x / m, v.y / m, v.z / m⟩, toEquatorial ε f ⟨0, 0, 0⟩))

/-- `departure_spherical_coordinates`. porkchop.py:415-482. Times only count; the origin stays the same. -/
noncomputable def departureSpherical (ε : ℝ) (f : Axes) (times : Nat) (vx vy vz : List ℝ) : Except PyErr (List (Option Sph.Spherical)) :=
  if ¬ (vx.length = vy.length ∧ vy.length = vz.length ∧ vz.length = times) then .error .assertionError
  else if vx.length = 0 then .error .assertionError
  else .ok (List.zipWith (fun x p => departureRow ε f ⟨x, p.1, p.2⟩) vx (vy.zip vz))

end Verif.Porkchop
