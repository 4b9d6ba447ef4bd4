import Verif.Kep.Model
import Verif.Aberr.Model
import Verif.F64

/-! # Spherical and geodetic coordinates, and the two-body ephemeris (coordinates/transform.py, dynamics/ephemeris.py)

Numbers are exact reals instead of float64, except for `wrapLonF64`; `none` is NaN. -/

namespace Verif.Sph

open Real Classical Kep

/-- A position and a velocity. Used for transform.py:298-376. -/
abbrev State := V3 × V3

/-- Distance, longitude and latitude in degrees, and their rates. -/
@[ext] structure Spherical where
  rho : ℝ
  lon : ℝ
  lat : ℝ
  vrho : ℝ
  vlon : ℝ
  vlat : ℝ

/-- `jnp.where(lon < 0.0, 2 * jnp.pi + lon, lon)`. transform.py:339, 204. -/
noncomputable def wrapLon (lon : ℝ) : ℝ := if lon < 0 then 2 * π + lon else lon

/-- `_cartesian_to_spherical`. transform.py:298-376. -/
noncomputable def cartesianToSpherical (s : State) : Spherical :=
  let x := s.1.x
  let y := s.1.y
  let z := s.1.z
  let vx := s.2.x
  let vy := s.2.y
  let vz := s.2.z
  let rho := √(x ^ 2 + y ^ 2 + z ^ 2)
  let lon := wrapLon (arctan2 y x)
  let lat := if rho = 0 then 0 else arcsin (z / rho)
  let lat := if lat ≥ 3 * π / 2 ∧ lat ≤ 2 * π then lat - 2 * π else lat
  let vrho := if rho = 0 then 0 else (x * vx + y * vy + z * vz) / rho
  let vlon := if x = 0 ∧ y = 0 then 0 else (vy * x - vx * y) / (x ^ 2 + y ^ 2)
  let vlat := if (x = 0 ∧ y = 0) ∨ rho = 0 then 0 else (vz - vrho * z / rho) / √(x ^ 2 + y ^ 2)
  ⟨rho, degrees lon, degrees lat, vrho, degrees vlon, degrees vlat⟩

/-- `_spherical_to_cartesian`. transform.py:435-502. -/
noncomputable def sphericalToCartesian (c : Spherical) : State :=
  let lon := radians c.lon
  let lat := radians c.lat
  let vlon := radians c.vlon
  let vlat := radians c.vlat
  (⟨c.rho * cos lat * cos lon, c.rho * cos lat * sin lon, c.rho * sin lat⟩,
   ⟨cos lat * cos lon * c.vrho - c.rho * cos lat * sin lon * vlon - c.rho * sin lat * cos lon * vlat,
    cos lat * sin lon * c.vrho + c.rho * cos lat * cos lon * vlon - c.rho * sin lat * sin lon * vlat,
    sin lat * c.vrho + c.rho * cos lat * vlat⟩)

/-- `jnp.pi`, the float64 nearest to π. Used for transform.py:338-339, 370. -/
def pi64 : ℚ := 884279719003555 / 281474976710656

/-- The longitude in degrees from a value of `arctan2`, with the roundings of float64. transform.py:338-339, 370. -/
def wrapLonF64 (lon : ℚ) : ℚ :=
  let lon := if lon < 0 then F64.fl (F64.fl (2 * pi64) + lon) else lon
  F64.fl (lon * F64.fl (180 / pi64))

/-! ### geodetic coordinates -/

/-- A row of `GeodeticCoordinates`. geodetics.py:48-56. -/
structure Geodetic where
  alt : Option ℝ
  lon : ℝ
  lat : Option ℝ
  vup : ℝ
  veast : Option ℝ
  vnorth : Option ℝ

/-- `e2`. transform.py:155-158. -/
noncomputable def ecc2 (a f : ℝ) : ℝ := (a ^ 2 - (a * (1 - f)) ^ 2) / a ^ 2

/-- `N`. transform.py:180, 211. -/
noncomputable def curvature (a f lat : ℝ) : ℝ := a / √(1 - ecc2 a f * sin lat ^ 2)

/-- `xy / cos_lat - N`. transform.py:183, 212. -/
noncomputable def altitude (a f xy lat : ℝ) : Option ℝ :=
  if cos lat = 0 then none else some (xy / cos lat - curvature a f lat)

/-- The loop variables: latitude, its last change, number of iterations; NaN is `none`. Used for transform.py:172-195. -/
structure GIter where
  lat : Option ℝ
  diff : Option ℝ
  iterations : Nat

/-- `_iterate`. The latitude it starts from is the initial guess `lat0`, not the loop variable. transform.py:172-195. -/
noncomputable def gIterate (a f xy z lat0 : ℝ) (p : GIter) : GIter :=
  let N := curvature a f lat0
  let lat := (altitude a f xy lat0).bind fun alt =>
    if N + alt = 0 then none else some (arctan2 z (xy * (1 - ecc2 a f * N / (N + alt))))
  ⟨lat, lat.map fun l => l - lat0, p.iterations + 1⟩

/-- `_while_condition`; a comparison with NaN is false. transform.py:197-200. -/
noncomputable def gCond (tol : ℝ) (maxIter : Nat) (p : GIter) : Bool :=
  match p.diff with
  | none => false
  | some d => decide (|d| > tol ∧ p.iterations ≤ maxIter)

/-- `lax.while_loop`, with at most the given number of rounds; `max_iter + 1` is enough. transform.py:202. -/
noncomputable def gLoop (a f xy z lat0 tol : ℝ) (maxIter : Nat) : Nat → GIter → GIter
  | 0, p => p
  | fuel + 1, p => if gCond tol maxIter p then gLoop a f xy z lat0 tol maxIter fuel (gIterate a f xy z lat0 p) else p

/-- A row of `GeodeticCoordinates.from_cartesian`: the six numbers of `_cartesian_to_geodetic`, in the order in which they are put
in the columns. The API calls it with `max_iter=100`, `tol=1e-15` and the constants of WGS84. transform.py:98-226,
geodetics.py:119-161. -/
noncomputable def cartesianToGeodetic (s : State) (a f : ℝ) (maxIter : Nat) (tol : ℝ) : Geodetic :=
  let x := s.1.x
  let y := s.1.y
  let z := s.1.z
  let xy := √(x ^ 2 + y ^ 2)
  let lat0 := arctan2 z (xy * (1 - ecc2 a f))
  let lat := (gLoop a f xy z lat0 tol maxIter (maxIter + 1) ⟨some lat0, some 1e15, 0⟩).lat
  let lon := wrapLon (arctan2 y x)
  let vEast := -sin lon * s.2.x + cos lon * s.2.y
  let vNorth := lat.map fun l => -sin l * cos lon * s.2.x - sin l * sin lon * s.2.y + cos l * s.2.z
  let vUp := lat.map fun l => cos l * cos lon * s.2.x + cos l * sin lon * s.2.y + sin l * s.2.z
  ⟨lat.bind (altitude a f xy), degrees lon, lat.map degrees, degrees vEast, vNorth.map degrees, vUp⟩

/-! ### the two-body ephemeris -/

/-- `TRANSFORM_EC2EQ @ v`, the transpose of the matrix of src/adam_core/constants.py:32-41; dynamics/ephemeris.py:39-45. -/
noncomputable def ec2eq (ε : ℝ) (v : V3) : V3 := ⟨v.x, cos ε * v.y - sin ε * v.z, sin ε * v.y + cos ε * v.z⟩

/-- `_generate_ephemeris_2body`: the spherical coordinates (NaN if the aberration is), the light time, the orbit when the light
left it. The light-time iteration limit is the default 10 of `_add_light_time`. dynamics/ephemeris.py:49-146. -/
noncomputable def generateEphemeris (prop : State → ℝ → ℝ → State) (ε : ℝ) (orbit : State) (time : ℝ) (observer : State)
    (ltTol : ℝ) (stellarAberration : Bool) : Option Spherical × Option ℝ × State :=
  let r := Aberr.addLightTime prop orbit time observer.1 ltTol 10
  let topo : State := (V3.sub r.1.1 observer.1, V3.sub r.1.2 observer.2)
  let topo : Option State :=
    if stellarAberration then (Aberr.addStellarAberration r.1 observer).map fun p => (p, topo.2) else some topo
  (topo.map fun t => cartesianToSpherical (ec2eq ε t.1, ec2eq ε t.2), r.2, r.1)

end Verif.Sph
