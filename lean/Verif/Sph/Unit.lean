import Verif.Sph.Model

/-! # Coordinates on the unit sphere (coordinates/spherical.py)

Numbers are exact reals, `none` is NaN or null. -/

namespace Verif.Sph

open Real Kep

/-- A row of `SphericalCoordinates`. Time, covariance and origin are one thing, `rest`. spherical.py:16-27. -/
structure SphRow (γ : Type) where
  rho : Option ℝ
  lon : Option ℝ
  lat : Option ℝ
  vrho : Option ℝ
  vlon : Option ℝ
  vlat : Option ℝ
  rest : γ

variable {γ : Type}

/-- One row of `to_unit_sphere`. spherical.py:104-134. -/
noncomputable def unitRow (onlyMissing : Bool) (r : SphRow γ) : SphRow γ :=
  let r := if !onlyMissing || r.rho.isNone then { r with rho := some 1 } else r
  if !onlyMissing || r.vrho.isNone then { r with vrho := some 0 } else r

/-- `to_unit_sphere`. The table is a copy, the original is not changed. spherical.py:77-134. -/
noncomputable def toUnitSphere (onlyMissing : Bool) (rows : List (SphRow γ)) : List (SphRow γ) := rows.map (unitRow onlyMissing)

/-- The position of a row in `_spherical_to_cartesian`, which does not use the rates; taken as missing if one of the three coordinates is. transform.py:474-481. -/
noncomputable def rowPosition (r : SphRow γ) : Option V3 :=
  match r.rho, r.lon, r.lat with
  | some rho, some lon, some lat => some (sphericalToCartesian ⟨rho, lon, lat, 0, 0, 0⟩).1
  | _, _, _ => none

/-- The whole state of a row, if it has all six coordinates. transform.py:435-502. -/
noncomputable def rowState (r : SphRow γ) : Option State :=
  match r.rho, r.lon, r.lat, r.vrho, r.vlon, r.vlat with
  | some rho, some lon, some lat, some vrho, some vlon, some vlat => some (sphericalToCartesian ⟨rho, lon, lat, vrho, vlon, vlat⟩)
  | _, _, _, _, _, _ => none

end Verif.Sph
