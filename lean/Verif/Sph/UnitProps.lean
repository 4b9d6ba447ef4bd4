import Verif.Sph.Unit
import Verif.Sph.Props

/-! # Coordinates on the unit sphere: the properties -/

namespace Verif.Sph.UnitProps

open Real Kep Sph Sph.Props

variable {γ : Type}

/-- Row by row: without `only_missing` the distance is 1 and its rate 0; with it, only where they were missing. Angles, their rates, times,
covariances and origins stay. -/
theorem C167_rows (om : Bool) (rows : List (SphRow γ)) :
    (toUnitSphere om rows).length = rows.length ∧
    ∀ (i : Nat) (r : SphRow γ), rows[i]? = some r → ∃ u, (toUnitSphere om rows)[i]? = some u ∧
      (u.lon, u.lat, u.vlon, u.vlat, u.rest) = (r.lon, r.lat, r.vlon, r.vlat, r.rest) ∧
      (om = false → u.rho = some 1 ∧ u.vrho = some 0) ∧
      (om = true → (∀ x, r.rho = some x → u.rho = some x) ∧ (r.rho = none → u.rho = some 1) ∧
        (∀ x, r.vrho = some x → u.vrho = some x) ∧ (r.vrho = none → u.vrho = some 0)) := by
  refine ⟨by simp [toUnitSphere], fun i r hr => ⟨unitRow om r, by simp [toUnitSphere, hr], ?_⟩⟩
  obtain ⟨rho, lon, lat, vrho, vlon, vlat, rest⟩ := r
  cases om <;> cases rho <;> cases vrho <;> simp [unitRow]

/-- Doing it again changes nothing, and neither does asking for the missing ones afterwards. -/
theorem C167_again (om : Bool) (rows : List (SphRow γ)) :
    toUnitSphere om (toUnitSphere om rows) = toUnitSphere om rows ∧ toUnitSphere true (toUnitSphere om rows) = toUnitSphere om rows ∧
    toUnitSphere false (toUnitSphere om rows) = toUnitSphere false rows := by
  unfold toUnitSphere
  simp only [List.map_map]
  refine ⟨?_, ?_, ?_⟩ <;>
    (apply List.map_congr_left
     rintro ⟨rho, lon, lat, vrho, vlon, vlat, rest⟩ -
     cases om <;> cases rho <;> cases vrho <;> simp [unitRow])

/-- The position of a row that has a longitude and a latitude is a unit vector; for a row with a positive distance it is the old position
divided by that distance. -/
theorem C167_direction (r : SphRow γ) {lon lat : ℝ} (h1 : r.lon = some lon) (h2 : r.lat = some lat) :
    ∃ u, rowPosition (unitRow false r) = some u ∧ V3.norm u = 1 ∧
      (r.rho = none → rowPosition (unitRow true r) = some u) ∧
      ∀ rho, r.rho = some rho → rowPosition r = some (V3.smul rho u) ∧ rowPosition (unitRow true r) = some (V3.smul rho u) := by
  obtain ⟨rho, _, _, vrho, vlon, vlat, rest⟩ := r
  cases h1; cases h2
  refine ⟨(sphericalToCartesian ⟨1, lon, lat, 0, 0, 0⟩).1, ?_, ?_, ?_, ?_⟩
  · cases rho <;> cases vrho <;> rfl
  · unfold V3.norm sphericalToCartesian
    rw [show ∀ a : ℝ, √a = 1 ↔ a = 1 from fun a => Real.sqrt_eq_one]
    have e1 := Real.sin_sq_add_cos_sq (radians lat)
    have e2 := Real.sin_sq_add_cos_sq (radians lon)
    simp only
    linear_combination e1 + cos (radians lat) ^ 2 * e2
  · intro h
    cases h
    cases vrho <;> rfl
  · intro rho' h
    cases h
    have : (sphericalToCartesian ⟨rho', lon, lat, 0, 0, 0⟩).1 = V3.smul rho' (sphericalToCartesian ⟨1, lon, lat, 0, 0, 0⟩).1 := by
      unfold sphericalToCartesian V3.smul
      ext <;> simp only <;> ring
    exact ⟨congrArg some this, by cases vrho <;> exact congrArg some this⟩

/-- The velocity of a full row becomes the part across the line of sight, divided by the distance. -/
theorem C167_velocity (r : SphRow γ) {s : State} (h : rowState r = some s) {rho : ℝ} (hr : r.rho = some rho) (hpos : 0 < rho) :
    ∃ u, rowState (unitRow false r) = some u ∧ u.1 = V3.smul (1 / rho) s.1 ∧ V3.dot u.1 u.2 = 0 ∧
      s.2 = V3.add (V3.smul (V3.dot u.1 s.2) u.1) (V3.smul rho u.2) := by
  obtain ⟨_, lon, lat, vrho, vlon, vlat, rest⟩ := r
  cases hr
  cases lon with
  | none => cases h
  | some lon => cases lat with
    | none => cases h
    | some lat => cases vrho with
      | none => cases h
      | some vrho => cases vlon with
        | none => cases h
        | some vlon => cases vlat with
          | none => cases h
          | some vlat =>
            cases h
            refine ⟨sphericalToCartesian ⟨1, lon, lat, 0, vlon, vlat⟩, rfl, ?_, ?_, ?_⟩
            · unfold sphericalToCartesian V3.smul
              ext <;> simp only <;> field_simp
            · unfold sphericalToCartesian V3.dot
              simp only
              linear_combination -(sin (radians lat) * cos (radians lat) * radians vlat) * Real.sin_sq_add_cos_sq (radians lon)
            · have e1 := Real.sin_sq_add_cos_sq (radians lat)
              have e2 := Real.sin_sq_add_cos_sq (radians lon)
              have hd : V3.dot (sphericalToCartesian ⟨1, lon, lat, 0, vlon, vlat⟩).1 (sphericalToCartesian ⟨rho, lon, lat, vrho, vlon, vlat⟩).2 = vrho := by
                unfold sphericalToCartesian V3.dot
                simp only
                linear_combination vrho * (e1 + cos (radians lat) ^ 2 * e2) - rho * sin (radians lat) * cos (radians lat) * radians vlat * e2
              rw [hd]
              unfold sphericalToCartesian V3.smul V3.add
              ext <;> simp only <;> ring

/-- Back in spherical coordinates a full row has its angles and their rates, range 1 and no radial rate. -/
theorem C167_back (r : SphRow γ) {lon lat vlon vlat : ℝ} (h1 : r.lon = some lon) (h2 : r.lat = some lat) (h3 : r.vlon = some vlon)
    (h4 : r.vlat = some vlat) (hl : 0 ≤ lon ∧ lon < 360) (hb : -90 < lat ∧ lat < 90) :
    (rowState (unitRow false r)).map cartesianToSpherical = some ⟨1, lon, lat, 0, vlon, vlat⟩ := by
  obtain ⟨rho, _, _, vrho, _, _, rest⟩ := r
  cases h1; cases h2; cases h3; cases h4
  have : rowState (unitRow false ⟨rho, some lon, some lat, vrho, some vlon, some vlat, rest⟩) =
      some (sphericalToCartesian ⟨1, lon, lat, 0, vlon, vlat⟩) := by
    cases rho <;> cases vrho <;> rfl
  rw [this, Option.map_some, C44_spherical (c := ⟨1, lon, lat, 0, vlon, vlat⟩) one_pos hl hb]

/-- Not true: that with `only_missing` all rows are on the unit sphere; and the covariance, here the standard deviation of the distance in
`rest`, is not that of the new coordinates. -/
theorem C167_missing_false :
    (toUnitSphere true [(⟨some 3, some 10, some 20, none, none, none, (0.5 : ℝ)⟩ : SphRow ℝ), ⟨none, some 10, some 20, none, none, none, 0.5⟩]) =
      [⟨some 3, some 10, some 20, some 0, none, none, 0.5⟩, ⟨some 1, some 10, some 20, some 0, none, none, 0.5⟩] ∧
    (toUnitSphere false [(⟨some 3, some 10, some 20, none, none, none, (0.5 : ℝ)⟩ : SphRow ℝ)]) =
      [⟨some 1, some 10, some 20, some 0, none, none, 0.5⟩] := by
  simp [toUnitSphere, unitRow]

end Verif.Sph.UnitProps
