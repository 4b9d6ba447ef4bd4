import Verif.V3

/-! # Model of the radial, in-track, cross-track axes

`src/adam_core/coordinates/cartesian.py:223-255`, one row of coordinates in exact real arithmetic. Rows with missing values are
not modelled. -/

namespace Verif.Ric

open Verif

/-- `SPECIFIC_ANGULAR_MOMENTUM_TOLERANCE`. cartesian.py:24. -/
noncomputable def hTol : ℝ := 1e-20

/-- A 3×3 matrix, by rows. -/
@[ext] structure Mat3 where
  a : V3
  b : V3
  c : V3

/-- `matrix @ x`. Used for cartesian.py:246-255. -/
def Mat3.app (m : Mat3) (x : V3) : V3 := ⟨V3.dot m.a x, V3.dot m.b x, V3.dot m.c x⟩

/-- A row divided by a number. Used for cartesian.py:224-244. -/
noncomputable def divBy (x : V3) (d : ℝ) : V3 := ⟨x.x / d, x.y / d, x.z / d⟩

/-- `CartesianCoordinates.ric3_matrix` for one row. cartesian.py:224-244. -/
noncomputable def ric3 (r v : V3) : Mat3 :=
  let h := V3.cross r v
  let small := V3.norm h < hTol
  let radial := divBy (if small then ⟨1, 0, 0⟩ else r) (if small then 1 else V3.norm r)
  let crossTrack := divBy (if small then ⟨0, 0, 1⟩ else h) (if small then 1 else V3.norm h)
  ⟨radial, V3.cross crossTrack radial, crossTrack⟩

/-- `CartesianCoordinates.ric6_matrix` for one row: zeros, with `ric3` in the two diagonal blocks. cartesian.py:247-255. An
entry of the 3×3 matrix is `entry m i j`. -/
def entry (m : Mat3) (i j : Fin 3) : ℝ :=
  let row := match i with
    | 0 => m.a
    | 1 => m.b
    | 2 => m.c
  match j with
  | 0 => row.x
  | 1 => row.y
  | 2 => row.z

/-- See `entry`. cartesian.py:251-254. -/
noncomputable def ric6 (r v : V3) : Fin 6 → Fin 6 → ℝ := fun i j =>
  if h : i.1 < 3 ∧ j.1 < 3 then entry (ric3 r v) ⟨i.1, h.1⟩ ⟨j.1, h.2⟩
  else if h : 3 ≤ i.1 ∧ 3 ≤ j.1 then entry (ric3 r v) ⟨i.1 - 3, by omega⟩ ⟨j.1 - 3, by omega⟩
  else 0

end Verif.Ric
