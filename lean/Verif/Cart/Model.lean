import Verif.V3
import Verif.Units.Model

/-! # Magnitudes and uncertainties of Cartesian rows (coordinates/cartesian.py)

One row, exact reals; `none` is NaN or null. -/

namespace Verif.Cart

open Verif

/-- The six columns of a row. cartesian.py:62-67. -/
abbrev Row := Fin 6 → Option ℝ

/-- The covariance of a row. Used for cartesian.py:111-179. -/
abbrev Cov := Fin 6 → Fin 6 → Option ℝ

/-- A column of the position or, if `vel`, of the velocity. cartesian.py:70-74, 91-95, 154-158, 168-172. -/
def col (vel : Bool) (i : Fin 3) : Fin 6 := ⟨i.1 + (if vel then 3 else 0), by split <;> omega⟩

/-- Three numbers if none is missing. Used for cartesian.py:77-109. -/
def three (f : Fin 3 → Option ℝ) : Option V3 :=
  match f 0, f 1, f 2 with
  | some a, some b, some c => some ⟨a, b, c⟩
  | _, _, _ => none

/-- `r` or `v`, if complete. cartesian.py:70-74, 91-95. -/
def vec (vel : Bool) (s : Row) : Option V3 := three fun i => s (col vel i)

/-- `r_mag`, `v_mag`: `np.linalg.norm`. cartesian.py:77-81, 98-102. -/
noncomputable def mag (vel : Bool) (s : Row) : Option ℝ := (vec vel s).map fun a => √(a.x ^ 2 + a.y ^ 2 + a.z ^ 2)

/-- `r_hat`, `v_hat` of a complete vector; of zero it is NaN. cartesian.py:84-88, 105-109. -/
noncomputable def hat (vel : Bool) (s : Row) : Option V3 :=
  (vec vel s).bind fun a => (mag vel s).bind fun m => if m = 0 then none else some ⟨a.x / m, a.y / m, a.z / m⟩

/-- `h`: `np.cross(r, v)`, if both are complete. cartesian.py:182-186. -/
def h (s : Row) : Option V3 :=
  (vec false s).bind fun r => (vec true s).map fun v => ⟨r.y * v.z - r.z * v.y, r.z * v.x - r.x * v.z, r.x * v.y - r.y * v.x⟩

/-- `h_mag`. cartesian.py:189-193. -/
noncomputable def hMag (s : Row) : Option ℝ := (h s).map fun a => √(a.x ^ 2 + a.y ^ 2 + a.z ^ 2)

/-- An entry of `covariance.sigmas`: the root of the diagonal, NaN of a negative one. cartesian.py:112-158, 168-172. -/
noncomputable def sigma (c : Cov) (i : Fin 6) : Option ℝ := (c i i).bind fun x => if x < 0 then none else some (√x)

/-- `sigma_r_mag`, `sigma_v_mag`. cartesian.py:161-165, 175-179. -/
noncomputable def sigmaMag (vel : Bool) (c : Cov) : Option ℝ := (three fun i => sigma c (col vel i)).map fun a => √(a.x ^ 2 + a.y ^ 2 + a.z ^ 2)

/-- `values_km`, missing values stay missing. cartesian.py:196-207. -/
noncomputable def valuesKm (u : Units.Consts ℝ) (s : Row) : Row := fun i => (s i).map fun x => if i.1 < 3 then Units.auToKm u x else Units.auDayToKmS u x

/-- `covariance_km`, missing entries stay missing. cartesian.py:257-270. -/
noncomputable def covarianceKm (u : Units.Consts ℝ) (c : Cov) : Cov := fun i j => (c i j).map fun x => x * (Units.vecToKm u i * Units.vecToKm u j)

end Verif.Cart
