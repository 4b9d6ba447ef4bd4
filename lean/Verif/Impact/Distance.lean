import Verif.Resid.Model

/-! # The distance between two orbits (dynamics/impacts.py)

On top of the model of `Residuals.calculate`: exact reals, NaN is `none`. -/

namespace Verif.Impact.Distance

open Verif Verif.Resid

/-- `np.sqrt`: NaN of a negative number. impacts.py:421. -/
noncomputable def npSqrt (x : Option ℝ) : Option ℝ := x.bind fun c => if c < 0 then none else some (√c)

/-- `calculate_mahalanobis_distance` of the coordinates of the orbits, which are Cartesian. The predicted covariances are used.
impacts.py:399-422. -/
noncomputable def mahalanobis {D : Nat} (cdf : ℝ → Nat → ℝ) (observed predicted : Table D) : Except PyErr (List (Option ℝ)) :=
  match calculate cdf observed predicted false true with
  | .error e => .error e
  | .ok rows => .ok (rows.map fun r => npSqrt r.chi2)

end Verif.Impact.Distance
