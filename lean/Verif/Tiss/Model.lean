import Verif.Basic
import Mathlib.Analysis.SpecialFunctions.Trigonometric.Basic
import Mathlib.Analysis.Real.Sqrt

/-! # Model of Tisserand's parameter

`src/adam_core/dynamics/tisserand.py`, exact real arithmetic. `none` is NaN (root of a negative number). -/

namespace Verif.Tiss

open Verif

/-- `MAJOR_BODIES`. tisserand.py:19-28. -/
noncomputable def majorBodies : List (String × ℝ) :=
  [("mercury", 0.3870970330236769), ("venus", 0.723341974974844), ("earth", 0.9997889954736553), ("mars", 1.523803685638066),
   ("jupiter", 5.203719697535582), ("saturn", 9.579110220472034), ("uranus", 19.18646168457971),
   ("neptune", 30.22486701698071)]

/-- The formula with the semi-major axis of the planet. tisserand.py:63. The division by `a = 0` is not modelled. -/
noncomputable def formula (ap a e iDeg : ℝ) : Option ℝ :=
  let s := a / ap * (1 - e ^ 2)
  if s < 0 then none else some (ap / a + 2 * Real.cos (iDeg * (Real.pi / 180)) * Real.sqrt s)

/-- `calc_tisserand_parameter`. tisserand.py:31-65. -/
noncomputable def tisserand (a e iDeg : ℝ) (body : String) : Except PyErr (Option ℝ) :=
  match majorBodies.lookup body with
  | none => .error .valueError
  | some ap => .ok (formula ap a e iDeg)

end Verif.Tiss
