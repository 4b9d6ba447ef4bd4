import Verif.V3
import Mathlib.Geometry.Euclidean.Angle.Unoriented.Basic
import Mathlib.Analysis.SpecialFunctions.Log.Base
import Mathlib.Analysis.SpecialFunctions.Pow.Real

/-! # What the H-G system says (Bowell et al. 1989) -/

namespace Verif.Hg.Spec

/-- The angle at the object between the direction of the Sun (the origin) and that of the observer, in radians. -/
noncomputable def phaseAngle (object observer : V3) : ℝ :=
  InnerProductGeometry.angle (0 - object.toE) (observer.toE - object.toE)

/-- The two phase functions and their mixture, for an angle below 180 degrees. -/
noncomputable def phi (A B α : ℝ) : ℝ := Real.exp (-A * Real.tan (α / 2) ^ B)

noncomputable def phase (G α : ℝ) : ℝ := (1 - G) * phi 3.33 0.63 α + G * phi 1.87 1.22 α

/-- Distances from the Sun and from the observer. -/
noncomputable def fromSun (object : V3) : ℝ := dist object.toE 0
noncomputable def fromObserver (object observer : V3) : ℝ := dist object.toE observer.toE

end Verif.Hg.Spec
