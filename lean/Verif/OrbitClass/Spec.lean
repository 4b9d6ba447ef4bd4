import Verif.OrbitClass.Model

/-! # The documented classes, as regions of semi-major axis and eccentricity -/

namespace Verif.OrbitClass.Spec

open Verif.OrbitClass

/-- The rules of the Small Bodies Node for an orbit of semi-major axis `a`, eccentricity `e < 1`, with `q = a (1 - e)` and
`Q = a (1 + e)`. -/
def Rule (a e : ℝ) : Code → Prop
  | .AMO => 1 < a ∧ 1.017 < a * (1 - e) ∧ a * (1 - e) < 1.3
  | .APO => 1 < a ∧ a * (1 - e) < 1.017
  | .ATE => a < 1 ∧ 0.983 < a * (1 + e)
  | .CEN => 5.5 < a ∧ a < 30.1
  | .IEO => a * (1 + e) < 0.983
  | .IMB => a < 2 ∧ 1.666 < a * (1 - e)
  | .MBA => 2 < a ∧ a < 3.2 ∧ 1.666 < a * (1 - e)
  | .MCA => a < 3.2 ∧ 1.3 < a * (1 - e) ∧ a * (1 - e) < 1.666
  | .OMB => 3.2 < a ∧ a < 4.6
  | .TJN => 4.6 < a ∧ a < 5.5 ∧ e < 0.3
  | .TNO => 30.1 < a
  | .PAA => False
  | .HYA => False
  | .AST => False

/-- Elliptic orbits. -/
def Elliptic (a e : ℝ) : Prop := 0 < a ∧ 0 ≤ e ∧ e < 1

/-- Near-Earth: the four classes of the inner region. -/
def NearEarth : Code → Prop
  | .AMO | .APO | .ATE | .IEO => True
  | _ => False

/-- The classes that depend on the semi-major axis alone (and, for Trojans, on the eccentricity). -/
def Outer : Code → Prop
  | .OMB | .TJN | .CEN | .TNO => True
  | _ => False

end Verif.OrbitClass.Spec
