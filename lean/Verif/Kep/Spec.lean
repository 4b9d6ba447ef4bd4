import Verif.V3
import Verif.Univ.Spec
import Mathlib.Analysis.SpecialFunctions.Trigonometric.Basic
import Mathlib.Analysis.SpecialFunctions.Trigonometric.Inverse
import Mathlib.Analysis.SpecialFunctions.Trigonometric.DerivHyp

/-! # What the anomalies of a Kepler orbit are

The classical relations between the true anomaly `ν`, the auxiliary anomaly and the mean anomaly. Nothing here refers to the
model. -/

namespace Verif.Kep

open Real

/-- `E` is an eccentric anomaly of the true anomaly `ν` on the ellipse of eccentricity `e`: the point at distance `1 - e cos E`
(in units of `a`) in direction `ν` from the focus is the point `(cos E - e, √(1-e²) sin E)`. -/
def EllipticAt (e ν E : ℝ) : Prop :=
  (1 - e * cos E) * cos ν = cos E - e ∧ (1 - e * cos E) * sin ν = √(1 - e ^ 2) * sin E

/-- `H` is a hyperbolic anomaly of the true anomaly `ν` on the hyperbola of eccentricity `e`: the point at distance
`e cosh H - 1` (in units of `-a`) in direction `ν` from the focus is the point `(e - cosh H, √(e²-1) sinh H)`. -/
def HyperbolicAt (e ν H : ℝ) : Prop :=
  (e * cosh H - 1) * cos ν = e - cosh H ∧ (e * cosh H - 1) * sin ν = √(e ^ 2 - 1) * sinh H

/-- `M` is a mean anomaly of the true anomaly `ν` on an ellipse: Kepler's equation. It is determined up to full turns. -/
def EllipticMean (e ν M : ℝ) : Prop := ∃ E, EllipticAt e ν E ∧ M = E - e * sin E

/-- `M` is the mean anomaly of the true anomaly `ν` on a hyperbola: Kepler's equation for hyperbolas. -/
def HyperbolicMean (e ν M : ℝ) : Prop := ∃ H, HyperbolicAt e ν H ∧ M = e * sinh H - H

/-- `M` is the mean anomaly `√(μ/2q³) (t - t_p)` of the true anomaly `ν` on a parabola: Barker's equation. -/
def ParabolicMean (ν M : ℝ) : Prop := cos (ν / 2) ≠ 0 ∧ tan (ν / 2) + tan (ν / 2) ^ 3 / 3 = M

/-! ### orientation -/

/-- The direction of the ascending node at longitude `Ω`. -/
noncomputable def nodeDir (Ω : ℝ) : V3 := ⟨cos Ω, sin Ω, 0⟩

/-- The normal of the plane of inclination `i` and node `Ω`. -/
noncomputable def normalDir (i Ω : ℝ) : V3 := ⟨sin Ω * sin i, -(cos Ω * sin i), cos i⟩

/-- The direction of periapsis: the direction of the node turned by `ω` about the normal. -/
noncomputable def periDir (i Ω ω : ℝ) : V3 :=
  V3.add (V3.smul (cos ω) (nodeDir Ω)) (V3.smul (sin ω) (V3.cross (normalDir i Ω) (nodeDir Ω)))

/-- The direction of the velocity at periapsis. -/
noncomputable def alongDir (i Ω ω : ℝ) : V3 := V3.cross (normalDir i Ω) (periDir i Ω ω)

/-- The motion `p`, with velocity `v`, on the orbit of periapsis distance `q`, eccentricity `e` and the given orientation, that
passes periapsis at time zero: it satisfies Newton's equation of motion, is at distance `q` in the direction of periapsis at time
zero, and moves across that direction with the speed `√(μ(1+e)/q)`. -/
def PeriapsisMotion (mu q e i Ω ω : ℝ) (p v : ℝ → Univ.E3) : Prop :=
  Univ.IsMotion mu p v ∧ (∀ t, p t ≠ 0) ∧ p 0 = q • (periDir i Ω ω).toE ∧ v 0 = √(mu * (1 + e) / q) • (alongDir i Ω ω).toE

/-! ### the orbit of a state -/

/-- The vector of length `e` in the direction of periapsis: `(v × (r × v)) / μ - r / |r|`. -/
noncomputable def laplaceVec (mu : ℝ) (r v : V3) : V3 :=
  V3.sub (V3.smul (1 / mu) (V3.cross v (V3.cross r v))) (V3.smul (1 / V3.norm r) r)

/-- The plane of the orbit is inclined to the plane of reference by at least `1e-15` radians, and is not that plane traversed
backwards. The angular momentum is then not zero. -/
def Inclined (r v : V3) : Prop :=
  1e-15 ≤ arccos ((V3.cross r v).z / V3.norm (V3.cross r v)) ∧ 0 < (V3.cross r v).x ^ 2 + (V3.cross r v).y ^ 2

end Verif.Kep
