import Verif.V3
import Mathlib.Analysis.SpecialFunctions.Trigonometric.Basic

/-! # What geodetic coordinates are -/

namespace Verif.Sph

open Real

/-- The upward direction at a latitude and longitude (in radians). -/
noncomputable def up (lat lon : ℝ) : V3 := ⟨cos lat * cos lon, cos lat * sin lon, sin lat⟩

/-- East. -/
noncomputable def east (lon : ℝ) : V3 := ⟨-sin lon, cos lon, 0⟩

/-- North. -/
noncomputable def north (lat lon : ℝ) : V3 := ⟨-sin lat * cos lon, -sin lat * sin lon, cos lat⟩

/-- `p` has the geodetic latitude, longitude (in radians) and altitude over the ellipsoid with the half axes `a` and `b`: there
is a foot on the ellipsoid where the outward normal is the upward direction, and `p` lies `alt` above it. -/
def IsGeodetic (a b lat lon alt : ℝ) (p : V3) : Prop :=
  ∃ q : V3, (q.x ^ 2 + q.y ^ 2) / a ^ 2 + q.z ^ 2 / b ^ 2 = 1 ∧
    (∃ k > 0, up lat lon = V3.smul k ⟨q.x / a ^ 2, q.y / a ^ 2, q.z / b ^ 2⟩) ∧ p = V3.add q (V3.smul alt (up lat lon))

/-- The coordinates in the frame of the equator of a direction given in the frame of the ecliptic: both frames have the same x
axis, and the pole of the ecliptic is tilted by the obliquity `ε` from the pole of the equator. -/
noncomputable def toEquator (ε : ℝ) (v : V3) : V3 := ⟨v.x, cos ε * v.y - sin ε * v.z, sin ε * v.y + cos ε * v.z⟩

end Verif.Sph
