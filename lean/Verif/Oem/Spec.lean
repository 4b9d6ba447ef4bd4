import Verif.Oem.Model

/-! # Specification vocabulary for OEM files -/

namespace Verif.Oem.Spec

/-- The 19 origins with an OEM centre: the names of `OriginCodes`. -/
def origins : List String :=
  ["SOLAR_SYSTEM_BARYCENTER", "MERCURY_BARYCENTER", "VENUS_BARYCENTER", "EARTH_MOON_BARYCENTER", "MARS_BARYCENTER",
   "JUPITER_BARYCENTER", "SATURN_BARYCENTER", "URANUS_BARYCENTER", "NEPTUNE_BARYCENTER", "SUN", "MERCURY", "VENUS",
   "EARTH", "MOON", "MARS", "JUPITER", "SATURN", "URANUS", "NEPTUNE"]

/-- The CCSDS names the standard allows for centres (the values the file names, restricted to the ones in use). -/
def centers : List String :=
  ["SOLAR SYSTEM BARYCENTER", "MERCURY BARYCENTER", "VENUS BARYCENTER", "EARTH BARYCENTER", "MARS BARYCENTER",
   "JUPITER BARYCENTER", "SATURN BARYCENTER", "URANUS BARYCENTER", "NEPTUNE BARYCENTER", "SUN", "MERCURY", "VENUS",
   "EARTH", "MOON", "MARS", "JUPITER", "SATURN", "URANUS", "NEPTUNE"]

variable {K T : Type}

/-- All rows belong to the object. -/
def OneObject (object : String) (rows : List (Row K T)) : Prop := rows ≠ [] ∧ ∀ r ∈ rows, r.object = some object

/-- A symmetric covariance, if any. -/
def SymmetricCov (r : Row K T) : Prop := ∀ m, r.cov = some m → ∀ i j, m i j = m j i

end Verif.Oem.Spec
