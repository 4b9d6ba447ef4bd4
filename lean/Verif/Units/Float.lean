import Verif.F64
import Verif.Units.Model

/-! # Units with float64 rounding -/

namespace Verif.Units

open F64

/-- The two constants as float64 numbers: 149597870.7 is not one. constants.py:11-13. -/
def consts64 : Consts ℚ := ⟨fl (1495978707 / 10), 86400⟩

/-- `au_to_km`. units.py:26-40. -/
def auToKm64 (x : ℚ) : ℚ := fl (x * consts64.kmPerAu)

/-- `km_to_au`. units.py:43-57. -/
def kmToAu64 (x : ℚ) : ℚ := fl (x / consts64.kmPerAu)

/-- `au_per_day_to_km_per_s`. units.py:60-76. -/
def auDayToKmS64 (x : ℚ) : ℚ := fl (fl (x * consts64.kmPerAu) / consts64.secondsPerDay)

/-- `km_per_s_to_au_per_day`. units.py:79-95. -/
def kmSToAuDay64 (x : ℚ) : ℚ := fl (fl (x / consts64.kmPerAu) * consts64.secondsPerDay)

/-- `convert_cartesian_values_au_to_km`. units.py:98-117. -/
def stateToKm64 (v : Fin 6 → ℚ) : Fin 6 → ℚ := fun i => if i.1 < 3 then auToKm64 (v i) else auDayToKmS64 (v i)

/-- `convert_cartesian_values_km_to_au`. units.py:120-139. -/
def stateToAu64 (v : Fin 6 → ℚ) : Fin 6 → ℚ := fun i => if i.1 < 3 then kmToAu64 (v i) else kmSToAuDay64 (v i)

/-- The conversion vector of `convert_cartesian_covariance_au_to_km`. units.py:164-173. -/
def vecToKm64 (i : Fin 6) : ℚ := if i.1 < 3 then consts64.kmPerAu else fl (consts64.kmPerAu / consts64.secondsPerDay)

/-- The conversion vector of `convert_cartesian_covariance_km_to_au`. units.py:203-212. -/
def vecToAu64 (i : Fin 6) : ℚ := if i.1 < 3 then fl (1 / consts64.kmPerAu) else fl (consts64.secondsPerDay / consts64.kmPerAu)

/-- `convert_cartesian_covariance_au_to_km`: the outer product is rounded, then the product with the matrix. units.py:142-178. -/
def covToKm64 (m : Fin 6 → Fin 6 → ℚ) : Fin 6 → Fin 6 → ℚ := fun i j => fl (m i j * fl (vecToKm64 i * vecToKm64 j))

/-- `convert_cartesian_covariance_km_to_au`. units.py:181-217. -/
def covToAu64 (m : Fin 6 → Fin 6 → ℚ) : Fin 6 → Fin 6 → ℚ := fun i j => fl (m i j * fl (vecToAu64 i * vecToAu64 j))

end Verif.Units
