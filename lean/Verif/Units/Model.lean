import Mathlib.Algebra.Field.Basic
import Mathlib.Data.Fin.VecNotation

/-! # Units

`src/adam_core/coordinates/units.py`. Exact arithmetic in a field; `kmPerAu` and `secondsPerDay` are the constants
`KM_P_AU` and `S_P_DAY` (constants.py:11-13). A state is a function of the component index 0..5. -/

namespace Verif.Units

variable {K : Type} [Field K]

/-- The two constants. constants.py:11-13. -/
structure Consts (K : Type) where
  kmPerAu : K
  secondsPerDay : K

variable (c : Consts K)

/-- `au_to_km`. units.py:26-40. -/
def auToKm (x : K) : K := x * c.kmPerAu

/-- `km_to_au`. units.py:43-57. -/
def kmToAu (x : K) : K := x / c.kmPerAu

/-- `au_per_day_to_km_per_s`. units.py:60-76. -/
def auDayToKmS (x : K) : K := x * c.kmPerAu / c.secondsPerDay

/-- `km_per_s_to_au_per_day`. units.py:79-95. -/
def kmSToAuDay (x : K) : K := x / c.kmPerAu * c.secondsPerDay

/-- `convert_cartesian_values_au_to_km`. units.py:98-117. -/
def stateToKm (v : Fin 6 → K) : Fin 6 → K := fun i => if i.1 < 3 then auToKm c (v i) else auDayToKmS c (v i)

/-- `convert_cartesian_values_km_to_au`. units.py:120-139. -/
def stateToAu (v : Fin 6 → K) : Fin 6 → K := fun i => if i.1 < 3 then kmToAu c (v i) else kmSToAuDay c (v i)

/-- The conversion vector of `convert_cartesian_covariance_au_to_km`. units.py:164-173. -/
def vecToKm : Fin 6 → K :=
  ![c.kmPerAu, c.kmPerAu, c.kmPerAu, c.kmPerAu / c.secondsPerDay, c.kmPerAu / c.secondsPerDay, c.kmPerAu / c.secondsPerDay]

/-- The conversion vector of `convert_cartesian_covariance_km_to_au`. units.py:203-212. -/
def vecToAu : Fin 6 → K :=
  ![1 / c.kmPerAu, 1 / c.kmPerAu, 1 / c.kmPerAu, c.secondsPerDay / c.kmPerAu, c.secondsPerDay / c.kmPerAu,
    c.secondsPerDay / c.kmPerAu]

/-- `convert_cartesian_covariance_au_to_km`. units.py:142-178. -/
def covToKm (m : Fin 6 → Fin 6 → K) : Fin 6 → Fin 6 → K := fun i j => m i j * (vecToKm c i * vecToKm c j)

/-- `convert_cartesian_covariance_km_to_au`. units.py:181-217. -/
def covToAu (m : Fin 6 → Fin 6 → K) : Fin 6 → Fin 6 → K := fun i j => m i j * (vecToAu c i * vecToAu c j)

end Verif.Units
