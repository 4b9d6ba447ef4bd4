import Verif.Spk.Model
import Mathlib.RingTheory.Polynomial.Chebyshev
import Mathlib.Data.Rat.Defs

/-! # Specification vocabulary for SPK files -/

namespace Verif.Spk.Spec

open Polynomial

/-- The polynomial fitted on the window from `lo` to `hi`: a Chebyshev series in the time scaled to [-1, 1]. -/
noncomputable def fitted (c : List ℚ) (lo hi t : ℚ) : ℚ :=
  ∑ k ∈ Finset.range c.length, c.getD k 0 * (Chebyshev.T ℚ (k : ℤ)).eval ((2 * t - lo - hi) / (hi - lo))

/-- The states in a window, ends included. -/
def inside (states : List State) (lo hi : ℚ) : List State := states.filter fun s => decide (lo ≤ s.time ∧ s.time ≤ hi)

/-- The Chebyshev polynomials up to the degree at the scaled times of the states in a window. -/
noncomputable def rowsOf (states : List State) (lo hi : ℚ) (degree : Nat) : List (List ℚ) :=
  (inside states lo hi).map fun s => (List.range (degree + 1)).map fun k : Nat =>
    (Chebyshev.T ℚ (k : ℤ)).eval ((2 * s.time - lo - hi) / (hi - lo))

/-- A component in km or km/s. -/
def inKm (v : Fin 6 → ℚ) (i : Fin 6) : ℚ := if i.1 < 3 then v i * 149597870.7 else v i * 149597870.7 / 86400

/-- A component of the states in a window, in km or km/s. -/
def valuesOf (states : List State) (lo hi : ℚ) (i : Fin 6) : List ℚ := (inside states lo hi).map fun s => inKm s.values i

/-- The solver leaves no residual for this problem. -/
def Reproduces (solve : Solver) (rows : List (List ℚ)) (b : List ℚ) : Prop :=
  ∀ (k : Nat) (row : List ℚ) (y : ℚ), rows[k]? = some row → b[k]? = some y →
    (solve rows b).length = row.length ∧ (((solve rows b).zip row).map fun p => p.1 * p.2).sum = y

end Verif.Spk.Spec
