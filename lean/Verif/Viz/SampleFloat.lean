import Verif.Viz.Model
import Verif.F64

/-! # Sampling times with float64 rounding

The dates of porkchop plots (`src/adam_core/missions/porkchop.py`) and the number of states of an SPK file
(`src/adam_core/orbits/spice_kernel.py`), with every float64 operation rounded (`F64.fl`). -/

namespace Verif.Viz

open Verif F64

/-- `np.arange(a, b, h)` for positive `h`. numpy rounds the number of values up, computes the first two, and the others from the difference of
these two. Called by porkchop.py:589-593. -/
def arange64 (a b h : ℚ) : List ℚ :=
  let d := fl (fl (a + h) - a)
  (List.range ⌈fl (fl (b - a) / h)⌉.toNat).map fun k : Nat => if k = 0 then a else if k = 1 then fl (a + h) else fl (a + fl (k * d))

/-- The dates of `prepare_and_propagate_orbits`, from float64 MJDs in TDB. porkchop.py:588-595. -/
def dates64 (start stop step : ℚ) : List ℚ := arange64 start stop step

/-- The number of states that `orbits_to_spk` asks for, from float64 MJDs. `int` rounds towards zero. spice_kernel.py:121-123. -/
def numSteps64 (start stop step : ℚ) : Int :=
  let q := fl (fl (stop - start) / step)
  (if 0 ≤ q then ⌊q⌋ else ⌈q⌉) + 1

end Verif.Viz
