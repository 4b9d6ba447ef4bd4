import Verif.Sched.Model
import Mathlib.Data.Rat.Floor

/-! # SPK files

`src/adam_core/orbits/spice_kernel.py`, segments of type 3. Ephemeris times are exact numbers of seconds; the least-squares
solver is an oracle. `spkw03` and the SPICE reader are modelled by their documentation: records of equal length `interval`
from `first` on, whose midpoint and radius are derived from the position of the record, not stored by the caller. -/

namespace Verif.Spk

open Verif Sched

/-- `T[:, i]` for one scaled time. spice_kernel.py:77-82. -/
def cheb (s : ℚ) : Nat → ℚ
  | 0 => 1
  | 1 => s
  | n + 2 => 2 * s * cheb s (n + 1) - cheb s n

/-- One row of the design matrix. A degree of at least one is assumed (`T[:, 1]` raises otherwise).
Used for spice_kernel.py:38-89. -/
def designRow (s : ℚ) (degree : Nat) : List ℚ := (List.range (degree + 1)).map (cheb s)

/-- A propagated state: time and components in au and au/day. Used for spice_kernel.py:38-89. -/
structure State where
  time : ℚ
  values : Fin 6 → ℚ

/-- Components in km and km/s. spice_kernel.py:67-69. -/
def toKm (v : Fin 6 → ℚ) : Fin 6 → ℚ := fun i =>
  if i.1 < 3 then v i * (1495978707 / 10) else v i * (1495978707 / 10 / 86400)

/-- The solver: design matrix and right-hand side to coefficients. Used for spice_kernel.py:38-89. -/
abbrev Solver := List (List ℚ) → List ℚ → List ℚ

/-- `fit_chebyshev`: the coefficients of the six components. spice_kernel.py:38-89. -/
def fitChebyshev (solve : Solver) (states : List State) (lo hi : ℚ) (degree : Nat) : Fin 6 → List ℚ :=
  let inside := states.filter fun s => decide (lo ≤ s.time) && decide (s.time ≤ hi)
  let mid := (hi + lo) / 2
  let half := (hi - lo) / 2
  let rows := inside.map fun s => designRow ((s.time - mid) / half) degree
  fun i => solve rows (inside.map fun s => toKm s.values i)

/-- The number of windows. spice_kernel.py:224. -/
def numWindows (start stop window : ℚ) : Nat := ⌈(stop - start) / window⌉.toNat

/-- Start of window `w`. spice_kernel.py:233. -/
def windowStart (start window : ℚ) (w : Nat) : ℚ := start + w * window

/-- End of window `w`. spice_kernel.py:234. -/
def windowEnd (start stop window : ℚ) (w : Nat) : ℚ := min (windowStart start window w + window) stop

/-- A type 3 segment as handed to `spkw03`. Used for spice_kernel.py:196-264. -/
structure Segment where
  start : ℚ
  stop : ℚ
  interval : ℚ
  records : List (Fin 6 → List ℚ)
  first : ℚ

/-- `write_spkw03_segment`. spice_kernel.py:196-264. -/
def writeSegment (solve : Solver) (states : List State) (start stop window : ℚ) (degree : Nat) : Except PyErr Segment :=
  let n := numWindows start stop window
  let records := (List.range n).map fun w =>
    fitChebyshev solve states (windowStart start window w) (windowEnd start stop window w) degree
  let starts := (List.range n).map fun _ => start
  match starts.head? with
  | none => .error .indexError
  | some first => .ok ⟨start, stop, window, records, first⟩

/-- The segment of one orbit of `orbits_to_spk`: from its first to its last state. spice_kernel.py:156-177. -/
def writeOrbit (solve : Solver) (states : List State) (windowDays : ℚ) : Except PyErr Segment :=
  let sorted := sortBy State.time states
  match sorted.head?, sorted.getLast? with
  | some a, some b => writeSegment solve sorted a.time b.time (windowDays * 86400) 15
  | _, _ => .error .indexError

/-- `target_id_mappings`: the orbits in the order of the groups, numbered from `target_id_start`. spice_kernel.py:150-161. -/
def targetIds {I : Type} [DecidableEq I] (orbitIds : List I) (start : Int) : List (I × Int) :=
  (uniq orbitIds).zipIdx.map fun p => (p.1, start + p.2)

/-- The record SPICE uses for a time. Used for spice_kernel.py:251-264. -/
def recordOf (s : Segment) (t : ℚ) : Nat := min ⌊(t - s.first) / s.interval⌋.toNat (s.records.length - 1)

/-- The Chebyshev sum SPICE evaluates. Used for spice_kernel.py:251-264. -/
def chebSum (c : List ℚ) (x : ℚ) : ℚ := ((c.zipIdx).map fun p => p.1 * cheb x p.2).sum

/-- Evaluation of a type 3 segment. Used for spice_kernel.py:251-264. -/
def evaluate (s : Segment) (t : ℚ) (i : Fin 6) : ℚ :=
  match s.records[recordOf s t]? with
  | none => 0
  | some c =>
    let mid := s.first + (recordOf s t + 1 / 2) * s.interval
    chebSum (c i) ((t - mid) / (s.interval / 2))

end Verif.Spk
