import Verif.Viz.Model

/-! # Model of the orbit plot (`src/adam_core/orbits/plots.py`)

What the figure shows: dates, curves, planets and the range of the axes. Styling and hover texts are left out. Numbers are rational, without
rounding. -/

namespace Verif.Viz

open Verif Sched

/-- A row of the orbits: `orbit_id`, time and period in days. Orbits without a finite period, for which the conversion of the period to an
integer is undefined, are left out. Used for orbits/plots.py:39-45. -/
structure Circuit (I : Type) where
  id : I
  time : ℚ
  period : ℚ
  deriving DecidableEq

/-- A propagated row: `orbit_id` and position. Used for orbits/plots.py:57-60, 124-138. -/
structure Visit (I : Type) where
  id : I
  x : ℚ
  y : ℚ
  z : ℚ
  deriving DecidableEq

/-- The figure. orbits/plots.py:84-206. -/
structure OrbitFigure (I : Type) where
  dates : List ℚ
  planets : List String
  curves : List (I × List (Visit I))
  range : ℚ
  deriving DecidableEq

variable {I : Type} [DecidableEq I]

omit [DecidableEq I] in
/-- `np.argmax` of the periods: the first row with the largest. orbits/plots.py:41-42. -/
def longest (first : Circuit I) (rest : List (Circuit I)) : Circuit I := rest.foldl (fun a b => if a.period < b.period then b else a) first

/-- `sample_dates_mjd`. orbits/plots.py:44-55. -/
def sampleDates (start : Option ℚ) (c : Circuit I) : List ℚ :=
  let s := start.getD c.time
  arange s (s + ⌈c.period⌉ + 5) 5

/-- `np.max(np.abs(r))`, and at least four; ValueError without rows. orbits/plots.py:60-63. -/
def maxR : List (Visit I) → Except PyErr ℚ
  | [] => .error .valueError
  | l => .ok (max ((l.map fun p => max |p.x| (max |p.y| |p.z|)).foldl max 0) 4)

/-- The planets shown. orbits/plots.py:65-82. -/
def planets (r : ℚ) : List String :=
  ["Earth", "Mars", "Venus", "Mercury"] ++
    ([("Jupiter", (5 : ℚ)), ("Saturn", 10), ("Uranus", 15), ("Neptune", 20)].filter fun p => decide (p.2 < r)).map Prod.fst

/-- The curve of one orbit; IndexError if the propagator has returned no rows of it. orbits/plots.py:124-138. -/
def curve (rows : List (Visit I)) (i : I) : Except PyErr (I × List (Visit I)) :=
  let l := rows.filter fun p => decide (p.id = i)
  if l = [] then .error .indexError else .ok (i, l)

/-- `plot_orbit` of one or more orbits. `propagate` stands for the propagator. orbits/plots.py:18-206. -/
def plotOrbit (propagate : List ℚ → List (Visit I)) (start : Option ℚ) (first : Circuit I) (rest : List (Circuit I)) :
    Except PyErr (OrbitFigure I) := do
  let dates := sampleDates start (longest first rest)
  let rows := propagate dates
  let r ← maxR rows
  let curves ← (uniq ((first :: rest).map Circuit.id)).mapM (curve rows)
  return ⟨dates, planets r, curves, r * (11 / 10)⟩

end Verif.Viz
