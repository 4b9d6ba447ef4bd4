import Verif.Lambert.Model
import Verif.Sched.Model

/-! # Porkchop data (missions/porkchop.py)

Numbers are exact reals instead of float64: `mjd()` does not round. -/

namespace Verif.Porkchop

open Classical Verif Sched

/-- A row of the departure or arrival orbits: id, time, origin code, position and velocity.
Used for porkchop.py:498-500, 674-677. -/
structure Body where
  id : String
  days : ℤ
  nanos : ℤ
  origin : String
  r : V3
  v : V3

/-- The departure or arrival orbits: the frame, the time scale and the rows. Used for porkchop.py:616-743. -/
structure Bodies where
  frame : String
  scale : String
  rows : List Body

/-- `time.mjd()`: the scale plays no part. porkchop.py:498-500, 674-677. -/
noncomputable def mjd (b : Body) : ℝ := b.days + b.nanos / 86400000000000

/-- A row of `LambertSolutions`; `none` stands for NaN velocities. porkchop.py:209-235. -/
structure Solution where
  dep : Body
  arr : Body
  v : Option (V3 × V3)
  origin : String

/-- A `LambertSolutions` table. Used for porkchop.py:485-539. -/
structure Solutions where
  frame : String
  rows : List Solution

/-- `LambertSolutions.empty()`. Used for porkchop.py:701-743. -/
def Solutions.empty : Solutions := ⟨"unspecified", []⟩

/-- `qv.concatenate([a, b])`: the attributes are those of the first table with rows; tables with rows and different attributes are
refused. Used for porkchop.py:701-743. -/
def concat (a b : Solutions) : Except PyErr Solutions :=
  if a.rows = [] then .ok b
  else if b.rows = [] then .ok a
  else if a.frame = b.frame then .ok ⟨a.frame, a.rows ++ b.rows⟩
  else .error .valueError

/-- The arguments that every worker gets. Used for porkchop.py:485-539. -/
structure Params where
  origin : String
  /-- `Origin.mu()` of the propagation origin; `none`: it has none, a ValueError. -/
  mu : Option ℝ
  prograde : Bool
  maxIter : Nat
  tol : ℝ

/-- `lambert_worker` with `solve_lambert`, which solves each row for itself, with no revolutions. porkchop.py:485-539,
lambert.py:463-523. -/
noncomputable def worker (P : Params) (frame : String) (dep arr : List Body) : Except PyErr Solutions :=
  match P.mu with
  | none => .error .valueError
  | some mu => .ok ⟨frame, List.zipWith (fun d a =>
      ⟨d, a, Lambert.izzoLambert d.r a.r (mjd a - mjd d) mu 0 P.prograde true P.maxIter P.tol P.tol, P.origin⟩) dep arr⟩

/-- `sort_by(["coordinates.time.days", "coordinates.time.nanos"])`. porkchop.py:666-671. -/
def byTime (l : List Body) : List Body := sortBy (fun b => toLex (b.days, b.nanos)) l

/-- `np.meshgrid` of the two index ranges, masked by `arr_time_grid > dep_time_grid` and flattened: departure varies fastest.
porkchop.py:680-692. -/
noncomputable def pairs (dep arr : List Body) : List (Nat × Nat) :=
  (List.range arr.length).flatMap fun j => (List.range dep.length).filterMap fun i =>
    match dep[i]?, arr[j]? with
    | some d, some a => if mjd a > mjd d then some (i, j) else none
    | _, _ => none

/-- The serial or parallel evaluation of the stacked orbits. `maxProc = none`: no ray. porkchop.py:701-743. -/
noncomputable def solveAll (P : Params) (frame : String) (pick : Nat → Nat) (maxProc : Option Nat) (dep arr : List Body) :
    Except PyErr Solutions :=
  match maxProc with
  | none => worker P frame dep arr
  | some m =>
    let tasks := (Chunk.rangeFrom 0 dep.length 100).map fun i => (Chunk.slice dep i 100, Chunk.slice arr i 100)
    match runTasks (moreThan m) pick (fun t => worker P frame t.1 t.2) tasks with
    | .error e => .error e
    | .ok results => results.foldlM concat Solutions.empty

/-- `generate_porkchop_data`. porkchop.py:616-743. -/
noncomputable def generate (P : Params) (pick : Nat → Nat) (maxProc : Option Nat) (dep arr : Bodies) : Except PyErr Solutions :=
  if dep.frame ≠ arr.frame then .error .assertionError
  else if (uniq (dep.rows.map Body.origin)).length ≠ 1 then .error .assertionError
  else if (uniq (arr.rows.map Body.origin)).length ≠ 1 then .error .assertionError
  else if (dep.rows.map Body.origin)[0]? ≠ (arr.rows.map Body.origin)[0]? then .error .assertionError
  else
    let d := byTime dep.rows
    let a := byTime arr.rows
    let idx := pairs d a
    let sd := take d (idx.map Prod.fst)
    let sa := take a (idx.map Prod.snd)
    if sd.length = 0 then .ok Solutions.empty else solveAll P dep.frame pick maxProc sd sa

/-- `c3_departure` and `c3_arrival`. porkchop.py:320-360, lambert.py:527-559. -/
noncomputable def c3 (s : Solution) : Option (ℝ × ℝ) :=
  s.v.map fun v => (V3.norm (V3.sub v.1 s.dep.v) ^ 2, V3.norm (V3.sub v.2 s.arr.v) ^ 2)

/-- `vinf_departure` and `vinf_arrival`. porkchop.py:362-404. -/
noncomputable def vinf (s : Solution) : Option (ℝ × ℝ) :=
  s.v.map fun v => (V3.norm (V3.sub v.1 s.dep.v), V3.norm (V3.sub v.2 s.arr.v))

/-- `time_of_flight`. porkchop.py:406-412. -/
noncomputable def timeOfFlight (s : Solution) : ℝ := mjd s.arr - mjd s.dep

end Verif.Porkchop
