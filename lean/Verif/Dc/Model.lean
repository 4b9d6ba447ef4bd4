import Verif.Sched.Model
import Verif.Chunk.Model

/-! # Differential correction of many orbits, and the order of linkages

`differential_correction` and its workers (`src/adam_core/orbit_determination/od.py:28-124, 569-771`) and `sort_by_id_and_time`
(`src/adam_core/orbit_determination/iod.py:32-98`). The fit of one orbit is an arbitrary function of the rows handed to `od`. -/

namespace Verif.Dc

open Verif Verif.Sched

/-- A table argument: given itself, or as a reference into ray's object store. od.py:569-572. -/
structure Arg (α : Type) where
  rows : List α
  isRef : Bool

variable {I N K O S F G : Type} [DecidableEq I] [DecidableEq N] [LinearOrder K]

/-- A row of the orbit table. Used for od.py:50-66. -/
structure Orbit (I O : Type) where
  id : I
  state : O
  deriving DecidableEq

/-- A row of the member table. Used for od.py:50-66. -/
structure Member (I N : Type) where
  orbit : I
  obs : N
  deriving DecidableEq

/-- An observation: id, sort key (days, nanos, origin code) and the rest. Used for od.py:50-66. -/
structure Obs (N K S : Type) where
  id : N
  key : K
  rest : S
  deriving DecidableEq

/-- The three tables a worker sees. Used for od.py:50-66. -/
structure Tables (I N K O S : Type) where
  orbits : List (Orbit I O)
  members : List (Member I N)
  observations : List (Obs N K S)

/-- What `od` is called with for one orbit id: the rows with the id, and the observations of its members in order of time and
observatory. od.py:50-66. -/
def input (t : Tables I N K O S) (i : I) : List (Orbit I O) × List (Obs N K S) :=
  (t.orbits.filter fun o => decide (o.id = i),
   sortBy Obs.key (t.observations.filter fun s =>
     decide (s.id ∈ (t.members.filter fun m => decide (m.orbit = i)).map Member.obs)))

/-- `od_worker`: one id after the other, results appended. od.py:28-89. -/
def worker (fit : List (Orbit I O) → List (Obs N K S) → Except PyErr (List F × List G)) (t : Tables I N K O S)
    (ids : List I) : Except PyErr (List F × List G) :=
  match gather (fun i => fit (input t i).1 (input t i).2) ids with
  | .error e => .error e
  | .ok rs => .ok (rs.flatMap Prod.fst, rs.flatMap Prod.snd)

/-- `apply_mask(pc.is_in(column, ids))` for a reference if ids are given. od.py:607-608, 618-626, 636-637. -/
def restrict {α X : Type} [DecidableEq X] (a : Arg α) (col : α → X) (ids : Option (List X)) : Arg α :=
  match ids with
  | none => a
  | some l => if a.isRef then { a with rows := a.rows.filter fun r => decide (col r ∈ l) } else a

/-- The arguments of `differential_correction` that are tables or ids. Used for od.py:602-640. -/
structure Args (I N K O S : Type) where
  orbits : Arg (Orbit I O)
  members : Arg (Member I N)
  observations : Arg (Obs N K S)
  orbitIds : Option (List I)
  obsIds : Option (List N)

/-- The tables after the masks. od.py:602-640. -/
def Args.masked (a : Args I N K O S) : Tables I N K O S :=
  ⟨(restrict a.orbits Orbit.id a.orbitIds).rows,
   (restrict (restrict a.members Member.obs a.obsIds) Member.orbit a.orbitIds).rows,
   (restrict a.observations Obs.id a.obsIds).rows⟩

/-- The tables behind the references the workers get: those passed as references are passed on as they are, others are put into
the store, and only the former are masked. od.py:603, 614, 632, 670-686. -/
def Args.stored (a : Args I N K O S) : Tables I N K O S := ⟨a.orbits.rows, a.members.rows, a.observations.rows⟩

/-- `differential_correction`. od.py:569-771. With workers the chunks are ranges of indices, which are the same chunks. -/
def correct (useRay : Bool) (full : Nat → Bool) (pick : Nat → Nat)
    (fit : List (Orbit I O) → List (Obs N K S) → Except PyErr (List F × List G)) (a : Args I N K O S) (chunk : Int) :
    Except PyErr (List F × List G) :=
  let t := a.masked
  if t.orbits = [] ∨ t.members = [] then .ok ([], [])
  else
    match Chunk.iterateChunks (t.orbits.map Orbit.id) chunk with
    | .error e => .error e
    | .ok tasks =>
      match (if useRay then runTasks full pick (worker fit a.stored) tasks else gather (worker fit t) tasks) with
      | .error e => .error e
      | .ok parts => .ok (parts.flatMap Prod.fst, parts.flatMap Prod.snd)

/-! ## `sort_by_id_and_time` -/

/-- The left outer join of members with the times of their observations: every match gives a row, no match a row without time.
iod.py:77-79. The order of the rows is up to pyarrow. -/
def joined {T : Type} (members : List (Member I N)) (times : List (N × T)) : List (Member I N × Option T) :=
  members.flatMap fun m =>
    match times.filter fun t => decide (t.1 = m.obs) with
    | [] => [(m, none)]
    | l => l.map fun t => (m, some t.2)

/-- The sort key of a joined row: nulls come last. iod.py:83-89. -/
def joinKey {I T : Type} (r : Member I N × Option T) : I ×ₗ WithTop T := toLex (r.1.orbit, r.2.elim ⊤ fun t => (t : WithTop T))

/-- The members returned for some order `j` of the join. iod.py:83-92. Taking the index column picks the rows themselves. -/
def sortedMembers {I T : Type} [LinearOrder I] [LinearOrder T] (j : List (Member I N × Option T)) : List (Member I N) :=
  (sortBy joinKey j).map Prod.fst

/-- The linkages returned. iod.py:82, 91. -/
def sortedLinkages {I L : Type} [LinearOrder I] (id : L → I) (l : List L) : List L := sortBy id l

end Verif.Dc
