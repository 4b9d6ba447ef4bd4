import Verif.Basic
import Verif.Chunk.Model
import Mathlib.Data.List.Sort
import Mathlib.Data.Prod.Lex
import Mathlib.Order.WithBot

/-! # Model of the worker scheduling and of the propagation entry points built on it

Source: adam_core/propagator/propagator.py, propagator/utils.py, orbits/variants.py, dynamics/propagation.py,
dynamics/impacts.py, dynamics/moid.py, orbit_determination/od.py, missions/porkchop.py.

`ray` itself is not modelled. Its only observable freedom is which outstanding task `ray.wait(futures, num_returns=1)`
hands back; that choice is an arbitrary function `pick : Nat → Nat` (the n-th wait takes position `pick n` modulo the
number of outstanding tasks), so a theorem for all `pick` covers every completion order. Workers are pure functions of
the task that may raise. -/

namespace Verif.Sched

open Verif

/-! ## The submit / wait / drain loop -/

/-- State of a scheduling loop: outstanding tasks, tasks in the order in which their results were collected, number of
`ray.wait` calls so far, largest number of outstanding tasks so far. Used for propagator.py:697-698, 1028-1029. -/
structure St (α : Type) where
  pending : List α
  done : List α
  waits : Nat
  peak : Nat

/-- `finished, futures = ray.wait(futures, num_returns=1)` followed by `ray.get(finished[0])`.
propagator.py:697-698, 1028-1029; propagation.py:346-347. With nothing outstanding (never the case in the code) the
state is unchanged. -/
def wait {α : Type} (pick : Nat → Nat) (s : St α) : St α :=
  match s.pending[pick s.waits % s.pending.length]? with
  | none => s
  | some a =>
    { s with pending := s.pending.eraseIdx (pick s.waits % s.pending.length), done := s.done ++ [a], waits := s.waits + 1 }

/-- One turn of the submission loop: append the task, and collect one result when the queue is `full`.
propagator.py:693-706, 1024-1040; propagation.py:337-348; moid.py:273-279; od.py:688-719; porkchop.py:709-726. -/
def submit {α : Type} (full : Nat → Bool) (pick : Nat → Nat) (s : St α) (a : α) : St α :=
  let s' : St α := { s with pending := s.pending ++ [a], peak := max s.peak (s.pending.length + 1) }
  if full s'.pending.length then wait pick s' else s'

/-- `while futures: ...`: collect until nothing is outstanding. propagator.py:708-718, 1043-1056; propagation.py:350-353;
impacts.py:214-219; moid.py:281-284; od.py:721-731; porkchop.py:728-731. The step counter is the number of outstanding
tasks, which each wait lowers by one. -/
def drain {α : Type} (pick : Nat → Nat) : Nat → St α → St α
  | 0, s => s
  | n + 1, s => if s.pending.isEmpty then s else drain pick n (wait pick s)

/-- The whole loop over the list of tasks. Used for propagation.py:285-356. -/
def runAll {α : Type} (full : Nat → Bool) (pick : Nat → Nat) (tasks : List α) : St α :=
  let s := tasks.foldl (submit full pick) ⟨[], [], 0, 0⟩
  drain pick s.pending.length s

/-- `len(futures) >= max_processes * 1.5`. propagator.py:696, 1027; propagation.py:345; moid.py:276; od.py:709. -/
def atLeast (maxProc : Nat) (n : Nat) : Bool := decide (3 * maxProc ≤ 2 * n)

/-- `len(futures) > 1.5 * max_processes`. porkchop.py:723. -/
def moreThan (maxProc : Nat) (n : Nat) : Bool := decide (3 * maxProc < 2 * n)

/-- `detect_collisions` submits everything before the first wait. impacts.py:203-214. -/
def never (_ : Nat) : Bool := false

/-- The results in the order of collection; the first collected task that raised makes the caller raise.
Used for propagation.py:285-356. -/
def gather {α β ε : Type} (work : α → Except ε β) : List α → Except ε (List β)
  | [] => .ok []
  | a :: l =>
    match work a with
    | .error e => .error e
    | .ok b =>
      match gather work l with
      | .error e => .error e
      | .ok bs => .ok (b :: bs)

/-- Submit all tasks and gather their results in completion order. Used for propagation.py:285-356. -/
def runTasks {α β ε : Type} (full : Nat → Bool) (pick : Nat → Nat) (work : α → Except ε β) (tasks : List α) :
    Except ε (List β) :=
  gather work (runAll full pick tasks).done

/-- `table.take(idx)`: the rows at the given positions. propagator.py:297, 311; propagation.py:275. -/
def take {α : Type} (l : List α) (idx : List Nat) : List α := idx.filterMap fun i => l[i]?

/-- `table.sort_by(keys)`: a stable sort (pyarrow's `sort_indices` is stable). Used for propagation.py:285-356. -/
def sortBy {α K : Type} [LinearOrder K] (key : α → K) (l : List α) : List α :=
  l.insertionSort fun a b => key a ≤ key b

/-! ## `propagate_2body` -/

/-- An input orbit of `propagate_2body`: ids, state, epoch and gravitational parameter (of its origin), physical
parameters, origin code, covariance (`none`: null or all NaN). Numbers are opaque. Used for propagation.py:133-263. -/
structure Orbit2 (I S T M P O C : Type) where
  id : I
  obj : I
  state : S
  t0 : T
  mu : M
  phys : P
  origin : O
  cov : Option C

/-- A covariance column entry of the result: null, or a matrix (`matrix none` is the NaN matrix).
Used for propagation.py:133-263. -/
inductive CovOut (C : Type) where
  | null
  | matrix (m : Option C)

/-- `CoordinateCovariances.to_matrix`: null entries read as NaN. Used for covariances.py:55-101. -/
def CovOut.toMatrix {C : Type} : CovOut C → Option C
  | .null => none
  | .matrix m => m

/-- A result row. The time is the requested MJD in TDB; its conversion to days and nanoseconds is `Timestamp.from_mjd`
(modelled in `Verif.Time`). Used for propagation.py:133-263. -/
structure Row2 (I S T P O C : Type) where
  id : I
  obj : I
  phys : P
  state : S
  time : T
  origin : O
  cov : CovOut C

/-- `np.repeat(a, n)`. Used for propagation.py:133-263. -/
def npRepeat {α : Type} (l : List α) (n : Nat) : List α := l.flatMap (List.replicate n)

/-- `np.tile(a, n)`. Used for propagation.py:133-263. -/
def npTile {α : Type} (l : List α) (n : Nat) : List α := (List.replicate n l).flatten

/-- The numerical kernels used by the two-body propagation: the vectorised propagator, the finiteness tests, the
covariance transport (per row) and the values found in padding and in uninitialised memory. Used for propagation.py:133-263. -/
structure Kernel2 (S T M C : Type) where
  F : List (S × T × T × M) → List S
  badIn : S → Bool
  badOut : S → Bool
  transport : S × T × T × M → Option C → Option C
  pad : S × T × T × M
  junk : S

/-- `_propagate_2body_serial`. propagation.py:133-263. The arrays are repeated and tiled as in the code, the chunk loop
with its checks is `Chunk.runValid` (chunk size 200); the covariances are transported only when some input covariance is
not NaN (lines 223-241). Rescaling to TDB and `mu()` are part of the input. -/
def serial2 {I S T M P O C : Type} (k : Kernel2 S T M C) (orbits : List (Orbit2 I S T M P O C)) (times : List T) :
    Except (PyErr ⊕ Nat) (List (Row2 I S T P O C)) :=
  let rep := npRepeat orbits times.length
  let t1 := npTile times orbits.length
  let args := List.zipWith (fun o t => (o.state, o.t0, t, o.mu)) rep t1
  match Chunk.runValid k.pad k.junk k.F (fun a => k.badIn a.1) k.badOut args 200 with
  | .error e => .error e
  | .ok states =>
    let covs : List (CovOut C) :=
      if orbits.all (fun o => o.cov.isNone) then List.replicate args.length .null
      else List.zipWith (fun a o => .matrix (k.transport a o.cov)) args rep
    .ok (List.zipWith (fun (ot : Orbit2 I S T M P O C × T) (sc : S × CovOut C) =>
      ⟨ot.1.id, ot.1.obj, ot.1.phys, sc.1, ot.2, ot.1.origin, sc.2⟩) (rep.zip t1) (states.zip covs))

/-- `results[int(start_i)] = propagated_i` for a Python dict. propagation.py:348, 353. -/
def dictSet {V : Type} (d : List (Nat × V)) (kv : Nat × V) : List (Nat × V) := d.filter (fun e => e.1 ≠ kv.1) ++ [kv]

/-- `propagate_2body_worker_ray`: the first row number of the chunk and the chunk's propagated rows.
propagation.py:266-282, 338. -/
def work2 {I S T M P O C : Type} (k : Kernel2 S T M C) (orbits : List (Orbit2 I S T M P O C)) (times : List T)
    (idx : List Nat) : Except (PyErr ⊕ Nat) (Nat × List (Row2 I S T P O C)) :=
  match serial2 k (take orbits idx) times with
  | .error e => .error e
  | .ok rows => .ok (idx.headD 0, rows)

/-- `propagate_2body`. propagation.py:285-356. Tasks are the chunks of row numbers with their first row number; the
results go into a dict under that number and are concatenated in increasing key order. `max_processes=None` is the
number of cores. -/
def propagate2 {I S T M P O C : Type} (k : Kernel2 S T M C) (pick : Nat → Nat) (orbits : List (Orbit2 I S T M P O C))
    (times : List T) (maxProc : Int) (chunk : Int) : Except (PyErr ⊕ Nat) (List (Row2 I S T P O C)) :=
  if maxProc ≤ 1 then serial2 k orbits times
  else
    match Chunk.iterateChunks (List.range orbits.length) chunk with
    | .error e => .error (.inl e)
    | .ok chunks =>
      match runTasks (atLeast maxProc.toNat) pick (work2 k orbits times) chunks with
      | .error e => .error e
      | .ok results => .ok ((sortBy Prod.fst (results.foldl dictSet [])).flatMap Prod.snd)

/-! ## `propagate_orbits` -/

/-- An orbit or an orbit variant as seen by the orchestration: id, variant id (`⊤` when absent, which also sorts last,
as nulls do), origin code and the rest of the row. Used for propagator/utils.py:22-48. -/
structure Orb (I O S : Type) where
  id : I
  variant : WithTop I
  origin : O
  state : S
deriving DecidableEq

/-- A propagated row: ids, epoch as (days, nanos), covariance if one was attached, and the rest of the row.
Used for propagator.py:1066-1073, 1114-1126. -/
structure Row (I X C : Type) where
  id : I
  variant : WithTop I
  time : ℤ ×ₗ ℤ
  cov : Option C
  state : X

/-- Sort keys: `["orbit_id", "coordinates.time.days", "coordinates.time.nanos"]`, with `"variant_id"` in second place for
variants. propagator.py:1066-1073, 1114-1126. -/
def rowKey {I X C : Type} (isVar : Bool) (r : Row I X C) : I ×ₗ WithTop I ×ₗ ℤ ×ₗ ℤ :=
  toLex (r.id, toLex (if isVar then r.variant else ⊤, r.time))

/-- The parts of a propagator the orchestration calls: the backend `_propagate_orbits`, `VariantOrbits.create`, the test
`covariance.is_all_nan()`, the weighted covariance of a set of variants about a row, `Timestamp.rescale` of one row to
the scale of the requested times and `transform_coordinates` of one row to an origin (and the input frame; row-wise, see
`C77_translation`). Used for propagator.py:1100-1126. -/
structure Engine (I O S X C : Type) where
  backend : List (Orb I O S) → List (ℤ ×ₗ ℤ) → Except PyErr (List (Row I X C))
  create : List (Orb I O S) → Except PyErr (List (Orb I O S))
  allNan : List (Orb I O S) → Bool
  weighted : Row I X C → List (Row I X C) → C
  rescale : Row I X C → Row I X C
  toOrigin : O → Row I X C → Row I X C

/-- `pyarrow.Array.unique`: distinct values in order of first appearance. Used for propagator/utils.py:22-48. -/
def uniq {α : Type} [DecidableEq α] : List α → List α
  | [] => []
  | a :: l => a :: (uniq l).filter (fun b => b ≠ a)

/-- `ensure_input_origin_and_frame`. propagator/utils.py:22-48. No input rows: the result is `None`, on which the next
method call of the callers raises AttributeError. Unknown origin codes (KeyError) are left out: `O` contains valid
codes. -/
def ensureOrigin {I O S X C : Type} [DecidableEq I] [DecidableEq O] (toOrigin : O → Row I X C → Row I X C)
    (inputs : List (Orb I O S)) (results : List (Row I X C)) : Except PyErr (List (Row I X C)) :=
  match uniq (inputs.map Orb.origin) with
  | [] => .error .attributeError
  | codes =>
    .ok (codes.flatMap fun c =>
      (results.filter fun r => decide (r.id ∈ (inputs.filter fun o => decide (o.origin = c)).map Orb.id)).map (toOrigin c))

/-- The linkage key of `VariantOrbits.link_to_orbits`: orbit id, day, millisecond of day. orbits/variants.py:104-137. -/
def linkKey {I X C : Type} (r : Row I X C) : I × ℤ × ℤ := (r.id, (ofLex r.time).1, (ofLex r.time).2 / 1000000)

/-- `VariantOrbits.collapse`. orbits/variants.py:139-182. Concatenating no rows raises ValueError. -/
def collapse {I X C : Type} [DecidableEq I] (weighted : Row I X C → List (Row I X C) → C)
    (variants rows : List (Row I X C)) : Except PyErr (List (Row I X C)) :=
  if rows = [] then .error .valueError
  else .ok (rows.map fun r => { r with cov := some (weighted r (variants.filter fun v => decide (linkKey v = linkKey r))) })

/-- A propagation task: is it a chunk of covariance variants, and the rows `orbits.take(idx)`. propagator.py:987-1020. -/
structure Task (I O S : Type) where
  covVariants : Bool
  rows : List (Orb I O S)

/-- The chunks of a table as tasks. propagator.py:989-998, 1011-1020. -/
def chunkTasks {I O S : Type} (covVariants : Bool) (l : List (Orb I O S)) (chunk : Int) :
    Except PyErr (List (Task I O S)) :=
  match Chunk.iterateChunks (List.range l.length) chunk with
  | .error e => .error e
  | .ok cs => .ok (cs.map fun idx => ⟨covVariants, take l idx⟩)

/-- `qv.concatenate`: no tables to concatenate raises ValueError. Used for propagator.py:962-1075. -/
def concatTables {α : Type} : List (List α) → Except PyErr (List α)
  | [] => .error .valueError
  | ts => .ok ts.flatten

/-- What is left to do after the rows are there: collapse the variants, restore time scale, origin and frame, sort.
propagator.py:1100-1126. -/
def finish {I O S X C : Type} [LinearOrder I] [DecidableEq O] (E : Engine I O S X C) (isVar : Bool)
    (orbits : List (Orb I O S)) (rows : List (Row I X C)) (variants : Option (List (Row I X C))) :
    Except PyErr (List (Row I X C)) :=
  let collapsed : Except PyErr (List (Row I X C)) := match variants with
    | none => .ok rows
    | some vs => collapse E.weighted vs rows
  match collapsed with
  | .error e => .error e
  | .ok rows =>
    match ensureOrigin E.toOrigin orbits (rows.map E.rescale) with
    | .error e => .error e
    | .ok rows => .ok (sortBy (rowKey isVar) rows)

/-- `propagation_worker_ray` with the type of the table it returns. propagator.py:290-299. -/
def workOrbits {I O S X C : Type} (E : Engine I O S X C) (times : List (ℤ ×ₗ ℤ)) (t : Task I O S) :
    Except PyErr (Bool × List (Row I X C)) :=
  match E.backend t.rows times with
  | .error e => .error e
  | .ok rows => .ok (t.covVariants, rows)

/-- The worker path of `propagate_orbits`. propagator.py:962-1075. The results are told apart by their table type, which is
that of the submitted chunk; the variants are sorted before they are collapsed. -/
def gatherOrbits {I O S X C : Type} [LinearOrder I] (E : Engine I O S X C) (pick : Nat → Nat) (tasks : List (Task I O S))
    (times : List (ℤ ×ₗ ℤ)) (maxProc : Nat) : Except PyErr (List (Row I X C) × Option (List (Row I X C))) :=
  match runTasks (atLeast maxProc) pick (workOrbits E times) tasks with
  | .error e => .error e
  | .ok results =>
    match concatTables ((results.filter fun r => !r.1).map Prod.snd) with
    | .error e => .error e
    | .ok rows =>
      let vs := (results.filter fun r => r.1).map Prod.snd
      .ok (rows, if vs = [] then none else some (sortBy (rowKey true) vs.flatten))

/-- `Propagator.propagate_orbits`. propagator.py:899-1126. `isVar`: the input is a `VariantOrbits` table. -/
def propagateOrbits {I O S X C : Type} [LinearOrder I] [DecidableEq O] (E : Engine I O S X C) (pick : Nat → Nat)
    (isVar : Bool) (orbits : List (Orb I O S)) (times : List (ℤ ×ₗ ℤ)) (covariance : Bool) (chunk : Int) (maxProc : Int) :
    Except PyErr (List (Row I X C)) :=
  if covariance && isVar then .error .assertionError
  else
    let times := sortBy id times
    if 1 < maxProc then
      match chunkTasks false orbits chunk with
      | .error e => .error e
      | .ok tasks =>
        if covariance && !E.allNan orbits then
          match E.create orbits with
          | .error e => .error e
          | .ok vs =>
            match chunkTasks true vs chunk with
            | .error e => .error e
            | .ok vtasks =>
              match gatherOrbits E pick (tasks ++ vtasks) times maxProc.toNat with
              | .error e => .error e
              | .ok (rows, variants) => finish E isVar orbits rows variants
        else
          match gatherOrbits E pick tasks times maxProc.toNat with
          | .error e => .error e
          | .ok (rows, variants) => finish E isVar orbits rows variants
    else
      match E.backend orbits times with
      | .error e => .error e
      | .ok rows =>
        if covariance && !E.allNan orbits then
          match E.create orbits with
          | .error e => .error e
          | .ok vs =>
            match E.backend vs times with
            | .error e => .error e
            | .ok vrows => finish E isVar orbits rows (some (sortBy (rowKey true) vrows))
        else finish E isVar orbits rows none

/-! ## `generate_ephemeris` -/

/-- An observer row: epoch, observatory code and the rest. Used for propagator.py:350-352. -/
structure Obs (I Y : Type) where
  time : ℤ ×ₗ ℤ
  code : I
  state : Y

/-- An ephemeris row: ids, epoch, observatory code, the rest. Used for propagator.py:735-752. -/
structure Eph (I Z : Type) where
  id : I
  variant : WithTop I
  time : ℤ ×ₗ ℤ
  code : I
  value : Z

/-- Sort keys of the ephemeris: orbit id, (variant id,) days, nanos, origin code. propagator.py:735-752. -/
def ephKey {I Z : Type} (isVar : Bool) (r : Eph I Z) : I ×ₗ WithTop I ×ₗ (ℤ ×ₗ ℤ) ×ₗ I :=
  toLex (r.id, toLex (if isVar then r.variant else ⊤, toLex (r.time, r.code)))

/-- `observers.sort_by(["coordinates.time.days", "coordinates.time.nanos", "code"])`. propagator.py:350-352. -/
def sortObservers {I Y : Type} [LinearOrder I] (l : List (Obs I Y)) : List (Obs I Y) :=
  sortBy (fun o => toLex (o.time, o.code)) l

/-- The generic `EphemerisMixin._generate_ephemeris`. propagator.py:337-549. The sorted observers are tiled once per orbit
and paired row by row with the propagated orbits; `eph` stands for the light-time correction and the coordinate
transformations of one pair (row-wise, chunked with padding: `C20_pattern`) and gets the ids of the propagated row and
the time and code of the observer. Mismatched lengths raise (NumPy broadcasting, ValueError). Magnitudes are a later,
separate step. -/
def mixinEphemeris {I O S X C Y Z : Type} [LinearOrder I] [DecidableEq O] (E : Engine I O S X C)
    (eph : Row I X C → Obs I Y → Z) (isVar : Bool) (orbits : List (Orb I O S)) (observers : List (Obs I Y)) :
    Except PyErr (List (Eph I Z)) :=
  let obs := sortObservers observers
  let tiled := npTile obs orbits.length
  match propagateOrbits E (fun _ => 0) isVar orbits (obs.map Obs.time) false 100 1 with
  | .error e => .error e
  | .ok rows =>
    if rows.length = tiled.length then
      .ok (List.zipWith (fun r o => ⟨r.id, r.variant, o.time, o.code, eph r o⟩) rows tiled)
    else .error .valueError

/-- An ephemeris task. propagator.py:650-654. -/
def effectiveChunk (n : Nat) (chunk : Int) (maxProc : Nat) : Int :=
  if 0 < n then min chunk (max 1 ((n / maxProc : Nat) : Int)) else chunk

/-- `EphemerisMixin.generate_ephemeris` without covariance. propagator.py:551-833. `worker` is `_generate_ephemeris` with
the magnitudes attached, `rescale` the conversion of one row to UTC. With workers the parts are concatenated in
completion order and sorted; in process the worker's own order is kept. No orbits: `Ephemeris.empty()`. -/
def generateEphemeris {I O S Z Y : Type} [LinearOrder I]
    (worker : List (Orb I O S) → List (Obs I Y) → Except PyErr (List (Eph I Z))) (rescale : Eph I Z → Eph I Z)
    (pick : Nat → Nat) (isVar : Bool) (orbits : List (Orb I O S)) (observers : List (Obs I Y)) (chunk : Int)
    (maxProc : Int) : Except PyErr (List (Eph I Z)) :=
  if 1 < maxProc then
    match chunkTasks isVar orbits (effectiveChunk orbits.length chunk maxProc.toNat) with
    | .error e => .error e
    | .ok tasks =>
      match runTasks (atLeast maxProc.toNat) pick (fun t => worker t.rows observers) tasks with
      | .error e => .error e
      | .ok parts => .ok ((sortBy (ephKey isVar) parts.flatten).map rescale)
  else
    match worker orbits observers with
    | .error e => .error e
    | .ok rows => .ok (rows.map rescale)

/-! ## Entry points that keep the completion order -/

/-- `detect_collisions` (impacts.py:203-221), `calculate_perturber_moids` (moid.py:260-284), `differential_correction`
(od.py:688-731) and `generate_porkchop_data` (porkchop.py:707-731) with workers: cut the rows into chunks, one task per
chunk (for MOIDs: per perturber and chunk), append the results as they come. `full` is the throttle of the entry point. -/
def completionOrder {α β : Type} (full : Nat → Bool) (pick : Nat → Nat) (work : List α → Except PyErr (List β))
    (tasks : List (List α)) : Except PyErr (List β) :=
  match runTasks full pick work tasks with
  | .error e => .error e
  | .ok parts => .ok parts.flatten

/-- The tasks of `calculate_perturber_moids`: perturbers outside, chunks inside. moid.py:260-270. -/
def moidTasks {α β : Type} (perturbers : List β) (chunks : List (List α)) : List (List (β × α)) :=
  perturbers.flatMap fun p => chunks.map fun c => c.map fun a => (p, a)

end Verif.Sched
