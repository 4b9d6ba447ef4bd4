import Verif.Sched.Model

/-! # Model of `generate_ephemeris_2body`

Source: adam_core/dynamics/ephemeris.py. The numerical kernels (light time, aberration, spherical conversion, Jacobians,
photometry, change of origin and frame) are arbitrary functions; the model is the batching, checking, error reporting
and assembly around them. -/

namespace Verif.Eph2

open Verif Sched

/-- A propagated orbit: ids, Cartesian values as stored (own origin and frame), epoch as MJD, covariance (`none`: null or
NaN), H and G (`none` when one of them is not finite). Used for dynamics/ephemeris.py:426-429, 442-460. -/
structure Orb (I S T C P : Type) where
  id : I
  obj : I
  state : S
  time : T
  cov : Option C
  phys : Option P

/-- An observer: observatory code and coordinates as stored. Used for dynamics/ephemeris.py:426-429, 442-460. -/
structure Obs (I S : Type) where
  code : I
  state : S

/-- What the kernel returns for one row: six spherical coordinates, light time, six aberrated coordinates.
Used for dynamics/ephemeris.py:441-537. -/
structure Out (V : Type) where
  sph : Fin 6 → V
  lt : V
  aber : Fin 6 → V

/-- A row of the resulting ephemeris. Used for dynamics/ephemeris.py:583-706. -/
structure Row (I T V C : Type) where
  id : I
  obj : I
  time : T
  code : I
  out : Out V
  cov : CovOut C
  mag : Option V
  alpha : Option V

/-- Kernels: `bary`/`obsBary` bring an orbit or observer to the barycentre and the ecliptic frame (transform_coordinates;
the fast path of lines 359-404 is the same map), `mu` is the gravitational parameter of the barycentre, `F` the
vectorised `_generate_ephemeris_2body`, `transport` the Jacobian transport of a covariance at given arguments, `mag` and
`phase` the photometry of a row (`none`: not finite), `pad`, `junk` padding and uninitialised memory.
Used for dynamics/ephemeris.py:426-429, 442-460. -/
structure Kernel (I S T M V C P : Type) where
  bary : Orb I S T C P → S
  obsBary : Obs I S → T → S
  mu : M
  F : List (S × T × S × M) → List (Out V)
  finite : V → Bool
  transport : S × T × S × M → Option C → Option C
  mag : Out V → Obs I S → P → Option V
  phase : Out V → Obs I S → Option V
  pad : S × T × S × M
  junk : Out V

/-- The reason a numerical error gives. Used for dynamics/ephemeris.py:164-190. -/
inductive Reason where
  | lightTime
  | ephemeris
  | aberrated
  | beforeEmission
deriving DecidableEq

/-- The context of `DynamicsNumericalError`. dynamics/ephemeris.py:164-190. -/
structure NumErr (I T V : Type) where
  reason : Reason
  row : Nat
  orbit : I
  obj : I
  time : T
  lt : V
deriving DecidableEq

/-- `_first_non_finite`: position of the first non-finite entry of the *flattened* array. dynamics/ephemeris.py:159-161. -/
def firstNonFinite {V : Type} (finite : V → Bool) (flat : List V) : Option Nat := flat.findIdx? fun v => !finite v

/-- The lookups made while building the error: ids at `start + bad` in the whole table, time at `bad` in the padded
chunk, light time at `bad` in the valid part of the chunk; a position out of range raises IndexError instead.
dynamics/ephemeris.py:465-486, 488-509, 511-532. -/
def report {I T V : Type} (reason : Reason) (ids : List (I × I)) (start bad : Nat) (times : List T) (lts : List V) :
    PyErr ⊕ NumErr I T V :=
  match ids[start + bad]?, times[bad]?, lts[bad]? with
  | some i, some t, some v => .inr ⟨reason, start + bad, i.1, i.2, t, v⟩
  | _, _, _ => .inl .indexError

/-- An N×6 array flattened. Used for dynamics/ephemeris.py:441-537. -/
def flat {V : Type} (f : Out V → Fin 6 → V) (rows : List (Out V)) : List V := rows.flatMap fun r => List.ofFn (f r)

/-- The batch loop. dynamics/ephemeris.py:441-537. The zipped arrays are one array of tuples; the three preallocated arrays are one
array of `Out`. -/
def loop {I S T M V : Type} (c n : Nat) (F : List (S × T × S × M) → List (Out V)) (finite : V → Bool)
    (ids : List (I × I)) (out : List (Out V)) (start : Nat) :
    List (List (S × T × S × M)) → Except (PyErr ⊕ NumErr I T V) (List (Out V) × Nat)
  | [] => .ok (out, start)
  | chunk :: rest =>
    let valid := min c (n - start)
    let vals := (F chunk).take valid
    let times := chunk.map fun a => a.2.1
    let lts := vals.map Out.lt
    match firstNonFinite finite lts with
    | some bad => .error (report .lightTime ids start bad times lts)
    | none =>
      match firstNonFinite finite (flat Out.sph vals) with
      | some bad => .error (report .ephemeris ids start bad times lts)
      | none =>
        match firstNonFinite finite (flat Out.aber vals) with
        | some bad => .error (report .aberrated ids start bad times lts)
        | none =>
          match Chunk.assign out start vals with
          | .error e => .error (.inl e)
          | .ok out' => loop c n F finite ids out' (start + valid) rest

/-- The kernel arguments of a row. dynamics/ephemeris.py:426-429, 442-460. -/
def arg {I S T M V C P : Type} (k : Kernel I S T M V C P) (p : Orb I S T C P × Obs I S) : S × T × S × M :=
  (k.bary p.1, p.1.time, k.obsBary p.2 p.1.time, k.mu)

/-- The arguments at which the covariance is transported: the state as stored, the other arguments as for the prediction.
dynamics/ephemeris.py:583-598. -/
def covArg {I S T M V C P : Type} (k : Kernel I S T M V C P) (p : Orb I S T C P × Obs I S) : S × T × S × M :=
  (p.1.state, p.1.time, k.obsBary p.2 p.1.time, k.mu)

/-- The numbers of all rows, or the error: batches of 2000, the final row count, the second light-time check and the emission times:
adding no light times to no times is refused (`Verif.Time.Props.C01_empty_false`). dynamics/ephemeris.py:435-568. -/
def numbers {I S T M V C P : Type} (k : Kernel I S T M V C P) (ps : List (Orb I S T C P × Obs I S)) :
    Except (PyErr ⊕ NumErr I T V) (List (Out V)) :=
  let ids := ps.map fun p => (p.1.id, p.1.obj)
  match Chunk.processInChunks k.pad (ps.map (arg k)) 2000 with
  | .error e => .error (.inl e)
  | .ok chunks =>
    match loop 2000 ps.length k.F k.finite ids (List.replicate ps.length k.junk) 0 chunks with
    | .error e => .error e
    | .ok (out, start) =>
      if start ≠ ps.length then .error (.inl .runtimeError)
      else
        match firstNonFinite k.finite (out.map Out.lt) with
        | some bad => .error (report .beforeEmission ids 0 bad (ps.map fun p => p.1.time) (out.map Out.lt))
        | none => if out.isEmpty then .error (.inl .valueError) else .ok out

/-- The table built from the numbers: ids, covariance column (null when every input covariance is NaN), magnitudes (only
when asked for and some row has H and G; null where H or G is missing or the value is not finite), phase angles.
dynamics/ephemeris.py:583-706. -/
def assemble {I S T M V C P : Type} (k : Kernel I S T M V C P) (wantMag wantAlpha : Bool)
    (ps : List (Orb I S T C P × Obs I S)) (outs : List (Out V)) : List (Row I T V C) :=
  let noCov := ps.all fun p => p.1.cov.isNone
  let mags := wantMag && ps.any fun p => p.1.phys.isSome
  List.zipWith (fun p o =>
    { id := p.1.id, obj := p.1.obj, time := p.1.time, code := p.2.code, out := o
      cov := if noCov then .null else .matrix (k.transport (covArg k p) p.1.cov)
      mag := if mags then p.1.phys.bind (k.mag o p.2) else none
      alpha := if wantAlpha then k.phase o p.2 else none }) ps outs

/-- `generate_ephemeris_2body` in one process. dynamics/ephemeris.py:351-706. -/
def serial {I S T M V C P : Type} (k : Kernel I S T M V C P) (wantMag wantAlpha : Bool) (orbits : List (Orb I S T C P))
    (observers : List (Obs I S)) : Except (PyErr ⊕ NumErr I T V) (List (Row I T V C)) :=
  if orbits.length ≠ observers.length then .error (.inl .assertionError)
  else
    match numbers k (orbits.zip observers) with
    | .error e => .error e
    | .ok outs => .ok (assemble k wantMag wantAlpha (orbits.zip observers) outs)

/-- `ephemeris_2body_worker_ray` with the start that was passed to it. dynamics/ephemeris.py:217-242, 322-326. -/
def work {I S T M V C P : Type} (k : Kernel I S T M V C P) (wantMag wantAlpha : Bool) (orbits : List (Orb I S T C P))
    (observers : List (Obs I S)) (idx : List Nat) : Except (PyErr ⊕ NumErr I T V) (Nat × List (Row I T V C)) :=
  match serial k wantMag wantAlpha (take orbits idx) (take observers idx) with
  | .error e => .error e
  | .ok rows => .ok (idx.headD 0, rows)

/-- `generate_ephemeris_2body`. dynamics/ephemeris.py:245-706; the pool is lines 308-349. -/
def generate {I S T M V C P : Type} (k : Kernel I S T M V C P) (pick : Nat → Nat) (wantMag wantAlpha : Bool)
    (orbits : List (Orb I S T C P)) (observers : List (Obs I S)) (maxProc chunk : Int) :
    Except (PyErr ⊕ NumErr I T V) (List (Row I T V C)) :=
  if maxProc ≤ 1 then serial k wantMag wantAlpha orbits observers
  else if orbits.length ≠ observers.length then .error (.inl .assertionError)
  else
    match Chunk.iterateChunks (List.range observers.length) chunk with
    | .error e => .error (.inl e)
    | .ok chunks =>
      match runTasks (atLeast maxProc.toNat) pick (work k wantMag wantAlpha orbits observers) chunks with
      | .error e => .error e
      | .ok results => .ok ((sortBy Prod.fst (results.foldl dictSet [])).flatMap Prod.snd)

end Verif.Eph2
