import Verif.Rot.Estimate
import Verif.V3

/-! # Rotation periods of apparitions and of objects (photometry/rotation/wrappers.py, observers/utils.py)

Exact real arithmetic. The estimator is an arbitrary function of the observations; its result is reduced to what the wrappers look at. -/

namespace Verif.Rot

open Verif Sched

/-- A row of results: the columns in use here, and the others, which are empty in a row that stands for an error. core.py:717-823. -/
structure Res (α : Type) where
  verdict : String
  snr : Option ℝ
  nObs : Nat
  flags : List String
  reasons : List String
  rest : Option α

/-- `RotationPeriodResult.single_insufficient` as the wrappers call it; the text of the error is left out of the reason. core.py:768-823,
wrappers.py:278-288, 384-391. -/
def unsolved {α : Type} (n : Nat) : Res α := ⟨"insufficient_data", none, n, ["solve_error"], ["solve_error"], none⟩

/-- What the wrappers make of the answer for one set of observations: ValueError becomes a row, every other error RuntimeError.
wrappers.py:258-294, 382-396. -/
def caught {α : Type} (n : Nat) : Except PyErr (Res α) → Except PyErr (Res α)
  | .ok r => .ok r
  | .error .valueError => .ok (unsolved n)
  | .error _ => .error .runtimeError

/-! ## Apparitions -/

/-- `np.split(order, breaks + 1)`: a new group begins after a step of more than `gap`. wrappers.py:322-323. -/
noncomputable def splitRuns {ι : Type} (t : ι → ℝ) (gap : ℝ) : List ι → List (List ι)
  | [] => [[]]
  | [i] => [[i]]
  | i :: j :: l =>
    match splitRuns t gap (j :: l) with
    | [] => [[i]]
    | g :: gs => if gap < t j - t i then [i] :: g :: gs else (i :: g) :: gs

/-- `_apparition_index_groups`; a stable sort is a sort by time and position. wrappers.py:309-323. -/
noncomputable def apparitions (times : List ℝ) (gap : ℝ) : List (List Nat) :=
  splitRuns (fun i => times.getD i 0) gap (sortBy (fun i => toLex (times.getD i 0, i)) (List.range times.length))

/-- `_VERDICT_RANK`. wrappers.py:326. -/
def rank (verdict : String) : Nat := if verdict = "single_period" then 2 else if verdict = "period_family" then 1 else 0

/-- `_score`; None counts as minus infinity. wrappers.py:399-410. -/
noncomputable def scoreOf {α : Type} (k : Nat) (r : Res α) : Nat ×ₗ WithBot ℝ ×ₗ Nat ×ₗ ℤ :=
  toLex (rank r.verdict, toLex ((r.snr : WithBot ℝ), toLex (r.nObs, -(k : ℤ))))

/-- `_with_apparition_flag`. wrappers.py:416-429. -/
def flagged {α : Type} (r : Res α) (selected total : Nat) : Res α :=
  { r with flags := r.flags ++ [s!"apparition_selected_{selected}_of_{total}"] }

/-- `max(candidates, key=_score)`: the first of the largest. wrappers.py:412. -/
noncomputable def maxBy {α : Type} (a : Nat × Res α) (l : List (Nat × Res α)) : Nat × Res α :=
  l.foldl (fun b x => if scoreOf b.1 b.2 < scoreOf x.1 x.2 then x else b) a

/-- `estimate_rotation_period_best_apparition`. wrappers.py:329-413. -/
noncomputable def bestApparition {O α : Type} (solve : List O → Except PyErr (Res α)) (time : O → ℝ) (gap : ℝ) (obs : List O) : Except PyErr (Res α) :=
  let groups := apparitions (obs.map time) gap
  if obs = [] ∨ groups.length ≤ 1 then (solve obs).map fun r => flagged r 1 1
  else
    match gather (fun idx => caught idx.length (solve (take obs idx))) groups with
    | .error e => .error e
    | .ok results =>
      match results.zipIdx.map fun x => (x.2, x.1) with
      | [] => .error .valueError
      | c :: cs => .ok (flagged (maxBy c cs).2 ((maxBy c cs).1 + 1) groups.length)

/-! ## Objects -/

/-- numpy's conversion to fixed-width strings: zero characters at the end are lost. wrappers.py:240. -/
def npStr (s : List Char) : List Char := (s.reverse.dropWhile fun c => decide (c = Char.ofNat 0)).reverse

/-- The positions of the rows with an object id, with the id. wrappers.py:233-244. -/
def labelled (ids : List (Option (List Char))) : List (List Char × Nat) :=
  ids.zipIdx.filterMap fun x => x.1.map fun s => (npStr s, x.2)

/-- `estimate_rotation_period_from_detections_grouped`, for `solve` the answer for the detections at some positions. wrappers.py:204-306. -/
def grouped {α : Type} (solve : List Nat → Except PyErr (Res α)) (nDet nCoords : Nat) (ids : List (Option (List Char))) :
    Except PyErr (List (List Char × Res α)) :=
  if nDet = 0 then .ok []
  else if nCoords ≠ nDet then .error .valueError
  else if ids.length ≠ nDet then .error .valueError
  else gather (fun g => (caught g.2.length (solve g.2)).map fun r => (g.1, r)) (AbsMag.runs (sortBy Prod.fst (labelled ids)))

/-! ## Observations of detections -/

/-- The columns of a detection in use. Used for wrappers.py:37-60. -/
structure Det where
  exposureId : Option String
  mag : Option ℝ
  sigma : Option ℝ

/-- The columns of an exposure in use; instants are opaque. Used for wrappers.py:37-60. -/
structure Exp (T : Type) where
  id : String
  code : String
  filter : String
  start : T
  mid : T

/-- The heliocentric state of the object: time in days and position, in the ecliptic frame; with the origin as given.
Used for wrappers.py:125-182. -/
structure Body where
  origin : String
  time : ℝ
  pos : V3

/-- Observer positions (`Exposures.observers` goes row by row, see `Joins.exposuresObservers`), phase angles and observing nights.
Used for wrappers.py:125-182. -/
structure Sites (T : Type) where
  site : String → T → Except PyErr V3
  phase : V3 → V3 → Option ℝ
  night : String → T → Except PyErr ℤ

/-- `_align_exposures_to_detections`: the first exposure of that id. wrappers.py:37-60. -/
def alignExposures {T : Type} (exps : List (Exp T)) (dets : List Det) : Except PyErr (List (Exp T)) :=
  if dets = [] then .error .valueError
  else if dets.any fun d => d.exposureId.isNone then .error .valueError
  else gather (fun (d : Det) => match exps.find? fun e => decide (some e.id = d.exposureId) with
    | none => .error .valueError
    | some e => .ok e) dets

/-- `_align_observers_to_exposures` for lists. wrappers.py:63-85. -/
def alignObservers {T A : Type} (observers : List A) (full aligned : List (Exp T)) : Except PyErr (List A) :=
  if observers.length = aligned.length then .ok observers
  else if observers.length ≠ full.length then .error .runtimeError
  else gather (fun (e : Exp T) => match full.findIdx? (fun x => decide (x.id = e.id)) with
    | none => .error .runtimeError
    | some i => match observers[i]? with
      | none => .error .indexError
      | some a => .ok a) aligned

/-- A row of the table that is built. wrappers.py:125-182. -/
noncomputable def obsRow {T : Type} (W : Sites T) (x : Det × Exp T × Body × V3) (night : ℤ) : Obs where
  time := some x.2.2.1.time
  mag := x.1.mag
  sigma := x.1.sigma
  filter := some x.2.1.filter
  session := some s!"{x.2.1.code}:{night}"
  r := some (V3.norm x.2.2.1.pos)
  delta := some (V3.norm (x.2.2.1.pos.sub x.2.2.2))
  alpha := W.phase x.2.2.1.pos x.2.2.2

/-- `build_rotation_period_observations_from_detections`. The rotation into the ecliptic frame is left out. wrappers.py:88-182. -/
noncomputable def build {T : Type} (W : Sites T) (dets : List Det) (exps : List (Exp T)) (body : List Body) : Except PyErr (List Obs) :=
  if body.length ≠ dets.length then .error .valueError
  else if body.any fun b => decide (b.origin ≠ "SUN") then .error .valueError
  else
    match alignExposures exps dets with
    | .error e => .error e
    | .ok aligned =>
      match gather (fun e : Exp T => W.site e.code e.mid) aligned with
      | .error e => .error e
      | .ok sites =>
        match alignObservers sites exps aligned with
        | .error e => .error e
        | .ok observers =>
          if observers.length ≠ dets.length then .error .runtimeError
          else
            let rows := dets.zip (aligned.zip (body.zip observers))
            if rows.any fun x => x.1.mag.isNone then .error .valueError
            else if rows.any fun x => decide (V3.norm x.2.2.1.pos ≤ 0) then .error .valueError
            else if rows.any fun x => decide (V3.norm (x.2.2.1.pos.sub x.2.2.2) ≤ 0) then .error .valueError
            else if rows.any fun x => (W.phase x.2.2.1.pos x.2.2.2).isNone then .error .valueError
            else
              match gather (fun e : Exp T => W.night e.code e.start) aligned with
              | .error e => .error e
              | .ok nights => .ok (List.zipWith (obsRow W) rows nights)

/-! ## Observing nights -/

/-- `calculate_observing_night` for one observation, in days: `zone` is the offset of the observatory and `host` that of the machine, whose time
zone a datetime without one is taken to be in. observers/utils.py:33-57. -/
noncomputable def observingNight (zone host : ℝ → ℝ) (t : ℝ) : ℤ :=
  let x := t + zone (t - host t) - 1 / 2
  if 0 ≤ x then ⌊x⌋ else ⌈x⌉

end Verif.Rot
