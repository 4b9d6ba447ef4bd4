import Verif.Od.Model
import Verif.Fit.Model
import Verif.Chunk.Model

/-! # Initial orbit determination

`src/adam_core/orbit_determination/iod.py`. The Gauss solver, the propagator and the residuals are an oracle: for every
triple of observations an arbitrary list of candidate orbits, each with an arbitrary chi2 for every observation, or an
exception. Numbers are exact and finite (NaN chi2 is not modelled); a zero number of degrees of freedom is. -/

namespace Verif.Iod

open Verif Sched

/-- An observation: id, sort key (days, nanos, origin code), MJD, sky coordinates, and the observer's state.
Used for iod.py:172-175. -/
structure Obs (N K X Y : Type) where
  id : N
  key : K
  mjd : ℚ
  coord : X
  observer : Y
deriving DecidableEq

variable {N K X Y S : Type}

/-! ## Selection of triples -/

/-- `itertools.combinations(l, 2)`. Used for iod.py:129-184. -/
def pairs {α : Type} : List α → List (α × α)
  | [] => []
  | a :: l => l.map (fun b => (a, b)) ++ pairs l

/-- `itertools.combinations(l, 3)`. Used for iod.py:129-184. -/
def triples {α : Type} : List α → List (α × α × α)
  | [] => []
  | a :: l => (pairs l).map (fun p => (a, p)) ++ triples l

/-- `len(np.unique(comb)) == 3`. iod.py:172-175. -/
def threeTimes (t : Obs N K X Y × Obs N K X Y × Obs N K X Y) : Bool :=
  decide ((uniq [t.1.mjd, t.2.1.mjd, t.2.2.mjd]).length = 3)

/-- The sort of `np.lexsort((time_from_mid, -arc_length))`. iod.py:155-165. -/
def tripleKey (t : Obs N K X Y × Obs N K X Y × Obs N K X Y) : ℚ ×ₗ ℚ :=
  toLex (-(t.2.2.mjd - t.1.mjd), |(t.2.2.mjd + t.1.mjd) / 2 - t.2.1.mjd|)

/-- `select_observations(observations, "combinations")`, keeping the rows instead of their ids. iod.py:129-184. -/
def combinations (l : List (Obs N K X Y)) : List (Obs N K X Y × Obs N K X Y × Obs N K X Y) :=
  if l.length < 3 then [] else (sortBy tripleKey (triples l)).filter threeTimes

/-- `select_observations` with "first+middle+last" or "thirds". iod.py:129-146, 172-184. `ranks` are the positions of the
three percentiles (method "nearest") in the sorted times; `intersect1d` gives the distinct selected times in ascending
order and the first row with each. -/
def byRank (ranks : List Nat) (l : List (Obs N K X Y)) : List (List (Obs N K X Y)) :=
  if l.length < 3 then [] else
    let sorted := sortBy id (l.map Obs.mjd)
    let selected := sortBy id (uniq (take sorted ranks))
    let rows := selected.filterMap fun t => l.find? fun o => decide (o.mjd = t)
    if (uniq (rows.map Obs.mjd)).length = 3 then [rows] else []

/-! ## `iod` -/

/-- A candidate orbit with its chi2 for every observation (observation ids are distinct). Used for iod.py:508-513. -/
structure Cand (S N : Type) where
  orbit : S
  chi2 : N → ℚ

/-- The accepted solution: orbit, chi2 of the residuals, triple, total chi2, reduced chi2, outlier ids.
Used for iod.py:507-541. -/
structure Sol (S N : Type) where
  cand : Cand S N
  triple : List N
  chi2 : ℚ
  rchi2 : ℚ
  outliers : List N

/-- The loop variables: `orbit_sol` and its companions, `arc_length`, `num_obs`, `converged`, `processable`.
Used for iod.py:507-541. -/
structure St (S N : Type) where
  sol : Option (Sol S N)
  arc : Option ℚ
  numObs : Nat
  converged : Bool
  processable : Bool

/-- `chi2 / dof > threshold`; division by zero gives infinity, or NaN for 0/0. Used for iod.py:463-544. -/
def above (thr chi2 : ℚ) (dof : ℤ) : Bool := if dof = 0 then decide (0 < chi2) else decide (thr < chi2 / dof)

/-- `chi2 / dof <= threshold`. Used for iod.py:507-541. -/
def within (thr chi2 : ℚ) (dof : ℤ) : Bool := decide (dof ≠ 0) && decide (chi2 / dof ≤ thr)

/-- The degrees of freedom `2 * num_obs - 6`. iod.py:473, 521. -/
def dof (n : Nat) : ℤ := 2 * (n : ℤ) - 6

/-- The arguments of `iod` and the oracles. `argsort` orders observations by chi2 (ties as it likes). Used for iod.py:508-513. -/
structure Ctx (S N : Type) where
  obs : List (N × ℚ)
  minArc : ℚ
  thr : ℚ
  maxOut : Nat
  argsort : (N → ℚ) → List N → List N
  gauss : List N → Except PyErr (List (Cand S N))

variable [DecidableEq N]

/-- The sum of the chi2 of some observations. Used for iod.py:507-541. -/
def total (c : Cand S N) (ids : List N) : ℚ := (ids.map c.chi2).sum

/-- The ids proposed as outliers: the `k` largest chi2 outside the triple. iod.py:508-513. -/
def proposed (x : Ctx S N) (c : Cand S N) (ids : List N) (k : Nat) : List N :=
  let sorted := x.argsort c.chi2 ((x.obs.map Prod.fst).filter fun i => !decide (i ∈ ids))
  sorted.drop (sorted.length - k)

/-- `arc_length >= min_arc_length`. iod.py:528. -/
def longEnough (minArc : ℚ) : Option ℚ → Bool
  | some a => decide (minArc ≤ a)
  | none => false

/-- The loop over the number of outliers: `k` removals have been tried. iod.py:507-541. -/
def tryOutliers (x : Ctx S N) (c : Cand S N) (ids : List N) : Nat → Nat → St S N → St S N
  | 0, _, s => s
  | fuel + 1, k, s =>
    let remove := proposed x c ids (k + 1)
    let chi2 := total c (x.obs.map Prod.fst) - total c remove
    let n := x.obs.length - remove.length
    let arc := Od.extent ((x.obs.filter fun o => !decide (o.1 ∈ remove)).map Prod.snd)
    if within x.thr chi2 (dof n) && longEnough x.minArc arc then
      { s with sol := some ⟨c, ids, chi2, chi2 / dof n, remove⟩, numObs := n, arc := arc, converged := true }
    else tryOutliers x c ids fuel (k + 1) { s with arc := arc }

/-- The loop over the candidates of one triple. iod.py:463-544. -/
def candLoop (x : Ctx S N) (ids : List N) : List (Cand S N) → St S N → St S N
  | [], s => s
  | c :: rest, s =>
    let chi2 := total c (x.obs.map Prod.fst)
    if above x.thr chi2 (dof s.numObs) && decide (x.maxOut = 0) then
      if rest.isEmpty then { s with processable := false } else candLoop x ids rest s
    else if within x.thr chi2 (dof s.numObs) then
      { s with sol := some ⟨c, ids, chi2, chi2 / dof s.numObs, []⟩, arc := Od.extent (x.obs.map Prod.snd), converged := true }
    else if 0 < x.maxOut then candLoop x ids rest (tryOutliers x c ids x.maxOut 0 s)
    else candLoop x ids rest s

/-- The loop over the triples. iod.py:428-546. -/
def tripleLoop (x : Ctx S N) : List (List N) → St S N → Except PyErr (St S N)
  | [], s => .ok s
  | ids :: rest, s =>
    match x.gauss ids with
    | .error e => .error e
    | .ok cands =>
      let s' := candLoop x ids cands s
      if s'.converged || !s'.processable then .ok s' else tripleLoop x rest s'

/-- A row of the members table. Used for iod.py:548-572. -/
structure Row (N : Type) where
  obs : N
  chi2 : ℚ
  solution : Bool
  outlier : Bool
deriving DecidableEq

/-- The returned orbit and members. Used for iod.py:548-572. -/
structure Result (S N : Type) where
  orbit : S
  arc : Option ℚ
  numObs : Nat
  chi2 : ℚ
  rchi2 : ℚ
  members : List (Row N)
deriving DecidableEq

/-- The tables built at the end. iod.py:548-572. -/
def finish (x : Ctx S N) (s : St S N) : Option (Result S N) :=
  if s.converged && s.processable then
    s.sol.map fun sol =>
      ⟨sol.cand.orbit, s.arc, s.numObs, sol.chi2, sol.rchi2,
        x.obs.map fun o => ⟨o.1, sol.cand.chi2 o.1, decide (o.1 ∈ sol.triple), decide (o.1 ∈ sol.outliers)⟩⟩
  else none

/-- `iod` after `select_observations`: `none` are the empty tables. iod.py:304-572. `triples` are the selected ids; only the
first `3 * (max_outliers + 1)` are tried. -/
def iod (fl : ℚ → ℚ) (minObs : ℤ) (pct : ℚ) (triples : List (List N)) (x : Ctx S N) : Except PyErr (Option (Result S N)) :=
  match Od.maxOutliers fl x.obs.length minObs pct with
  | .error e => .error e
  | .ok m =>
    let chosen := triples.take (3 * (m.toNat + 1))
    if x.obs.isEmpty || decide ((x.obs.length : ℤ) < minObs) || chosen.isEmpty then .ok none
    else
      match tripleLoop { x with maxOut := m.toNat } chosen ⟨none, none, x.obs.length, false, true⟩ with
      | .error e => .error e
      | .ok s => .ok (finish x s)

/-! ## The rows given to the Gauss solver -/

/-- What `gaussIOD` receives for a triple of ids: coordinates and times of the rows as given, observer positions of the
rows sorted by time, all under the mask of the rows as given. iod.py:389-450. -/
def gaussInput [LinearOrder K] (obs : List (Obs N K X Y)) (ids : List N) : List X × List ℚ × List Y :=
  let mask := obs.map fun o => decide (o.id ∈ ids)
  let keep {α : Type} (col : List α) : List α := ((mask.zip col).filter fun p => p.1).map Prod.snd
  (keep (obs.map Obs.coord), keep (obs.map Obs.mjd), keep ((sortBy Obs.key obs).map Obs.observer))

/-! ## `initial_orbit_determination` -/

variable {I R : Type} [LinearOrder I] [DecidableEq S]

/-- `iod_worker`: one linkage after the other, results under the linkage id. iod.py:187-258. `fit` is `iod` on the
observations of a linkage. -/
def worker (fit : I → Except PyErr (Option (Fit.Orbit I S × List (Fit.Member I N R)))) (ids : List I) :
    Except PyErr (List (Fit.Orbit I S) × List (Fit.Member I N R)) :=
  match gather fit ids with
  | .error e => .error e
  | .ok res =>
    let found := (ids.zip res).filterMap fun p => p.2.map fun r => (p.1, r)
    .ok (found.map fun f => { f.2.1 with id := f.1 }, found.flatMap fun f => f.2.2.map fun m => { m with orbit := f.1 })

/-- `initial_orbit_determination`. iod.py:575-761. `full` is the throttle, `pick` the completion order (in-process:
`full` always true). `time` is the time of an observation; members are sorted by orbit and time. -/
def determine (full : Nat → Bool) (pick : Nat → Nat)
    (fit : I → Except PyErr (Option (Fit.Orbit I S × List (Fit.Member I N R)))) (time : N → ℤ ×ₗ ℤ) (numObs : Nat)
    (linkages : List I) (chunk : Int) : Except PyErr (List (Fit.Orbit I S) × List (Fit.Member I N R)) :=
  if numObs = 0 ∨ linkages = [] then .ok ([], [])
  else
    match Chunk.iterateChunks (uniq linkages) chunk with
    | .error e => .error e
    | .ok tasks =>
      match runTasks full pick (worker fit) tasks with
      | .error e => .error e
      | .ok parts =>
        let d := Fit.dropDuplicateOrbits false (parts.flatMap Prod.fst) (parts.flatMap Prod.snd)
        .ok (sortBy Fit.Orbit.id d.1, sortBy (fun m => toLex (m.orbit, time m.obs)) d.2)

end Verif.Iod
