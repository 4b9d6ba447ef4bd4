import Verif.Basic
import Verif.F64
import Mathlib.Algebra.Order.Ring.Rat
import Mathlib.Algebra.BigOperators.Group.List.Basic

/-! # Model of the differential correction loop

Source: adam_core/orbit_determination/od.py, outliers.py. The numerical work of an iteration (partials, normal equations,
propagation) is an arbitrary oracle; the model is the control flow, the outlier bookkeeping and the assembled result. -/

namespace Verif.Od

open Verif

/-- `calculate_max_outliers`. outliers.py:10-44. `fl` is the rounding of a float64 operation (`id` for exact arithmetic,
`F64.fl` for binary64); `astype(int)` truncates. The integer `num_obs - min_obs` is exact in float64 below 2^53. -/
def maxOutliers (fl : ℚ → ℚ) (numObs minObs : Int) (pct : ℚ) : Except PyErr Int :=
  if numObs < minObs then .error .assertionError
  else if ¬ (0 ≤ pct ∧ pct ≤ 100) then .error .assertionError
  else .ok ⌊min (fl (numObs * fl (pct / 100))) (numObs - minObs : Int)⌋

/-- An observation: id, and its time as MJD. Used for od.py:214. -/
structure Obs (N : Type) where
  id : N
  mjd : ℚ

/-- A corrected orbit proposed by an iteration, with its residuals and their chi2 over all observations.
od.py:417-446. -/
structure Cand (O R : Type) where
  orbit : O
  resid : R
  chi2 : List ℚ

/-- The state of the loop. od.py:156-223. `removed` is `obs_id_outlier`; the mask and the number of observations are
functions of it. -/
structure St (O R N V : Type) where
  iter : Nat
  maxIterI : Nat
  tried : Nat
  removed : List N
  orbit : O
  resid : R
  chi2Total : ℚ
  rchi2 : V
  arc : ℚ
  improved : Bool
  found : Bool
  first : Bool

/-- What the loop needs to know: comparisons and division of float64 (with infinities and NaN), the observations, the
times of the ephemeris of the input orbit (`times_all`, od.py:214), its chi2 values, their `argsort`, thresholds. -/
structure Ctx (O R N V : Type) where
  lt : V → V → Bool
  le : V → V → Bool
  div : ℚ → Int → V
  obs : List (Obs N)
  ephTimes : List ℚ
  orbit0 : O
  resid0 : R
  chi0 : List ℚ
  order : List Nat
  maxIter : Nat
  maxOut : Nat
  minArc : ℚ
  threshold : V

variable {O R N V : Type} [DecidableEq N]

/-- The entries of a column where `np.isin(obs_ids_all, removed, invert=True)`. od.py:447-449, 504-505. -/
def masked {α : Type} (c : Ctx O R N V) (removed : List N) (col : List α) : List α :=
  (((c.obs.map Obs.id).zip col).filter fun p => !decide (p.1 ∈ removed)).map Prod.snd

/-- `x.max() - x.min()`; `none` is the ValueError of an empty array. Used for od.py:445-520. -/
def extent (l : List ℚ) : Option ℚ :=
  match l with
  | [] => none
  | t :: l => some (l.foldl max t - l.foldl min t)

/-- The ids of the observations with the `k` largest chi2: `obs_ids_all[chi2_prev.argsort()[-k:]]`. od.py:499-502. -/
def worst (c : Ctx O R N V) (k : Nat) : List N :=
  (c.order.drop (c.order.length - k)).filterMap fun i => (c.obs[i]?).map Obs.id

/-- The number of observations after a removal. od.py:503. -/
def numObs (c : Ctx O R N V) (removed : List N) : Int := (c.obs.length : Int) - removed.length

/-- The reduced chi2 of the input orbit, over all observations. od.py:198-201. -/
def rchi0 (c : Ctx O R N V) : V := c.div c.chi0.sum (2 * (c.obs.length : Int) - 6)

/-- The loop state before the first iteration. od.py:156-223; `arc` is not yet assigned. -/
def start (c : Ctx O R N V) : St O R N V :=
  { iter := 0, maxIterI := c.maxIter, tried := 0, removed := [], orbit := c.orbit0, resid := c.resid0
    chi2Total := c.chi0.sum, rchi2 := rchi0 c, arc := 0, improved := false, found := false, first := true }

/-- The part of an iteration after the candidate has been computed. od.py:445-520. The second component says whether
the loop has converged. -/
def judge (c : Ctx O R N V) (s : St O R N V) (x : Cand O R) : Except PyErr (St O R N V × Bool) :=
  let total := (masked c s.removed x.chi2).sum
  let r := c.div total (2 * numObs c s.removed - 6)
  match extent (masked c s.removed c.ephTimes) with
  | none => .error .valueError
  | some arc =>
    if (c.lt r s.rchi2 || s.first) && decide (c.minArc ≤ arc) then
      .ok ({ s with arc := arc, first := false, orbit := x.orbit, resid := x.resid, chi2Total := total, rchi2 := r
                    improved := s.improved || c.le r (rchi0 c), found := s.found || c.le r c.threshold },
        c.le r c.threshold)
    else if decide (0 < c.maxOut) && decide (s.tried ≤ c.maxOut) && decide (s.maxIterI < s.iter) && !s.found then
      let removed := worst c (s.tried + 1)
      match extent (masked c removed c.ephTimes) with
      | none => .error .valueError
      | some arc' =>
        .ok ({ s with arc := arc', orbit := c.orbit0, resid := c.resid0, chi2Total := c.chi0.sum, rchi2 := rchi0 c
                      removed := removed, tried := s.tried + 1
                      maxIterI := if c.minArc ≤ arc' then c.maxIter * (s.tried + 1 + 1) else s.maxIterI }, false)
    else .ok ({ s with arc := arc }, false)

/-- `while not converged and processable`. od.py:225-527. `oracle n` is the candidate of iteration `n`, or `none` when
the iteration gives up with `continue` (od.py:366-439; the step size `delta`, which only those branches change, is part
of the oracle). The fuel is the number of iterations left before `max_iter_outliers`. -/
def loop (c : Ctx O R N V) (oracle : Nat → Option (Cand O R)) : Nat → St O R N V → Except PyErr (St O R N V)
  | 0, s => .ok { s with iter := s.iter + 1 }
  | fuel + 1, s =>
    if s.iter + 1 = s.maxIterI + 1 ∧ (s.found = true ∨ c.maxOut = s.tried) then .ok { s with iter := s.iter + 1 }
    else
      match oracle (s.iter + 1) with
      | none => loop c oracle fuel { s with iter := s.iter + 1 }
      | some x =>
        match judge c { s with iter := s.iter + 1 } x with
        | .error e => .error e
        | .ok (s', true) => .ok s'
        | .ok (s', false) => loop c oracle fuel s'

/-- A member row: observation id, solution flag, outlier flag. od.py:556-564. -/
structure Member (N : Type) where
  obs : N
  solution : Bool
  outlier : Bool
deriving DecidableEq

/-- The fitted orbit returned. od.py:543-554. -/
structure Fit (O R V : Type) where
  orbit : O
  resid : R
  arc : ℚ
  numObs : Int
  chi2 : ℚ
  rchi2 : V
  iterations : Nat
  success : Bool

/-- What follows the loop. od.py:532-566. Failing `assert arc_length == arc_length_` is an AssertionError; `none` is the
pair of empty tables. -/
def finish (c : Ctx O R N V) (s : St O R N V) : Except PyErr (Option (Fit O R V × List (Member N))) :=
  if !s.found || s.first then .ok none
  else
    match extent (masked c s.removed (c.obs.map Obs.mjd)) with
    | none => .error .valueError
    | some arc =>
      if s.arc ≠ arc then .error .assertionError
      else .ok (some ({ orbit := s.orbit, resid := s.resid, arc := arc, numObs := numObs c s.removed, chi2 := s.chi2Total
                        rchi2 := s.rchi2, iterations := s.iter, success := s.improved },
        c.obs.map fun o => ⟨o.id, !decide (o.id ∈ s.removed), decide (o.id ∈ s.removed)⟩))

/-- `od` for a valid `method`. od.py:130-566. Too few observations give empty tables before anything is computed. The
outlier budget of the context is set here (`calculate_max_outliers` never yields a negative one). -/
def od (fl : ℚ → ℚ) (minObs : Int) (pct : ℚ) (base : Ctx O R N V) (oracle : Nat → Option (Cand O R)) :
    Except PyErr (Option (Fit O R V × List (Member N))) :=
  let n : Int := (base.obs.length : Int)
  if n < minObs then .ok none
  else
    match maxOutliers fl n minObs pct with
    | .error e => .error e
    | .ok m =>
      let c := { base with maxOut := m.toNat }
      match loop c oracle (c.maxIter * (m.toNat + 1)) (start c) with
      | .error e => .error e
      | .ok s => finish c s

/-- The terms of the normal equations of an iteration: for `n` below the number of observations kept, the partials of
the n-th kept observation, the weight of the n-th observation, and the n-th residual of the input orbit.
od.py:339-350, 194-196. -/
def normalTerms {P W B : Type} (keep : List Bool) (partials : List P) (sigmas : List W) (resid0 : List B) :
    List (P × W × B) :=
  let kept := ((partials.zip keep).filter Prod.snd).map Prod.fst
  kept.zip (sigmas.zip resid0)

end Verif.Od
