import Verif.Rot.Design
import Verif.Rot.Verdict
import Verif.AbsMag.Model

/-! # estimate_rotation_period (photometry/rotation/estimator.py)

Exact real arithmetic. Least squares, the F distribution, the prior for the phase coefficients and the speed of light are arbitrary. The two
backends are taken to give the same fits; `Verif.Rot.JaxProps` says how far they do. -/

namespace Verif.Rot

open Verif Sched

/-- The parts of the program that are not modelled: `np.linalg.lstsq`, the F distribution and its quantile, the targets and weights of
`_phase_prior_rows` for the smallest phase angle, and the speed of light. core.py:325-372, 23. -/
structure Env where
  lstsq : List (List ℝ) → List ℝ → List ℝ
  cdf : ℝ → ℤ → ℤ → ℝ
  ppf : ℝ → ℤ → ℤ → Option ℝ
  priors : ℝ → (ℝ × ℝ) × (ℝ × ℝ)
  light : ℝ

/-- A row of `RotationPeriodObservations`: a number that is missing, infinite or NaN is `none`. core.py:687-695. -/
structure Obs where
  time : Option ℝ
  mag : Option ℝ
  sigma : Option ℝ
  filter : Option String
  session : Option String
  r : Option ℝ
  delta : Option ℝ
  alpha : Option ℝ

/-- A row that has been validated. Used for core.py:158-170, 176-179. -/
structure Row where
  time : ℝ
  mag : ℝ
  sigma : Option ℝ
  filter : String
  session : Option String
  r : ℝ
  delta : ℝ
  alpha : ℝ

/-- The numbers of a row, none if one of them is not finite. core.py:158-170, 176-179. -/
def rowOf (o : Obs) : Option Row :=
  match o.time, o.mag, o.r, o.delta, o.alpha with
  | some t, some m, some r, some d, some a => some ⟨t, m, o.sigma, o.filter.getD "__missing_filter__", o.session, r, d, a⟩
  | _, _, _, _, _ => none

/-- `_validate_inputs`. core.py:128-217. -/
noncomputable def validate (obs : List Obs) : Except PyErr (List Row) :=
  if obs = [] then .error .valueError
  else if obs.any fun o => (rowOf o).isNone then .error .valueError
  else
    let rows := obs.filterMap rowOf
    if rows.any fun r => decide (r.r ≤ 0 ∨ r.delta ≤ 0) then .error .valueError else .ok rows

/-- Whether there are session labels. core.py:185-197. -/
def hasSessions (rows : List Row) : Bool := rows.any fun r => r.session.isSome

/-- The label of the session. core.py:117-125. -/
def Row.label (r : Row) : String := r.session.getD "__missing_session__"

/-- `_apply_light_time_correction`. core.py:220-227. -/
noncomputable def Row.lightTime (env : Env) (r : Row) : ℝ := r.time - r.delta / env.light

/-- `reduced_magnitude`. lightcurve.py:16-31. -/
noncomputable def Row.reduced (r : Row) : ℝ := r.mag - 5 * (Real.log (r.r * r.delta) / Real.log 10)

/-- The earliest time. estimator.py:1513. -/
noncomputable def earliest (env : Env) (rows : List Row) : ℝ :=
  minFrom ((rows.map (Row.lightTime env)).headD 0) (rows.map (Row.lightTime env))

/-- `t_rel`. estimator.py:1513. -/
noncomputable def relTimes (env : Env) (rows : List Row) : List ℝ := rows.map fun r => r.lightTime env - earliest env rows

/-- `span_days`. estimator.py:1514. -/
noncomputable def spanOf (env : Env) (rows : List Row) : ℝ :=
  maxFrom ((relTimes env rows).headD 0) (relTimes env rows) - minFrom ((relTimes env rows).headD 0) (relTimes env rows)

/-- Whether `_weights_from_sigma` gives weights. core.py:199-206, estimator.py:623-633. -/
noncomputable def isWeighted (rows : List Row) : Bool :=
  rows.all fun r => match r.sigma with
    | none => false
    | some s => decide (0 < s)

/-- The labels of a row for the design. Used for estimator.py:1554, 1575. -/
def Row.lab (r : Row) : Lab := ⟨r.filter, r.label, r.alpha⟩

/-- The data of the fits, with or without session offsets. estimator.py:1554, 1575, core.py:437-440. -/
noncomputable def problemOf (env : Env) (rows : List Row) (use : Bool) : Problem where
  points := rows.map fun r =>
    ⟨r.lightTime env - earliest env rows, r.reduced, zeroRow use (rows.map Row.lab) r.lab ++ [r.alpha, r.alpha ^ 2], if isWeighted rows then 1 / (r.sigma.getD 0) ^ 2 else 0⟩
  nFixed := (columns use (rows.map Row.lab)).length + 2
  weighted := isWeighted rows
  priors := env.priors (minFrom ((rows.map Row.alpha).headD 0) (rows.map Row.alpha))

/-! ## Sessions -/

/-- `_SessionSummary`. core.py:55-59. -/
structure Summary where
  n : Nat
  least : Nat
  median : ℝ

/-- `_summarize_sessions`. core.py:268-308. -/
noncomputable def summarize (env : Env) (rows : List Row) : Summary :=
  if hasSessions rows then
    let sessions := uniq (rows.map Row.label)
    let filters := uniq (rows.map Row.filter)
    let counts := (sessions.flatMap fun s => filters.map fun f => (rows.filter fun r => r.label == s && r.filter == f).length).filter fun k => decide (0 < k)
    let spans := sessions.map fun s =>
      let times := (rows.filter fun r => r.label == s).map (Row.lightTime env)
      maxFrom (times.headD 0) times - minFrom (times.headD 0) times
    ⟨sessions.length, counts.foldl min (counts.headD 0), AbsMag.median spans⟩
  else ⟨0, 0, 0⟩

/-- `_fit_bic`. core.py:591-595. -/
noncomputable def bic (r : Fit) : WithTop ℝ :=
  if r.nFit ≤ r.nPar ∨ r.rss ≤ 0 then ⊤
  else ((r.nFit * Real.log (r.rss / r.nFit) + r.nPar * Real.log r.nFit : ℝ) : WithTop ℝ)

/-! ## The screen -/

/-- `_pre_solve_insufficiency`. estimator.py:1204-1263. -/
noncomputable def screen (rows : List Row) (span : ℝ) (minOrder : Nat) (minRotations maxFrequency : ℝ) : List String :=
  let n := rows.length
  let few := n < 8 ∨ n < (uniq (rows.map Row.filter)).length + 2 * minOrder + 2 + 2
  let short := span ≤ 0 ∨ maxFrequency ≤ minRotations / span
  let sigmas := rows.filterMap Row.sigma
  let noise := if sigmas = [] then 0.02 else AbsMag.median sigmas
  let quiet := rows ≠ [] ∧ AbsMag.madSigma (rows.map Row.reduced) < 1.5 * noise
  labelsOf [(decide few, "too_few_observations"), (decide short, "insufficient_time_span"), (decide quiet, "amplitude_below_noise")]

/-! ## The estimator -/

/-- The parameters of `estimate_rotation_period`. The orders are at least 1. estimator.py:1384-1402. -/
structure Knobs where
  profile : String
  fidelity : Option String
  orders : Option (List Nat)
  clip : ℝ
  minRotations : ℝ
  maxFrequency : ℝ
  scale : ℝ
  maxPeriodHours : Option ℝ
  early : Bool
  backend : String
  mode : String
  minGroup : ℤ
  bicGain : ℝ
  claim : Bool

/-- The defaults. estimator.py:1384-1402. -/
noncomputable def defaults : Knobs where
  profile := "default"
  fidelity := none
  orders := none
  clip := 3
  minRotations := 2
  maxFrequency := 1000
  scale := 30
  maxPeriodHours := none
  early := true
  backend := "numpy"
  mode := "auto"
  minGroup := 6
  bicGain := 10
  claim := true

/-- The only profile. core.py:85-95. -/
noncomputable def defaultProfile : Profile := ⟨[2, 3, 4, 5, 6], 9 / 10, 19 / 20, none, some (2, 7)⟩

/-- The checks of the parameters; all of them raise ValueError. estimator.py:1480-1499, 164-180. -/
noncomputable def knobsOk (k : Knobs) : Bool :=
  decide (0 < k.clip) && decide (0 < k.minRotations) && decide (0 < k.maxFrequency) && decide (0 < k.scale) &&
  (k.maxPeriodHours.all fun h => decide (0 < h)) &&
  decide (k.mode ∈ ["ignore", "use", "auto"]) && decide (0 < k.minGroup) && decide (0 ≤ k.bicGain) && decide (k.backend ∈ ["numpy", "jax"]) &&
  decide (k.fidelity.getD "validated_staged" ∈ ["validated_staged", "exact_grid"]) && decide (k.profile = "default")

/-- The orders that are tried: an empty tuple stands for the default. estimator.py:756. -/
def ordersOf (k : Knobs) : List Nat :=
  match k.orders with
  | none => [2, 3, 4, 5, 6]
  | some [] => [2, 3, 4, 5, 6]
  | some l => l

/-- What is returned: a screened result with its reasons, or the verdict, the flags about the search, whether session offsets were used, and the
solution. estimator.py:1266-1381. -/
inductive Outcome
  | screened (reasons : List String)
  | solved (primary : Primary) (flags : List String) (sessions : Bool) (s : Solution)

/-- A solution with or without session offsets. estimator.py:1554-1569, 1575-1590. -/
noncomputable def solveWith (env : Env) (k : Knobs) (rows : List Row) (freqs : List ℝ) (use : Bool) : Except PyErr Solution :=
  deriveSolution env.cdf env.ppf defaultProfile (decide (k.fidelity = some "exact_grid"))
    (fun o f => fitUnclipped env.lstsq (problemOf env rows use) f o) (fun o f => fitFrequency env.lstsq (problemOf env rows use) f o k.clip 8) freqs (ordersOf k)

/-- Whether session offsets are adopted, given both solutions. estimator.py:1591-1615. -/
noncomputable def adopt (env : Env) (k : Knobs) (rows : List Row) (base sess : Solution) : Bool :=
  if k.mode = "use" then true
  else
    let s := summarize env rows
    decide (2 ≤ s.n ∧ k.minGroup ≤ s.least ∧ 0 < s.median ∧ bic sess.chosen + (k.bicGain : WithTop ℝ) < bic base.chosen)

/-- The choice between the two solutions. estimator.py:1554-1615. -/
noncomputable def solveBoth (env : Env) (k : Knobs) (rows : List Row) (freqs : List ℝ) : Except PyErr (Bool × Solution) :=
  match solveWith env k rows freqs false with
  | .error e => .error e
  | .ok base =>
    if hasSessions rows = true ∧ k.mode ≠ "ignore" then
      match solveWith env k rows freqs true with
      | .error e => .error e
      | .ok sess => if adopt env k rows base sess then .ok (true, sess) else .ok (false, base)
    else .ok (false, base)

/-- The parameters of the grid. estimator.py:1546-1552. -/
def gridOf (k : Knobs) (span : ℝ) : GridParams := ⟨span, k.minRotations, k.maxFrequency, k.scale, k.maxPeriodHours⟩

/-- What follows the screen. estimator.py:1542-1712. -/
noncomputable def solveRows (env : Env) (k : Knobs) (rows : List Row) : Except PyErr Outcome :=
  let span := spanOf env rows
  if span ≤ 0 then .error .valueError
  else
    match frequencyGrid (gridOf k span) with
    | .error e => .error e
    | .ok freqs =>
      match solveBoth env k rows freqs with
      | .error e => .error e
      | .ok (use, s) =>
        open Classical in
        .ok (.solved (judge (rows.map Row.filter) (relTimes env rows) span k.minRotations k.claim (fMin (gridOf k span))
            (fun f => fitFrequency env.lstsq (problemOf env rows use) f 6 k.clip 8) s)
          (searchFlags (decide (k.fidelity = some "exact_grid")) freqs.length (decide (wasCapped (gridOf k span)))) use s)

/-- `estimate_rotation_period`. estimator.py:1384-1712. -/
noncomputable def estimate (env : Env) (k : Knobs) (obs : List Obs) : Except PyErr Outcome :=
  if knobsOk k = false then .error .valueError
  else
    match validate obs with
    | .error e => .error e
    | .ok rows =>
      let reasons := screen rows (spanOf env rows) 2 k.minRotations k.maxFrequency
      if k.early = true ∧ reasons ≠ [] then .ok (.screened reasons) else solveRows env k rows

end Verif.Rot
