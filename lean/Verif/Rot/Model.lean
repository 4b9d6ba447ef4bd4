import Verif.Basic
import Verif.Sched.Model
import Mathlib.Analysis.SpecialFunctions.Trigonometric.Basic
import Mathlib.Analysis.Real.Sqrt

/-! # Fits of rotation periods (photometry/rotation/core.py)

Exact real arithmetic. `np.linalg.lstsq` is an arbitrary function of the scaled matrix and target, and the cumulative distribution function
of the F distribution an arbitrary function. -/

namespace Verif.Rot

open Verif Sched

/-- What the fit knows of an observation: time, reduced magnitude, row of the fixed design, weight.
Used for core.py:415-425, 342-372. -/
structure Pt where
  t : ℝ
  y : ℝ
  fixed : List ℝ
  w : ℝ

/-- The data of a fit. `weighted` is false if `weights` is None; `priors` are the targets and weights of the two pseudo-observations, which
`_phase_prior_rows` derives from the smallest phase angle. core.py:415-425, 342-372. -/
structure Problem where
  points : List Pt
  nFixed : Nat
  weighted : Bool
  priors : (ℝ × ℝ) × (ℝ × ℝ)

/-- `_FitResult`. core.py:33-45. -/
structure Fit where
  frequency : ℝ
  order : Nat
  coeffs : List ℝ
  sigma : ℝ
  rss : ℝ
  df : ℤ
  nPar : Nat
  nFit : Nat
  nClipped : Nat

/-- `row @ coeffs`. Used for core.py:461. -/
def dot (row c : List ℝ) : ℝ := (List.zipWith (· * ·) row c).sum

/-- A row of `_build_fourier_columns`, for an order of at least 1. core.py:311-322. -/
noncomputable def fourier (t f : ℝ) (order : Nat) : List ℝ :=
  (List.range order).flatMap fun h : Nat => [Real.cos ((h + 1 : ℝ) * (2 * Real.pi * f * t)), Real.sin ((h + 1 : ℝ) * (2 * Real.pi * f * t))]

/-- A row of the design. core.py:447-448. -/
noncomputable def designRow (f : ℝ) (order : Nat) (p : Pt) : List ℝ := p.fixed ++ fourier p.t f order

/-- A row of `prior_rows`. core.py:357-359. -/
def unitRow (n i : Nat) : List ℝ := (List.range n).map fun j => if j = i then 1 else 0

/-- `_weighted_lstsq` for given weights. core.py:375-387. -/
noncomputable def weightedLstsq (lstsq : List (List ℝ) → List ℝ → List ℝ) (design : List (List ℝ)) (target weights : List ℝ) : List ℝ :=
  lstsq (List.zipWith (fun row w => row.map (· * Real.sqrt w)) design weights) (List.zipWith (fun y w => y * Real.sqrt w) target weights)

/-- `_paper_sigma` for `n_fit > n_par`: sigma and the sum of squares, none if they are infinite. core.py:390-412. -/
noncomputable def paperSigma (residuals : List ℝ) (weights : Option (List ℝ)) (nObs : Nat) (df : ℤ) : Option (ℝ × ℝ) :=
  match weights with
  | none =>
    let rss := (residuals.map (· ^ 2)).sum
    some (Real.sqrt (max (rss / df) 0), rss)
  | some ws =>
    let rss := (List.zipWith (fun w r => w * r ^ 2) ws residuals).sum
    if ws.sum ≤ 0 then none
    else some (Real.sqrt (max (nObs / ws.sum * rss / df) 0), rss)

/-- The coefficients of `_solve`. core.py:443-460. -/
noncomputable def solve (lstsq : List (List ℝ) → List ℝ → List ℝ) (p : Problem) (f : ℝ) (order : Nat) (kept : List Pt) : List ℝ :=
  let nPar := p.nFixed + 2 * order
  weightedLstsq lstsq (kept.map (designRow f order) ++ [unitRow nPar (p.nFixed - 2), unitRow nPar (p.nFixed - 1)])
    (kept.map Pt.y ++ [p.priors.1.1, p.priors.2.1])
    ((kept.map fun q => if p.weighted then q.w else 1) ++ [p.priors.1.2, p.priors.2.2])

/-- The residual of a point. core.py:461. -/
noncomputable def residual (f : ℝ) (order : Nat) (c : List ℝ) (q : Pt) : ℝ := q.y - dot (designRow f order q) c

/-- The sigma and sum of squares of `_solve`. core.py:462-464. -/
noncomputable def sigmaOf (p : Problem) (f : ℝ) (order : Nat) (kept : List Pt) (c : List ℝ) : Option (ℝ × ℝ) :=
  paperSigma (kept.map (residual f order c)) (if p.weighted then some (kept.map Pt.w) else none) p.points.length
    ((kept.length : ℤ) - (p.nFixed + 2 * order : Nat))

/-- `_result`. core.py:467-486. -/
noncomputable def result (p : Problem) (f : ℝ) (order : Nat) (kept : List Pt) (c : List ℝ) (s : ℝ × ℝ) : Fit where
  frequency := f
  order := order
  coeffs := c
  sigma := s.1
  rss := s.2
  df := (kept.length : ℤ) - (p.nFixed + 2 * order : Nat)
  nPar := p.nFixed + 2 * order
  nFit := kept.length
  nClipped := p.points.length - kept.length

/-- The last solution, after the loop. core.py:504-510. -/
noncomputable def lastFit (lstsq : List (List ℝ) → List ℝ → List ℝ) (p : Problem) (f : ℝ) (order : Nat) (kept : List Pt) : Option Fit :=
  if kept.length ≤ p.nFixed + 2 * order then none
  else (sigmaOf p f order kept (solve lstsq p f order kept)).map (result p f order kept (solve lstsq p f order kept))

/-- The loop that clips; the points not masked are passed along. core.py:488-510. -/
noncomputable def clipLoop (lstsq : List (List ℝ) → List ℝ → List ℝ) (p : Problem) (f : ℝ) (order : Nat) (clip : ℝ) :
    Nat → List Pt → Option Fit
  | 0, kept => lastFit lstsq p f order kept
  | k + 1, kept =>
    if kept.length ≤ p.nFixed + 2 * order then none
    else
      let c := solve lstsq p f order kept
      match sigmaOf p f order kept c with
      | none => none
      | some s =>
        let stay := kept.filter fun q => |residual f order c q| ≤ clip * s.1
        if kept.all fun q => |residual f order c q| ≤ clip * s.1 then some (result p f order kept c s)
        else if stay.length = kept.length then lastFit lstsq p f order kept
        else clipLoop lstsq p f order clip k stay

/-- `_fit_frequency`. core.py:415-510. -/
noncomputable def fitFrequency (lstsq : List (List ℝ) → List ℝ → List ℝ) (p : Problem) (f : ℝ) (order : Nat) (clip : ℝ)
    (maxIterations : ℤ) : Option Fit :=
  if p.points.length ≤ p.nFixed + 2 * order then none
  else clipLoop lstsq p f order clip (max 1 maxIterations).toNat p.points

/-- `_fit_frequency_unclipped`. core.py:513-566. -/
noncomputable def fitUnclipped (lstsq : List (List ℝ) → List ℝ → List ℝ) (p : Problem) (f : ℝ) (order : Nat) : Option Fit :=
  lastFit lstsq p f order p.points

/-- `_f_test_confidence`. core.py:569-588. -/
noncomputable def fTest (cdf : ℝ → ℤ → ℤ → ℝ) (small large : Fit) : ℝ :=
  if large.nPar ≤ small.nPar then 0
  else if small.df ≤ 0 ∨ large.df ≤ 0 then 0
  else if small.sigma ^ 2 ≤ large.sigma ^ 2 ∨ large.sigma ^ 2 ≤ 0 then 0
  else if small.sigma ^ 2 / large.sigma ^ 2 ≤ 1 then 0
  else cdf (small.sigma ^ 2 / large.sigma ^ 2) small.df large.df

/-- The loop of `_select_order`; `last` is the fit of the highest order. core.py:602-612. -/
noncomputable def selectLoop (cdf : ℝ → ℤ → ℤ → ℝ) (confidence : ℝ) (last : Fit) : List (Nat × Fit) → Fit
  | [] => last
  | c :: higher => if higher.any fun h => confidence < fTest cdf c.2 h.2 then selectLoop cdf confidence last higher else c.2

/-- `_select_order`: `candidate_fits` has a fit for every key; no candidates are an IndexError. core.py:598-612. -/
noncomputable def selectOrder (cdf : ℝ → ℤ → ℤ → ℝ) (candidates : List (Nat × Fit)) (confidence : ℝ) : Except PyErr Fit :=
  let sorted := sortBy Prod.fst candidates
  match sorted.getLast? with
  | none => .error .indexError
  | some l => .ok (selectLoop cdf confidence l.2 sorted)

end Verif.Rot
