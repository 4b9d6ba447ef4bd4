import Verif.Rot.Search
import Mathlib.Data.Prod.Lex

/-! # The solution and its rivals (photometry/rotation/estimator.py)

The fits at one frequency and order, without and with clipping, and the F distribution are arbitrary functions. -/

namespace Verif.Rot

open Verif Sched

/-! ## The period of a fit -/

/-- The periodic part of a model at a phase. core.py:629-635. -/
noncomputable def periodic (c : List ℝ) (order : Nat) (x : ℝ) : ℝ :=
  ((List.range order).map fun h : Nat =>
    c.getD (c.length - 2 * order + 2 * h) 0 * Real.cos (2 * Real.pi * (h + 1 : ℝ) * x) +
    c.getD (c.length - 2 * order + 2 * h + 1) 0 * Real.sin (2 * Real.pi * (h + 1 : ℝ) * x)).sum

/-- The maxima that `_count_local_extrema` counts, among `n` points of a cycle. core.py:624-640. -/
noncomputable def countMaxima (n : Nat) (v : Nat → ℝ) : Nat :=
  ((List.range n).filter fun k => v ((k + (n - 1)) % n) < v k ∧ v ((k + 1) % n) ≤ v k).length

/-- `is_period_doubled`. core.py:670-672. -/
noncomputable def isDoubled (r : Fit) : Bool := decide (countMaxima 2048 (fun k : Nat => periodic r.coeffs r.order ((k : ℝ) / 2048)) = 1)

/-- `period_days`. core.py:673. -/
noncomputable def periodOf (r : Fit) : ℝ := (if isDoubled r then 2 else 1) / r.frequency

/-! ## Clusters -/

/-- An accepted fit with the ends of its period. estimator.py:644-676. -/
structure Item where
  idx : Nat
  fit : Fit
  lower : ℝ
  upper : ℝ

/-- `frequency_half_step`. estimator.py:656-669. -/
noncomputable def halfStep (freqs : List ℝ) (i : Nat) (f : ℝ) : ℝ :=
  let left := if 0 < i then freqs.getD (i - 1) 0 else f
  let right := if i + 1 < freqs.length then freqs.getD (i + 1) 0 else f
  1 / 2 * max |f - left| |right - f|

/-- The item of a fit. estimator.py:647-681. -/
noncomputable def itemOf (freqs : List ℝ) (i : Nat) (r : Fit) : Item :=
  let h := halfStep freqs i r.frequency
  let factor : ℝ := if isDoubled r then 2 else 1
  let a := factor / (r.frequency + h)
  let b := factor / max (r.frequency - h) ((1 : ℝ) / 2 ^ 52)
  ⟨i, r, min a b, max a b⟩

/-- The greatest of some numbers, after the first. Used for estimator.py:686-697. -/
noncomputable def maxFrom (a : ℝ) (l : List ℝ) : ℝ := l.foldl max a

/-- The least of some numbers, after the first. Used for estimator.py:698-710. -/
noncomputable def minFrom (a : ℝ) (l : List ℝ) : ℝ := l.foldl min a

/-- The loop that merges sorted items; the current group is `a :: cur`. estimator.py:686-697. -/
noncomputable def groupItems (a : Item) (cur : List Item) : List Item → List (Item × List Item)
  | [] => [(a, cur)]
  | x :: l => if x.lower ≤ maxFrom a.upper (cur.map Item.upper) + 1 / 10 ^ 12 then groupItems a (cur ++ [x]) l else (a, cur) :: groupItems x [] l

/-- `_FourierCluster`. estimator.py:97-103. -/
structure Cluster where
  indices : List Nat
  best : Fit
  lower : ℝ
  upper : ℝ

/-- The first fit with the least sigma. estimator.py:701. -/
noncomputable def leastFit (a : Fit) (l : List Fit) : Fit := l.foldl (fun b r => if r.sigma < b.sigma then r else b) a

/-- The cluster of a group. estimator.py:698-710. -/
noncomputable def clusterOf (g : Item × List Item) : Cluster where
  indices := (g.1 :: g.2).map Item.idx
  best := leastFit g.1.fit (g.2.map Item.fit)
  lower := minFrom g.1.lower (g.2.map Item.lower)
  upper := maxFrom g.1.upper (g.2.map Item.upper)

/-- The key by which items are sorted. estimator.py:684. -/
noncomputable def itemKey (x : Item) : ℝ ×ₗ ℝ ×ₗ Nat := toLex (x.lower, toLex (x.upper, x.idx))

/-- `_cluster_fourier_solutions`. estimator.py:636-711. -/
noncomputable def clustersOf (items : List Item) : List Cluster :=
  match sortBy itemKey items with
  | [] => []
  | a :: l => sortBy (fun c => c.best.sigma) ((groupItems a [] l).map clusterOf)

/-! ## The solution -/

/-- `_FourierProfile`; the last field is the pair `reliable_relative_multiplier`, `reliable_absolute_hours`. core.py:69-76. -/
structure Profile where
  orders : List Nat
  orderConfidence : ℝ
  sigmaConfidence : ℝ
  validMax : Option ℝ
  reliable : Option (ℝ × ℝ)

/-- `_sigma_threshold_for_confidence`; the quantile of the F distribution is none if it is not finite. core.py:615-621. -/
noncomputable def thresholdOf (ppf : ℝ → ℤ → ℤ → Option ℝ) (best : Fit) (confidence : ℝ) : WithTop ℝ :=
  if best.df ≤ 0 then ⊤
  else match ppf confidence best.df best.df with
    | none => ⊤
    | some c => if c ≤ 0 then ⊤ else ((best.sigma * Real.sqrt c : ℝ) : WithTop ℝ)

/-- `_FourierSolution`. estimator.py:106-121. -/
structure Solution where
  chosen : Fit
  primary : Cluster
  threshold : WithTop ℝ
  clusters : List Cluster
  relativeUncertainty : ℝ
  alternates : List ℝ
  valid : Bool
  reliable : Bool

/-- `_relative_period_uncertainty`, for a positive period. estimator.py:714-721. -/
noncomputable def relativeUncertainty (period lower upper : ℝ) : ℝ := max |period - lower| |upper - period| / period

/-- `_max_cluster_period_deviation`, for a positive period and some clusters. estimator.py:724-737. -/
noncomputable def maxDeviation (period : ℝ) (clusters : List Cluster) : ℝ :=
  maxFrom 0 (clusters.map fun c => max |c.lower - period| |c.upper - period|)

/-- The accepted indices. estimator.py:797-802. -/
noncomputable def acceptedIndices (scores : List (Option ℝ)) (threshold : WithTop ℝ) (best : Nat) : List Nat :=
  let l := (List.range scores.length).filter fun i => (scores.getD i none).isSome ∧ scoreAt scores i ≤ threshold
  if l = [] then [best] else l

/-- What follows the choice of the best fit. The fits of accepted indices are there already, so the loop that fits them again is left out. The
primary cluster is removed from the alternates by its indices, not its identity. estimator.py:790-891. -/
noncomputable def solutionOf (ppf : ℝ → ℤ → ℤ → Option ℝ) (profile : Profile) (freqs : List ℝ) (fit : ℝ → Option Fit) (bestIdx : Nat)
    (best : Fit) : Solution :=
  let threshold := thresholdOf ppf best profile.sigmaConfidence
  let accepted := acceptedIndices (freqs.map fun f => (fit f).map Fit.sigma) threshold bestIdx
  let found := clustersOf (accepted.filterMap fun i => (fit (freqs.getD i 0)).map (itemOf freqs i))
  let single : Cluster := ⟨[bestIdx], best, periodOf best, periodOf best⟩
  let clusters := if found = [] then [single] else found
  let primary := (clusters.find? fun c => bestIdx ∈ c.indices).getD (clusters.headD single)
  let rel := relativeUncertainty (periodOf best) primary.lower primary.upper
  let valid := match profile.validMax with
    | none => true
    | some m => decide (rel ≤ m)
  { chosen := best
    primary := primary
    threshold := threshold
    clusters := clusters
    relativeUncertainty := rel
    alternates := (clusters.filter fun c => c.indices ≠ primary.indices).map fun c => periodOf c.best
    valid := valid
    reliable := match profile.reliable with
      | none => valid
      | some (k, hours) => decide (maxDeviation (periodOf best) clusters ≤ max (k * periodOf best) (hours / 24)) }

/-- `_derive_fourier_solution`, `orders` being those given or else those of the profile. estimator.py:740-891. -/
noncomputable def deriveSolution (cdf : ℝ → ℤ → ℤ → ℝ) (ppf : ℝ → ℤ → ℤ → Option ℝ) (profile : Profile) (exactGrid : Bool)
    (rough exact : Nat → ℝ → Option Fit) (freqs : List ℝ) (orders : List Nat) : Except PyErr Solution :=
  let sorted := sortBy id (uniq orders)
  let candidates := sorted.filterMap fun o => (searchBest exactGrid (rough o) (exact o) freqs).map fun r => (o, r)
  if candidates = [] then .error .valueError
  else
    match selectOrder cdf candidates profile.orderConfidence with
    | .error e => .error e
    | .ok c =>
      let fit := exact c.order
      match argmin (freqs.map fun f => (fit f).map Fit.sigma) with
      | none => .error .valueError
      | some i =>
        match fit (freqs.getD i 0) with
        | none => .error .valueError
        | some best => .ok (solutionOf ppf profile freqs fit i best)

end Verif.Rot
