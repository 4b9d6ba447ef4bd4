import Verif.Rot.Model
import Mathlib.Algebra.Order.Floor.Ring
import Mathlib.Algebra.Order.Archimedean.Real.Basic

/-! # The search for a period (photometry/rotation/estimator.py)

The fits at one frequency are arbitrary functions of the order and the frequency; `Verif.Rot.Props.C71_counts` says what `_fit_frequency` gives.
The backend is `numpy`. -/

namespace Verif.Rot

open Verif Sched

/-! ## The grid of frequencies -/

/-- The parameters of the grid. estimator.py:568-575. -/
structure GridParams where
  span : ℝ
  minRotations : ℝ
  maxFrequency : ℝ
  scale : ℝ
  maxPeriodHours : Option ℝ

/-- `f_min`. estimator.py:576-580. -/
noncomputable def fMin (g : GridParams) : ℝ :=
  match g.maxPeriodHours with
  | none => g.minRotations / g.span
  | some h => max (g.minRotations / g.span) (24 / h)

/-- `n_freq` before it is capped. estimator.py:587-589, 615-617. -/
noncomputable def wanted (g : GridParams) : ℤ := max (⌈g.scale * g.span * (g.maxFrequency - fMin g)⌉ + 1) 2

/-- `np.linspace` with at least two points. Used for estimator.py:568-591. -/
noncomputable def linspace (a b : ℝ) (n : Nat) : List ℝ := (List.range n).map fun i : Nat => a + i * ((b - a) / (n - 1))

/-- `_build_frequency_grid`, for a span that is not zero. estimator.py:568-591. -/
noncomputable def frequencyGrid (g : GridParams) : Except PyErr (List ℝ) :=
  if fMin g ≤ 0 then .error .valueError
  else if g.maxFrequency ≤ fMin g then .error .valueError
  else .ok (linspace (fMin g) g.maxFrequency (min (wanted g) 200000).toNat)

/-- `_grid_was_capped`, for a span that is not zero. estimator.py:594-620. -/
noncomputable def wasCapped (g : GridParams) : Prop :=
  ¬ (fMin g ≤ 0 ∨ g.maxFrequency ≤ fMin g) ∧ 200000 < wanted g

/-! ## The search -/

/-- The best fit of `_evaluate_frequency_indices`: the first of those with the least sigma. estimator.py:377-406. -/
noncomputable def bestOf (fits : List (Option Fit)) : Option Fit :=
  fits.foldl (fun best fit => match fit with
    | none => best
    | some r => match best with
      | none => some r
      | some b => if r.sigma < b.sigma then some r else some b) none

/-- `_evaluate_frequency_indices`: the fits at the indices. estimator.py:346-406. -/
def evaluate (fit : ℝ → Option Fit) (freqs : List ℝ) (indices : List Nat) : List (Option Fit) :=
  indices.map fun i => fit (freqs.getD i 0)

/-- `_merge_intervals`, after sorting. estimator.py:193-200. -/
def mergeSorted : List (Nat × Nat) → List (Nat × Nat)
  | [] => []
  | [a] => [a]
  | a :: b :: l => if b.1 ≤ a.2 + 1 then mergeSorted ((a.1, max a.2 b.2) :: l) else a :: mergeSorted (b :: l)
  termination_by l => l.length

/-- `_merge_intervals`, for intervals whose ends are in order. estimator.py:183-200. -/
def mergeIntervals (l : List (Nat × Nat)) : List (Nat × Nat) := mergeSorted (sortBy Prod.fst l)

/-- `_sample_indices_from_intervals` with a stride of 1, for intervals within the grid; the result is a set there. estimator.py:203-225. -/
def sampleIndices (intervals : List (Nat × Nat)) (n : Nat) : List Nat :=
  (if intervals = [] then [(0, n - 1)] else intervals).flatMap fun a => (List.range n).filter fun i => decide (a.1 ≤ i ∧ i ≤ a.2)

/-- `scores[i]`, infinite for NaN and for positions outside. estimator.py:234-244. -/
def scoreAt (scores : List (Option ℝ)) (i : Nat) : WithTop ℝ :=
  match scores.getD i none with
  | none => ⊤
  | some s => s

/-- `_local_minima_positions`. estimator.py:228-247. -/
noncomputable def localMinima (scores : List (Option ℝ)) : List Nat :=
  let valid := (List.range scores.length).filter fun i => (scores.getD i none).isSome
  let minima := valid.filter fun i => (i = 0 ∨ scoreAt scores i ≤ scoreAt scores (i - 1)) ∧ scoreAt scores i ≤ scoreAt scores (i + 1)
  if minima = [] then valid else minima

/-- The median of whole numbers, rounded: half to even. estimator.py:262-266. -/
def roundedMedian (l : List Nat) : Nat :=
  let s := sortBy id l
  let n := s.length
  if n % 2 = 1 then s.getD (n / 2) 0
  else
    let two := s.getD (n / 2 - 1) 0 + s.getD (n / 2) 0
    if two % 2 = 0 then two / 2 else if two / 2 % 2 = 0 then two / 2 else two / 2 + 1

/-- The stride of the samples. estimator.py:262-266. -/
def strideOf (indices : List Nat) : Nat :=
  if indices.length ≤ 1 then 1 else max 1 (roundedMedian (List.zipWith (fun a b => b - a) indices indices.tail))

/-- The loop that chooses centres: `left` are still to be chosen. estimator.py:267-274. -/
def chooseCentres (stride : Nat) : Nat → List Nat → List Nat → List Nat
  | _, [], chosen => chosen
  | left, c :: l, chosen =>
    if chosen.any fun e => decide (Int.natAbs ((c : ℤ) - e) < stride) then chooseCentres stride left l chosen
    else if left ≤ 1 then chosen ++ [c]
    else chooseCentres stride (left - 1) l (chosen ++ [c])

/-- `_candidate_intervals_from_scores`. estimator.py:250-275. -/
noncomputable def candidateIntervals (indices : List Nat) (scores : List (Option ℝ)) (n radius count : Nat) : List (Nat × Nat) :=
  let positions := sortBy (scoreAt scores) (localMinima scores)
  let centres := chooseCentres (strideOf indices) count (positions.map fun p => indices.getD p 0) []
  mergeIntervals (centres.map fun c => (c - radius, min (n - 1) (c + radius)))

/-- The first position of the least score, for some score. estimator.py:478-482. -/
noncomputable def argmin (scores : List (Option ℝ)) : Option Nat :=
  ((List.range scores.length).filter fun i => (scores.getD i none).isSome).find? fun i =>
    (List.range scores.length).all fun j => scoreAt scores i ≤ scoreAt scores j

/-- The stride of the coarse search. estimator.py:444. -/
def coarseStride (n : Nat) : Nat := max 1 ((n + 1023) / 1024)

/-- The indices of the coarse search. estimator.py:445-449. -/
def coarseIndices (n : Nat) : List Nat :=
  let l := (List.range ((n + coarseStride n - 1) / coarseStride n)).map fun k => k * coarseStride n
  if l.getLast? = some (n - 1) then l else l ++ [n - 1]

/-- The radius of the neighbourhoods. estimator.py:468, 483. -/
def radiusOf (n : Nat) : Nat := max 8 (4 * coarseStride n)

/-- The indices that are fitted in the second stage, in increasing order. estimator.py:464-491. -/
noncomputable def finalIndices (n : Nat) (scores : List (Option ℝ)) : List Nat :=
  let intervals := candidateIntervals (coarseIndices n) scores n (radiusOf n) 12
  let sampled := sampleIndices intervals n
  let near := match argmin scores with
    | none => []
    | some k =>
      let c := (coarseIndices n).getD k 0
      (List.range n).filter fun i => decide (c - radiusOf n ≤ i ∧ i < c + radiusOf n + 1)
  (List.range n).filter fun i => decide (i ∈ sampled ∨ i ∈ near)

/-- `_search_best_fit`: `rough` fits without clipping, `exact` with. estimator.py:409-523. -/
noncomputable def searchBest (exactGrid : Bool) (rough exact : ℝ → Option Fit) (freqs : List ℝ) : Option Fit :=
  let n := freqs.length
  if n = 0 then none
  else if exactGrid = true ∨ n ≤ 2048 then bestOf (evaluate exact freqs (List.range n))
  else
    let scores := (evaluate rough freqs (coarseIndices n)).map (Option.map Fit.sigma)
    match bestOf (evaluate exact freqs (finalIndices n scores)) with
    | some r => some r
    | none => bestOf (evaluate exact freqs (List.range n))

end Verif.Rot
