import Verif.Rot.Search
import Mathlib.Data.Nat.Size

/-! # Fits of many frequencies at once (photometry/rotation/jax_backend.py)

Exact real arithmetic. `jnp.linalg.solve` is an arbitrary function of the matrix and the right side. -/

namespace Verif.Rot

open Verif Sched

/-- The constant added to the diagonal. jax_backend.py:182. -/
noncomputable def ridge : ℝ := 1 / 10 ^ 15

/-- `xtx + 1.0e-15 * eye` for the scaled design. jax_backend.py:174-182, 151. -/
noncomputable def normalMatrix (a : List (List ℝ)) : List (List ℝ) :=
  (List.range (a.headD []).length).map fun i => (List.range (a.headD []).length).map fun j =>
    (a.map fun row => row.getD i 0 * row.getD j 0).sum + if i = j then ridge else 0

/-- `xty`. jax_backend.py:180. -/
noncomputable def normalRhs (a : List (List ℝ)) (b : List ℝ) : List ℝ :=
  (List.range (a.headD []).length).map fun i => (List.zipWith (fun row y => row.getD i 0 * y) a b).sum

/-- The coefficients for a scaled design and target. jax_backend.py:174-184. -/
noncomputable def normalSolve (lin : List (List ℝ) → List ℝ → List ℝ) (a : List (List ℝ)) (b : List ℝ) : List ℝ := lin (normalMatrix a) (normalRhs a b)

/-- `_next_multiple` for a multiple of at least 1. jax_backend.py:36-39. -/
def nextMultiple (n m : Nat) : Nat := (n + m - 1) / m * m

/-- `_row_bucket` for at least one row or a floor of at least 1. jax_backend.py:42-51. -/
def rowBucket (n floor : Nat) : Nat := 2 ^ Nat.size (max n floor - 1)

/-- The number of columns of zeros between the fixed columns and the harmonics. jax_backend.py:277-280. -/
def colPad (nFixed : Nat) : Nat := nextMultiple nFixed 8 - nFixed

/-- `_pad_rows`, with the columns of zeros: the rows, and which of them are real. jax_backend.py:54-85, 281-285. -/
def padRows (p : Problem) (floor : Nat) : List (Pt × Bool) :=
  (p.points.map fun q => ((⟨q.t, q.y, q.fixed ++ List.replicate (colPad p.nFixed) 0, if p.weighted then q.w else 1⟩ : Pt), true)) ++
  List.replicate (rowBucket p.points.length floor - p.points.length) (⟨0, 0, List.replicate (p.nFixed + colPad p.nFixed) 0, 0⟩, false)

/-- A row of `prior_rows` with the columns of zeros. jax_backend.py:286-294. -/
def padRow (nFixed : Nat) (row : List ℝ) : List ℝ := row.take nFixed ++ List.replicate (colPad nFixed) 0 ++ row.drop nFixed

/-- The effective weight of a row. jax_backend.py:172. -/
noncomputable def effective (q : Pt × Bool) : ℝ := if q.2 then q.1.w else 0

/-- The coefficients of `solve_with_mask`. jax_backend.py:158-184. -/
noncomputable def maskSolve (lin : List (List ℝ) → List ℝ → List ℝ) (p : Problem) (f : ℝ) (order : Nat) (rows : List (Pt × Bool)) : List ℝ :=
  normalSolve lin
    ((rows.map fun q => (designRow f order q.1).map (· * Real.sqrt (effective q))) ++
      [(padRow p.nFixed (unitRow (p.nFixed + 2 * order) (p.nFixed - 2))).map (· * Real.sqrt p.priors.1.2),
       (padRow p.nFixed (unitRow (p.nFixed + 2 * order) (p.nFixed - 1))).map (· * Real.sqrt p.priors.2.2)])
    ((rows.map fun q => q.1.y * Real.sqrt (effective q)) ++ [p.priors.1.1 * Real.sqrt p.priors.1.2, p.priors.2.1 * Real.sqrt p.priors.2.2])

/-- The number of active rows. jax_backend.py:187. -/
def nActive (rows : List (Pt × Bool)) : Nat := rows.countP Prod.snd

/-- `rss`. jax_backend.py:185-198. -/
noncomputable def maskRss (p : Problem) (f : ℝ) (order : Nat) (rows : List (Pt × Bool)) (c : List ℝ) : ℝ :=
  (rows.map fun q => if q.2 then (if p.weighted then effective q else 1) * (residual f order c q.1) ^ 2 else 0).sum

/-- `sigma`; none for infinity. jax_backend.py:187-200. -/
noncomputable def maskSigma (p : Problem) (f : ℝ) (order : Nat) (rows : List (Pt × Bool)) (c : List ℝ) : Option ℝ :=
  let df : ℤ := (nActive rows : ℤ) - (p.nFixed + 2 * order : Nat)
  if p.weighted then
    if 0 < df ∧ 0 < (rows.map effective).sum then
      some (Real.sqrt (max (p.points.length / (rows.map effective).sum * maskRss p f order rows c / df) 0))
    else none
  else if 0 < df then some (Real.sqrt (max (maskRss p f order rows c / df) 0)) else none

/-- A round of clipping, for a positive threshold. jax_backend.py:209-217. -/
noncomputable def maskRound (lin : List (List ℝ) → List ℝ → List ℝ) (p : Problem) (f : ℝ) (order : Nat) (clip : ℝ) (rows : List (Pt × Bool)) :
    List (Pt × Bool) :=
  let c := maskSolve lin p f order rows
  let sigma := maskSigma p f order rows c
  rows.map fun q => (q.1, q.2 && match sigma with
    | none => true
    | some s => decide (|residual f order c q.1| ≤ clip * s))

/-- The rounds of clipping. jax_backend.py:208-217. -/
noncomputable def maskRounds (lin : List (List ℝ) → List ℝ → List ℝ) (p : Problem) (f : ℝ) (order : Nat) (clip : ℝ) :
    Nat → List (Pt × Bool) → List (Pt × Bool)
  | 0, rows => rows
  | k + 1, rows => maskRounds lin p f order clip k (maskRound lin p f order clip rows)

/-- One frequency of `_evaluate_frequency_batch_jit`: the score, none if it is not valid, and the fit with the columns of zeros taken out. A
frequency that fills up the batch has no active rows. jax_backend.py:104-234, 355-372, 383. -/
noncomputable def maskFit (lin : List (List ℝ) → List ℝ → List ℝ) (p : Problem) (order : Nat) (clip : ℝ) (maxIterations floor : Nat)
    (f : ℝ) (valid : Bool) : Option ℝ × Fit :=
  let start := (padRows p floor).map fun q => (q.1, q.2 && valid)
  let rows := if valid then maskRounds lin p f order clip maxIterations start else start
  let c := maskSolve lin p f order rows
  let sigma := maskSigma p f order rows c
  let df : ℤ := (nActive rows : ℤ) - (p.nFixed + 2 * order : Nat)
  (if valid = true ∧ 0 < df then sigma else none,
   { frequency := f, order := order, coeffs := c.take p.nFixed ++ (c.drop (p.nFixed + colPad p.nFixed)).take (2 * order),
     sigma := sigma.getD 0, rss := maskRss p f order rows c, df := df, nPar := p.nFixed + 2 * order, nFit := nActive rows,
     nClipped := p.points.length - nActive rows })

/-- A batch: the frequencies, filled up with zeros that are not valid. jax_backend.py:312-316. -/
def fillBatch (size : Nat) (freqs : List ℝ) : List (ℝ × Bool) :=
  (freqs.map fun f => (f, true)) ++ List.replicate (size - freqs.length) (0, false)

/-- `argmin` of scores, infinite if there is none: the first of the least. jax_backend.py:223-224. -/
noncomputable def argminScore : List (Option ℝ × Fit) → Option (Option ℝ × Fit)
  | [] => none
  | x :: l => match argminScore l with
    | none => some x
    | some y => match x.1, y.1 with
      | none, none => some x
      | none, some _ => some y
      | some _, none => some x
      | some a, some b => if a ≤ b then some x else some y

/-- What a batch does to the best so far: the fit at `best_idx` replaces it if its score is smaller. jax_backend.py:345-372. -/
noncomputable def takeBatch (best : Option Fit) (results : List (Option ℝ × Fit)) : Option Fit :=
  match argminScore results with
  | some (some s, r) => match best with
    | none => some r
    | some b => if s < b.sigma then some r else some b
  | _ => best

/-- The batches. jax_backend.py:306-311. -/
def batches {A : Type} (size : Nat) : Nat → List A → List (List A)
  | 0, _ => []
  | fuel + 1, l => if l = [] then [] else l.take size :: batches size fuel (l.drop size)

/-- `evaluate_frequency_indices_jax` at given frequencies: the scores and the best fit. jax_backend.py:237-384. -/
noncomputable def maskEvaluate (lin : List (List ℝ) → List ℝ → List ℝ) (p : Problem) (order : Nat) (clip : ℝ) (maxIterations floor : Nat)
    (size : ℤ) (freqs : List ℝ) : List (Option ℝ) × Option Fit :=
  let n := (max 1 size).toNat
  let work := fun batch => (fillBatch n batch).map fun f => maskFit lin p order clip maxIterations floor f.1 f.2
  let parts := batches n freqs.length freqs
  (parts.flatMap fun batch => ((work batch).take batch.length).map Prod.fst, parts.foldl (fun best batch => takeBatch best (work batch)) none)

/-- `_evaluate_frequency_indices_with_jax`: the scores, and the best fit with the frequency of the first of the least scores.
estimator.py:278-343. -/
noncomputable def evaluateJax (lin : List (List ℝ) → List ℝ → List ℝ) (p : Problem) (order : Nat) (clip : ℝ) (freqs : List ℝ)
    (indices : List Nat) (size : ℤ) (floor : Nat) : List (Option ℝ) × Option Fit :=
  let r := maskEvaluate lin p order clip 8 floor size (indices.map fun i => freqs.getD i 0)
  (r.1, match r.2, argmin r.1 with
    | some best, some pos => some { best with frequency := freqs.getD (indices.getD pos 0) 0 }
    | _, _ => none)

end Verif.Rot
