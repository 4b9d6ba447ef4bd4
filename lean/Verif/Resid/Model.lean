import Verif.Basic
import Verif.Sched.Model
import Mathlib.LinearAlgebra.Matrix.NonsingularInverse
import Mathlib.Analysis.SpecialFunctions.Trigonometric.Basic

/-! # Model of residuals (`src/adam_core/coordinates/residuals.py`)

Exact real arithmetic. NaN is `none`. `D` is the number of columns; it is 6 for the coordinates of adam_core. -/

namespace Verif.Resid

open Verif Sched

/-- Used for residuals.py:211. -/
abbrev Str := List Char

/-- `isinstance` of the four coordinate classes, or any other class. Used for residuals.py:21-26. -/
inductive Kind
  | cartesian
  | cometary
  | keplerian
  | spherical
  | other (n : Nat)
  deriving DecidableEq

/-- `SUPPORTED_COORDINATES`. residuals.py:21-26. -/
def Kind.supported : Kind → Bool
  | .other _ => false
  | _ => true

/-- A row of `values`. Used for residuals.py:75-78. -/
abbrev Vec (D : Nat) := Fin D → Option ℝ

/-- A covariance matrix. Used for residuals.py:72-73, 80-95. -/
abbrev Cov (D : Nat) := Fin D → Fin D → Option ℝ

/-- Used for residuals.py:163-348. -/
structure Table (D : Nat) where
  kind : Kind
  origins : List Str
  frame : Str
  values : List (Vec D)
  covs : List (Cov D)

/-- Arithmetic with NaN. Used for residuals.py:75-78. -/
def lift2 (f : ℝ → ℝ → ℝ) : Option ℝ → Option ℝ → Option ℝ
  | some a, some b => some (f a b)
  | _, _ => none

/-- `bound_longitude_residuals` on one row: `observed` and `r` are the longitude and its residual. residuals.py:121-152.
Comparisons with NaN are false. -/
noncomputable def boundLongitude (observed r : Option ℝ) : Option ℝ :=
  match r with
  | none => none
  | some r =>
    let g := decide (r > 180)
    let l := decide (r < -180)
    let x := if g then r - 360 else r
    let x := if l then x + 360 else x
    let x := if g && (match observed with | some o => decide (o > 180) | none => false) then -x else x
    let x := if l && (match observed with | some o => decide (o < 180) | none => false) then -x else x
    some x

/-- The diagonal of the correction: cos(latitude) in the columns 1 and 4. residuals.py:61-70. -/
noncomputable def diag {D : Nat} (lat : ℝ) (i : Fin D) : ℝ :=
  if i.val = 1 ∨ i.val = 4 then Real.cos (lat * (Real.pi / 180)) else 1

/-- Residuals times cos(latitude). residuals.py:75-78. -/
noncomputable def scaleVec {D : Nat} (lat : Option ℝ) (r : Vec D) : Vec D := fun i =>
  if i.val = 1 ∨ i.val = 4 then lift2 (· * ·) (r i) (lat.map fun x => Real.cos (x * (Real.pi / 180))) else r i

/-- Covariances between two diagonal matrices; missing entries stay missing. A NaN latitude puts NaN into whole columns of the
diagonal matrix (NaN times 0), and the products spread it everywhere. residuals.py:72-73, 80-95. -/
noncomputable def scaleCov {D : Nat} (lat : Option ℝ) (c : Cov D) : Cov D := fun i j =>
  match c i j, lat with
  | some x, some l => some (diag l i * x * diag l j)
  | _, _ => none

/-- The latitude of a row: column 2. Used for residuals.py:277-292. -/
def latitude {D : Nat} (v : Vec D) : Option ℝ := if h : 2 < D then v ⟨2, h⟩ else none

/-- The longitude residual replaced by the bounded one. residuals.py:285-287. -/
noncomputable def boundVec {D : Nat} (v r : Vec D) : Vec D := fun i =>
  if i.val = 1 then boundLongitude (v i) (r i) else r i

/-- `observed - predicted`, bounded and scaled for spherical coordinates. residuals.py:277-292. -/
noncomputable def residual {D : Nat} (k : Kind) (v w : Vec D) : Vec D :=
  let r : Vec D := fun i => lift2 (· - ·) (v i) (w i)
  if k = .spherical then scaleVec (latitude v) (boundVec v r) else r

/-- NaN replaced by zero. residuals.py:263-266. -/
def zeroed {D : Nat} (c : Cov D) : Cov D := fun i j => some ((c i j).getD 0)

/-- Observed plus predicted covariance, both scaled for spherical coordinates. residuals.py:234-268, 289-300. -/
noncomputable def totalCov {D : Nat} (k : Kind) (usePredicted : Bool) (v : Vec D) (c p : Cov D) : Cov D :=
  let p : Cov D := if usePredicted then zeroed p else fun _ _ => some 0
  let c' := if k = .spherical then scaleCov (latitude v) c else c
  let p' := if k = .spherical then scaleCov (latitude v) p else p
  fun i j => lift2 (· + ·) (c' i j) (p' i j)

/-- Which columns have values. Used for residuals.py:275. -/
def mask {D : Nat} (v : Vec D) : Fin D → Bool := fun i => (v i).isSome

/-- `D - np.sum(np.isnan(observed_values), axis=1)`. residuals.py:275. -/
def dof {D : Nat} (v : Vec D) : Nat := D - ((List.finRange D).filter fun i => !mask v i).length

/-- A row ready for chi-square: values, residual, total covariance. Used for residuals.py:403-404. -/
structure Row (D : Nat) where
  values : Vec D
  resid : Vec D
  cov : Cov D

/-- The part of the covariance in the columns with values, missing off-diagonal entries zero. residuals.py:481-484, 401. -/
noncomputable def sub {D : Nat} (m : Fin D → Bool) (c : Cov D) : Matrix {i // m i = true} {i // m i = true} ℝ :=
  fun i j => (c i j).getD 0

/-- The quadratic form with the inverse. residuals.py:403-404. A missing residual makes it NaN. -/
noncomputable def chi2Row {D : Nat} (m : Fin D → Bool) (r : Row D) : Option ℝ :=
  if ∀ i : {i // m i = true}, (r.resid i).isSome then
    let x : {i // m i = true} → ℝ := fun i => (r.resid i).getD 0
    some (∑ i, ∑ j, x i * (sub m r.cov)⁻¹ i j * x j)
  else none

/-- `calculate_chi2` for the rows of a batch. residuals.py:362-405. `np.linalg.inv` raises for a singular matrix; its error
is a ValueError too. -/
noncomputable def calculateChi2 {D : Nat} (m : Fin D → Bool) (rows : List (Row D)) : Except PyErr (List (Option ℝ)) :=
  if rows.any fun r => decide (∃ i : {i // m i = true}, r.cov i i = none) then .error .valueError
  else if rows.any fun r => decide ((sub m r.cov).det = 0) then .error .valueError
  else .ok (rows.map (chi2Row m))

/-- One turn of the loop over batches. residuals.py:311-341, 473-489. Chi-square per index, with the index first. -/
noncomputable def batch {D : Nat} (rows : List (Nat × Row D)) (m : Fin D → Bool) : Except PyErr (List (Nat × Option ℝ)) :=
  let mine := rows.filter fun r => decide (mask r.2.values = m)
  if mine.all fun r => decide (∀ i j : {i // m i = true}, r.2.cov i j = none) then .ok (mine.map fun r => (r.1, none))
  else
    match calculateChi2 m (mine.map Prod.snd) with
    | .error e => .error e
    | .ok cs => .ok ((mine.map Prod.fst).zip cs)

/-- The loop. The batches are visited in the order of first appearance instead of sorted; they do not share rows, and all
errors are ValueErrors. Used for residuals.py:163-348. -/
noncomputable def batches {D : Nat} (rows : List (Nat × Row D)) : List (Fin D → Bool) → Except PyErr (List (Nat × Option ℝ))
  | [] => .ok []
  | m :: ms =>
    match batch rows m with
    | .error e => .error e
    | .ok a =>
      match batches rows ms with
      | .error e => .error e
      | .ok b => .ok (a ++ b)

/-- One row of the answer. Used for residuals.py:163-348. -/
structure Answer (D : Nat) where
  values : Vec D
  chi2 : Option ℝ
  dof : Nat
  probability : Option ℝ

/-- `(observed.origin != predicted.origin).all()` with the broadcasting of numpy; columns of other lengths raise.
residuals.py:211, origin.py:117-132. -/
def originsDiffer (a b : List Str) : Except PyErr Bool :=
  if a.length = b.length then .ok ((List.zipWith (fun x y => decide (x ≠ y)) a b).all id)
  else
    match a, b with
    | _, [y] => .ok (a.all fun x => decide (x ≠ y))
    | [x], _ => .ok (b.all fun y => decide (x ≠ y))
    | _, _ => .error .valueError

/-- One row, or as many as needed. residuals.py:225-232, 248-261. -/
def broadcastTo {α : Type} (n : Nat) (l : List α) : Except PyErr (List α) :=
  match l with
  | [x] => .ok (List.replicate n x)
  | l => if l.length = n then .ok l else .error .valueError

/-- `Residuals.calculate`. residuals.py:163-348. `cdf` is `scipy.stats.chi2.cdf`. -/
noncomputable def calculate {D : Nat} (cdf : ℝ → Nat → ℝ) (observed predicted : Table D) (custom usePredicted : Bool) :
    Except PyErr (List (Answer D)) :=
  if !custom && !observed.kind.supported then .error .typeError
  else if !custom && !predicted.kind.supported then .error .typeError
  else if observed.kind ≠ predicted.kind then .error .typeError
  else
    match originsDiffer observed.origins predicted.origins with
    | .error e => .error e
    | .ok true => .error .valueError
    | .ok false =>
      if observed.frame ≠ predicted.frame then .error .valueError
      else
        match broadcastTo observed.values.length predicted.values with
        | .error e => .error e
        | .ok pv =>
          match broadcastTo observed.values.length predicted.covs with
          | .error e => .error e
          | .ok pc =>
            let resid := List.zipWith (residual observed.kind) observed.values pv
            let cov := List.zipWith (fun (vc : Vec D × Cov D) p => totalCov observed.kind usePredicted vc.1 vc.2 p)
              (observed.values.zip observed.covs) pc
            let rows := List.zipWith (fun (v : Vec D) (rc : Vec D × Cov D) => (⟨v, rc.1, rc.2⟩ : Row D)) observed.values
              (resid.zip cov)
            let indexed := rows.zipIdx.map fun p => (p.2, p.1)
            match batches indexed (uniq (rows.map fun r => mask r.values)) with
            | .error e => .error e
            | .ok cs => .ok (indexed.map fun r =>
                let c := (cs.lookup r.1).getD none
                ⟨r.2.resid, c, dof r.2.values, c.map fun x => 1 - cdf x (dof r.2.values)⟩)

/-- `calculate_reduced_chi2`. residuals.py:408-426. -/
noncomputable def reducedChi2 {D : Nat} (rs : List (Answer D)) (parameters : Nat) : Option ℝ :=
  let d : ℝ := (rs.map fun r => (r.dof : ℝ)).sum - parameters
  if rs.any fun r => r.chi2.isNone then none
  else if d = 0 then none
  else some ((rs.map fun r => r.chi2.getD 0).sum / d)

end Verif.Resid
