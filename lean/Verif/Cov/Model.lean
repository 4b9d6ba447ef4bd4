import Verif.Basic
import Mathlib.Analysis.Real.Sqrt

/-! # Model of the covariance column

`src/adam_core/coordinates/covariances.py:18-181`, class `CoordinateCovariances`. The column holds, for every coordinate, nothing
or a list of numbers. Entries are of any type with a value `nan` (float64; a null inside a list reads as NaN). A 6×6 matrix is a
function of the two indices. -/

namespace Verif.Cov

open Verif

variable {α : Type}

/-- A 6×6 matrix. Used for covariances.py:55-101. -/
abbrev Mat (α : Type) := Fin 6 → Fin 6 → α

/-- A row of the column: null, or a list of numbers. Used for covariances.py:104-129. -/
abbrev Row (α : Type) := Option (List α)

/-- The 36 numbers of a matrix, row by row: `flatten`. Used for covariances.py:104-129. -/
def flatMat (m : Mat α) : List α := List.ofFn fun t : Fin 36 => m ⟨t.1 / 6, by omega⟩ ⟨t.1 % 6, by omega⟩

/-- Cutting a flat array at the offsets `0, 36, 72, …`: `np.arange(0, (n + 1) * 36, 36)` and `LargeListArray.from_arrays`.
Used for covariances.py:104-129. -/
def cut (n : Nat) (flat : List α) : List (List α) := (List.range n).map fun k => (flat.drop (36 * k)).take 36

/-- `CoordinateCovariances.from_matrix` of an array of shape `(n, d₁, d₂)`. covariances.py:104-129. -/
def fromMatrix (d₁ d₂ : Nat) (ms : List (Fin d₁ → Fin d₂ → α)) : Except PyErr (List (Row α)) :=
  if h : d₁ = 6 ∧ d₂ = 6 then
    .ok ((cut ms.length (ms.flatMap fun m => flatMat fun i j => m (i.cast h.1.symm) (j.cast h.2.symm))).map some)
  else .error .valueError

/-- The matrix that starts at place `36 * k` of a flat array. Used for covariances.py:55-101. -/
def matAt (nan : α) (flat : List α) (k : Nat) : Mat α := fun i j => flat.getD (36 * k + (6 * i.1 + j.1)) nan

/-- `array.reshape(-1, 6, 6)` of a flat array. Used for covariances.py:55-101. -/
def reshape (nan : α) (flat : List α) : Except PyErr (List (Mat α)) :=
  if flat.length % 36 = 0 then .ok ((List.range (flat.length / 36)).map (matAt nan flat)) else .error .valueError

/-- All lists have the same length: the shapes `np.stack` asks for. Used for covariances.py:55-101. -/
def sameLength : List (List α) → Bool
  | [] => true
  | r :: rs => rs.all fun s => s.length == r.length

/-- The rows as arrays, if no row is null. Used for covariances.py:55-101. -/
def allSome : List (Row α) → Option (List (List α))
  | [] => some []
  | none :: _ => none
  | some r :: rs => (allSome rs).map (r :: ·)

/-- `np.stack(values).reshape(-1, 6, 6)` of rows that are arrays. Used for covariances.py:55-101. -/
def stack (nan : α) (rs : List (List α)) : Except PyErr (List (Mat α)) :=
  if sameLength rs then reshape nan rs.flatten else .error .valueError

/-- A null row becomes 36 NaN. covariances.py:94-96. -/
def fill (nan : α) (r : Row α) : List α := r.getD (List.replicate 36 nan)

/-- `CoordinateCovariances.to_matrix`. covariances.py:55-101. Every failure is a `ValueError`. Lists of length zero are read as
arrays like the others; some numpy releases refuse them already in the comparison with `None`. -/
def toMatrix (nan : α) (col : List (Row α)) : Except PyErr (List (Mat α)) :=
  if col.all Option.isNone then .ok (List.replicate col.length fun _ _ => nan)
  else
    match allSome col with
    | some rs => if sameLength rs then reshape nan rs.flatten else stack nan (col.map (fill nan))
    | none => stack nan (col.map (fill nan))

/-- `CoordinateCovariances.nulls`: lists of 36 nulls, which read as NaN. covariances.py:151-169. -/
def nulls (nan : α) (n : Nat) : List (Row α) := List.replicate n (some (List.replicate 36 nan))

/-- `CoordinateCovariances.is_all_nan`. covariances.py:171-180. -/
def isAllNan (nan : α) (isNan : α → Bool) (col : List (Row α)) : Except PyErr Bool :=
  match toMatrix nan col with
  | .error e => .error e
  | .ok ms => .ok (ms.all fun m => (List.finRange 6).all fun i => (List.finRange 6).all fun j => isNan (m i j))

/-- A float64 as the standard deviations need it; `inf` is either infinity. Used for covariances.py:18-36. -/
inductive Val
  | fin (x : ℝ)
  | inf
  | nan

/-- `x ** 2`. Used for covariances.py:18-36. -/
def Val.sq : Val → Val
  | .fin x => .fin (x * x)
  | .inf => .inf
  | .nan => .nan

/-- `x * c` with an entry `c` of the identity matrix: infinity times zero is NaN. Used for covariances.py:18-36. -/
def Val.timesBit (x : Val) (c : Bool) : Val :=
  match x with
  | .fin x => .fin (x * if c then 1 else 0)
  | .inf => if c then .inf else .nan
  | .nan => .nan

/-- `np.sqrt` of a number that is not negative infinity. Used for covariances.py:50-53. -/
noncomputable def Val.sqrt : Val → Val
  | .fin x => if 0 ≤ x then .fin (Real.sqrt x) else .nan
  | .inf => .inf
  | .nan => .nan

/-- `sigmas_to_covariances` for one row of `d` standard deviations: `einsum("kj,ji->kij", sigmas ** 2, identity)`, so the place
`(i, j)` is `sigmas[j] ** 2 * identity[j, i]`. covariances.py:18-36. -/
def sigmasToCov {d : Nat} (s : Fin d → Val) : Fin d → Fin d → Val := fun i j => (s j).sq.timesBit (decide (j = i))

/-- `CoordinateCovariances.from_sigmas`. covariances.py:132-148. -/
def fromSigmas (d : Nat) (ss : List (Fin d → Val)) : Except PyErr (List (Row Val)) := fromMatrix d d (ss.map sigmasToCov)

/-- `CoordinateCovariances.sigmas`. covariances.py:50-53. -/
noncomputable def sigmas (col : List (Row Val)) : Except PyErr (List (Fin 6 → Val)) :=
  match toMatrix .nan col with
  | .error e => .error e
  | .ok ms => .ok (ms.map fun m i => (m i i).sqrt)

end Verif.Cov
