import Verif.Basic
import Mathlib.Data.List.Nodup

/-! # Triangles of covariance matrices

`src/adam_core/coordinates/covariances.py` and `src/adam_core/orbits/query/neocc.py`. A matrix is a function of two
indices; entries are any type with a zero (float64, NaN included). -/

namespace Verif.Tri

open Verif

variable {K : Type} [Zero K]

/-- `np.triu_indices(n, k)`: the places with `j - i ≥ k`, row by row. Used for covariances.py:481-494. -/
def triu (n : Nat) (k : Int) : List (Nat × Nat) :=
  (List.range n).flatMap fun (i : Nat) => ((List.range n).filter fun (j : Nat) => decide (k ≤ (j : Int) - i)).map fun j => (i, j)

/-- `np.tril_indices(n, k)`: the places with `j - i ≤ k`, row by row. Used for covariances.py:481-494. -/
def tril (n : Nat) (k : Int) : List (Nat × Nat) :=
  (List.range n).flatMap fun (i : Nat) => ((List.range n).filter fun (j : Nat) => decide ((j : Int) - i ≤ k)).map fun j => (i, j)

/-- `m[places] = values`. Used for covariances.py:481-494. -/
def assign (m : Nat → Nat → K) : List ((Nat × Nat) × K) → Nat → Nat → K
  | [] => m
  | e :: l => assign (fun i j => if (i, j) = e.1 then e.2 else m i j) l

/-- `m[places] = m.T[places]`: the right side is read before anything is written. Used for covariances.py:481-494. -/
def mirror (m : Nat → Nat → K) (places : List (Nat × Nat)) : Nat → Nat → K :=
  assign m (places.map fun p => (p, m p.2 p.1))

/-- `_upper_triangular_to_full`. covariances.py:481-494. -/
def upperToFull (v : List K) : Except PyErr (Nat → Nat → K) :=
  if v.length = 21 then .ok (mirror (assign (fun _ _ => 0) ((triu 6 0).zip v)) (tril 6 (-1)))
  else .error .assertionError

/-- `_lower_triangular_to_full`. covariances.py:497-510. -/
def lowerToFull (v : List K) : Except PyErr (Nat → Nat → K) :=
  if v.length = 21 then .ok (mirror (assign (fun _ _ => 0) ((tril 6 0).zip v)) (triu 6 (-1)))
  else .error .assertionError

/-- `_remove_last_column_of_upper_triangular`. neocc.py:16-36. -/
def removeLast (v : List K) : Except PyErr (List K) :=
  if v.length = 28 then
    let full := assign (fun _ _ => 0) ((triu 7 0).zip v)
    .ok ((triu 6 0).map fun p => full p.1 p.2)
  else .error .assertionError

/-- The covariance of `_parse_oef` from the numbers of the COV lines. neocc.py:157-173. `none`: no COV line. -/
def oefCovariance (v : List K) : Except PyErr (Option (Nat → Nat → K)) :=
  if v.isEmpty then .ok none
  else
    match (if v.length = 28 then removeLast v else .ok v) with
    | .error e => .error e
    | .ok w =>
      match upperToFull w with
      | .error e => .error e
      | .ok m => .ok (some m)

end Verif.Tri
