import Verif.Basic

/-!
# Chunked iteration: model of `src/adam_core/utils/iter.py` and `src/adam_core/utils/chunking.py`

A sequence or array is the list of its rows. Only the first axis is chunked and padded by the code; the trailing axes of
a row are kept by `pad_to_fixed_size`, so a row is an opaque value.
-/

namespace Verif.Chunk

open Verif

/-- `range(i, n, c)` for a positive step. Used for iter.py:22, 46. -/
def rangeFrom (i n c : Nat) : List Nat :=
  if _h : i < n ∧ 0 < c then i :: rangeFrom (i + c) n c else []
termination_by n - i
decreasing_by omega

/-- `range(0, n, c)` for any integer step: zero raises ValueError, a negative step gives nothing. iter.py:22, 46,
chunking.py:43. -/
def range (n : Nat) (c : Int) : Except PyErr (List Nat) :=
  if c = 0 then .error .valueError
  else if c < 0 then .ok []
  else .ok (rangeFrom 0 n c.toNat)

/-- `iterable[i : i + c]` for non-negative bounds. Used for iter.py:4-23. -/
def slice {α : Type} (l : List α) (i c : Nat) : List α := (l.take (i + c)).drop i

/-- `_iterate_chunks`. iter.py:4-23. -/
def iterateChunks {α : Type} (l : List α) (c : Int) : Except PyErr (List (List α)) :=
  match range l.length c with
  | .error e => .error e
  | .ok is => .ok (is.map fun i => slice l i c.toNat)

/-- `_iterate_chunk_indices`. iter.py:26-47. -/
def iterateChunkIndices {α : Type} (l : List α) (c : Int) : Except PyErr (List (Nat × Nat)) :=
  match range l.length c with
  | .error e => .error e
  | .ok is => .ok (is.map fun i => (i, min (i + c.toNat) l.length))

/-- `pad_to_fixed_size` along the first axis: pads at the end, never cuts. chunking.py:4-23. -/
def padToFixedSize {α : Type} (pad : α) (l : List α) (target : Nat) : List α := l ++ List.replicate (target - l.length) pad

/-- One chunk of `process_in_chunks`. chunking.py:44-47. -/
def paddedChunk {α : Type} (pad : α) (l : List α) (c i : Nat) : List α :=
  let chunk := slice l i c
  if chunk.length < c then padToFixedSize pad chunk c else chunk

/-- `process_in_chunks`. chunking.py:26-48. `pad` is the zero row. -/
def processInChunks {α : Type} (pad : α) (l : List α) (c : Int) : Except PyErr (List (List α)) :=
  match range l.length c with
  | .error e => .error e
  | .ok is => .ok (is.map fun i => paddedChunk pad l c.toNat i)

/-- `out[off : off + len(vals)] = vals` on a numpy array. A slice that would run over the end is shorter than `vals`
and numpy refuses the assignment. Used for magnitude.py:168-172. -/
def assign {β : Type} (out : List β) (off : Nat) (vals : List β) : Except PyErr (List β) :=
  if off + vals.length ≤ out.length then .ok (out.take off ++ vals ++ out.drop (off + vals.length))
  else .error .valueError

/-- The loop that copies the chunks into the preallocated array. magnitude.py:168-172. -/
def assignChunks {β : Type} (c : Nat) (out : List β) (off : Nat) : List (List β) → Except PyErr (List β)
  | [] => .ok out
  | vals :: rest =>
    match assign out off vals with
    | .error e => .error e
    | .ok out' => assignChunks c out' (off + c) rest

/-- The padded evaluation pattern of `calculate_phase_angle` and the other photometry entry points, for two row arrays
and an arbitrary chunk kernel `F`: pad both to chunks, apply the kernel to each pair of chunks, copy the results into an
array of `ceil(n/c)*c` entries and cut it to `n`. magnitude.py:153-174 (also 407-445, 476-520, 620-665). An entry of
`np.empty` is `junk`. -/
def runPadded {α β γ : Type} (padA : α) (padB : β) (junk : γ) (F : List α → List β → List γ)
    (as : List α) (bs : List β) (c : Nat) : Except PyErr (List γ) :=
  match processInChunks padA as c, processInChunks padB bs c with
  | .ok ca, .ok cb =>
    let padded := (as.length + c - 1) / c * c
    match assignChunks c (List.replicate padded junk) 0 (List.zipWith F ca cb) with
    | .error e => .error e
    | .ok out => .ok (out.take as.length)
  | .error e, _ => .error e
  | _, .error e => .error e

/-- `_first_non_finite_row`: index of the first row with a non-finite entry. propagation.py:83-86. -/
def firstBad {α : Type} (bad : α → Bool) (l : List α) : Option Nat := l.findIdx? bad

/-- The loop of `_propagate_2body_serial` (propagation.py:171-216): the valid input rows of a chunk are tested, the
kernel runs on the padded chunk, its valid output rows are tested and written at `start`. A failed test raises
DynamicsNumericalError with the absolute row index (`.inr`). -/
def validLoop {α γ : Type} (c n : Nat) (F : List α → List γ) (badIn : α → Bool) (badOut : γ → Bool) (out : List γ)
    (start : Nat) : List (List α) → Except (PyErr ⊕ Nat) (List γ × Nat)
  | [] => .ok (out, start)
  | chunk :: rest =>
    let valid := min c (n - start)
    match firstBad badIn (chunk.take valid) with
    | some k => .error (.inr (start + k))
    | none =>
      let vals := (F chunk).take valid
      match firstBad badOut vals with
      | some k => .error (.inr (start + k))
      | none =>
        match assign out start vals with
        | .error e => .error (.inl e)
        | .ok out' => validLoop c n F badIn badOut out' (start + valid) rest

/-- The whole pattern with the closing consistency test. propagation.py:169-221. The four zipped arrays of the code are
one array of tuples here: they have the same length, so their chunks pair up. -/
def runValid {α γ : Type} (pad : α) (junk : γ) (F : List α → List γ) (badIn : α → Bool) (badOut : γ → Bool)
    (as : List α) (c : Nat) : Except (PyErr ⊕ Nat) (List γ) :=
  match processInChunks pad as c with
  | .error e => .error (.inl e)
  | .ok chunks =>
    match validLoop c as.length F badIn badOut (List.replicate as.length junk) 0 chunks with
    | .error e => .error e
    | .ok (out, start) => if start ≠ as.length then .error (.inl .runtimeError) else .ok out

end Verif.Chunk
