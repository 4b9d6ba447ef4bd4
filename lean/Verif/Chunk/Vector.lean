import Verif.Chunk.Model

/-! # The conversions of arrays of coordinates (coordinates/transform.py)

A row, an epoch and a gravitational parameter are opaque values; the conversion of one row is an arbitrary function. Rows that are
added to fill a chunk have the value zero. -/

namespace Verif.Chunk

open Verif

/-- The chunk size of every conversion: transform.py:279, 418, 546, 841, 1245, 1504. -/
def vectorChunk : Nat := 200

/-- A function of three values on every row of three arrays of the same size. Used for transform.py:751-756. -/
def rows3 {α β γ δ : Type} (f : α → β → γ → δ) (as : List α) (bs : List β) (cs : List γ) : List δ :=
  List.zipWith (fun a p => f a p.1 p.2) as (bs.zip cs)

/-- `cartesian_to_geodetic`, `cartesian_to_spherical` and `spherical_to_cartesian`: the result starts as an array without rows, every
converted chunk is appended, and rows of padding are cut off. transform.py:278-294, 417-431, 545-559. -/
def convertAppend {α δ : Type} (pad : α) (f : α → δ) (as : List α) : Except PyErr (List δ) :=
  match processInChunks pad as vectorChunk with
  | .error e => .error e
  | .ok chunks => .ok ((chunks.foldl (fun out chunk => out ++ chunk.map f) []).take as.length)

/-- `jnp.concatenate`: there must be at least one array. Used for transform.py:857, 1260, 1519. -/
def concatenate {δ : Type} (chunks : List (List δ)) : Except PyErr (List δ) :=
  if chunks.isEmpty then .error .valueError else .ok chunks.flatten

/-- `cartesian_to_keplerian` and `cometary_to_cartesian`: the chunks of the three arrays are zipped, which ends with the shortest.
transform.py:840-860, 1503-1522. -/
def convertZip3 {α β γ δ : Type} (padA : α) (padB : β) (padC : γ) (f : α → β → γ → δ) (as : List α) (bs : List β) (cs : List γ) :
    Except PyErr (List δ) :=
  match processInChunks padA as vectorChunk, processInChunks padB bs vectorChunk, processInChunks padC cs vectorChunk with
  | .ok ca, .ok cb, .ok cc =>
    match concatenate (List.zipWith (fun a p => rows3 f a p.1 p.2) ca (cb.zip cc)) with
    | .error e => .error e
    | .ok out => .ok (out.take as.length)
  | .error e, _, _ => .error e
  | _, .error e, _ => .error e
  | _, _, .error e => .error e

/-- `keplerian_to_cartesian` after its checks: the same with two arrays. transform.py:1245-1263. -/
def convertZip2 {α γ δ : Type} (padA : α) (padC : γ) (f : α → γ → δ) (as : List α) (cs : List γ) : Except PyErr (List δ) :=
  match processInChunks padA as vectorChunk, processInChunks padC cs vectorChunk with
  | .ok ca, .ok cc =>
    match concatenate (List.zipWith (fun a c => List.zipWith f a c) ca cc) with
    | .error e => .error e
    | .ok out => .ok (out.take as.length)
  | .error e, _ => .error e
  | _, .error e => .error e

/-- `cartesian_to_cometary`: no chunks; `vmap` requires arrays of the same size. transform.py:1315-1352, 1307-1312. -/
def convertDirect {α β γ δ : Type} (f : α → β → γ → δ) (as : List α) (bs : List β) (cs : List γ) : Except PyErr (List δ) :=
  if as.length = bs.length ∧ as.length = cs.length then .ok (rows3 f as bs cs) else .error .valueError

end Verif.Chunk
