import Verif.Collapse.Model
import Verif.Chunk.Model

/-! # Model of the aberration modes of `VariantEphemeris.collapse_by_object_id`

Source: adam_core/orbits/variants.py:352-742. The coordinates of the result are those of `collapseByObject`; the modes decide
what is put beside them: the light time and the state at the time the light was emitted. -/

namespace Verif.Collapse

open Verif Sched

/-- A variant with its light time; a null or non-finite light time is `none` (both are left out of the sums and a table with
only such light times is left without aberrations either way). Used for orbits/variants.py:240-251, 587-607. -/
structure ARow (I J C K : Type) where
  row : VRow I J C K
  lt : Option K

/-- `aberration_mode` after `strip` and `lower`. Used for orbits/variants.py:370-375. -/
inductive Mode where
  | none
  | collapse
  | recompute
  | other
deriving DecidableEq

/-- Light time, state and time of emission of a row. The origin and frame written are always the barycentre and the ecliptic.
Used for orbits/variants.py:630-656, 722-742. -/
structure Emission (K T : Type) where
  state : Fin 6 → K
  lt : K
  time : T

/-- What the modes use from elsewhere: the length of a position divided by the speed of light, the emission time
`time.rescale("tdb").add_fractional_days(-lt)`, the topocentric ecliptic state of a row, the barycentric state of an observatory, the time
as a number, and `add_light_time` on a batch (a non-finite light time is `none`). Used for orbits/variants.py:587-742. -/
structure Light (I J C K T : Type) where
  dist : (Fin 6 → K) → K
  minus : Int → Int → K → T
  topo : ObjEph I J C K → Fin 6 → K
  obs : C → Int → Int → Fin 6 → K
  mjd : Int → Int → K
  F : List ((Fin 6 → K) × K × (Fin 6 → K)) → List ((Fin 6 → K) × Option K)
  pad : (Fin 6 → K) × K × (Fin 6 → K)

section
variable {K : Type} [Field K] [LinearOrder K] {I J C T : Type} [LinearOrder J] [LinearOrder C]

/-- The sort key of a variant. orbits/variants.py:380-387. -/
def aKey (a : ARow I J C K) : J ×ₗ Int ×ₗ Int ×ₗ C := veKey a.row

/-- The mean weight of a variant within its group. orbits/variants.py:614-619. -/
def aWeight (g : List (ARow I J C K)) (a : ARow I J C K) : K := meanWeight (g.map ARow.row) a.row

/-- `out_ab`: NaN as soon as one state is missing. orbits/variants.py:620, 623. -/
def meanState (g : List (ARow I J C K)) : Option (Fin 6 → K) :=
  if g.all fun a => a.row.aber.isSome then
    some fun i => (g.map fun a => aWeight g a * (a.row.aber.getD fun _ => 0) i).sum
  else none

/-- `out_lt`: the weighted mean of the light times that are there. orbits/variants.py:621, 624-628. -/
def meanLight (g : List (ARow I J C K)) : Option K :=
  let ok := g.filter fun a => a.lt.isSome
  let denom := (ok.map (aWeight g)).sum
  if 0 < denom then some ((ok.map fun a => aWeight g a * a.lt.getD 0).sum / denom) else none

/-- The mode "collapse". orbits/variants.py:587-658. The chunks of groups are computed group by group. -/
def collapseLight (W : Light I J C K T) (vs : List (ARow I J C K)) (groups : List (List (ARow I J C K)))
    (rows : List (ObjEph I J C K)) : List (ObjEph I J C K × Option (Emission K T)) :=
  let hasAb := !vs.all fun a => a.row.aber.isNone
  let hasLt := !vs.all fun a => a.lt.isNone
  let uniformSize := groups.all fun g => decide (some g.length = groups.head?.map List.length)
  if hasAb && hasLt && uniformSize && (groups.all fun g => (meanState g).isSome) && (groups.any fun g => (meanLight g).isSome) then
    List.zipWith (fun e g =>
      let st := (meanState g).getD fun _ => 0
      let lt := (meanLight g).getD (W.dist st)
      (e, some ⟨st, lt, W.minus e.days e.nanos lt⟩)) rows groups
  else rows.map fun e => (e, none)

/-- The mode "recompute". orbits/variants.py:660-742. The three zipped arrays of the code are one array of tuples here; the length
of the padded batches is cut off at the end. One non-finite light time makes all rows fall back. -/
def recomputeLight (W : Light I J C K T) (rows : List (ObjEph I J C K)) :
    Except PyErr (List (ObjEph I J C K × Option (Emission K T))) :=
  let bary : ObjEph I J C K → Fin 6 → K := fun e i => W.topo e i + W.obs e.code e.days e.nanos i
  match Chunk.processInChunks W.pad (rows.map fun e => (bary e, W.mjd e.days e.nanos, W.obs e.code e.days e.nanos)) 200 with
  | .error e => .error e
  | .ok chunks =>
    let out := (chunks.flatMap W.F).take rows.length
    if out.all fun o => o.2.isSome then
      .ok (List.zipWith (fun e o => (e, some ⟨o.1, o.2.getD 0, W.minus e.days e.nanos (o.2.getD 0)⟩)) rows out)
    else .ok (rows.map fun e => (e, some ⟨bary e, W.dist (W.topo e), W.minus e.days e.nanos (W.dist (W.topo e))⟩))

/-- `VariantEphemeris.collapse_by_object_id`. orbits/variants.py:352-742. -/
def collapseIn (W : Light I J C K T) (circ : List (K × K) → K) (wrap : K → K → K) (mode : Mode) (groupChunk : Int)
    (vs : List (ARow I J C K)) : Except PyErr (List (ObjEph I J C K × Option (Emission K T))) :=
  if vs.isEmpty then .ok []
  else if mode = .other then .error .valueError
  else
    match collapseByObject circ wrap groupChunk (vs.map ARow.row) with
    | .error e => .error e
    | .ok rows =>
      match mode with
      | .collapse => .ok (collapseLight W vs (runs aKey (sortBy aKey vs)) rows)
      | .recompute => recomputeLight W rows
      | _ => .ok (rows.map fun e => (e, none))

end

end Verif.Collapse
