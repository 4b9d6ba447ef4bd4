import Verif.Basic
import Verif.Sched.Model
import Mathlib.Algebra.Field.Basic
import Mathlib.Algebra.BigOperators.Group.List.Basic
import Mathlib.Data.Fin.VecNotation
import Mathlib.Data.Prod.Lex

/-! # Model of collapsing variants back to orbits and ephemerides

Source: adam_core/orbits/variants.py:104-937, coordinates/covariances.py:382-410. `K` is a field standing for float64
(exact arithmetic). A null or non-finite weight or magnitude is `none`; a state is either complete or null as a whole. -/

namespace Verif.Collapse

open Verif Sched

/-- A 6 x 6 matrix. Used for covariances.py:406-409. -/
abbrev Mat (K : Type) := Fin 6 → Fin 6 → K

/-- One row of a `VariantOrbits` or `VariantEphemeris` table. orbits/variants.py:25-32, 240-251. For orbits `code` is the origin. -/
structure VRow (I J C K : Type) where
  orbit : I
  obj : J
  days : Int
  nanos : Int
  code : C
  state : Fin 6 → K
  w : Option K
  wc : Option K
  aber : Option (Fin 6 → K)
  mag : Option K

/-- One row of the `Orbits` or `Ephemeris` table the variants are collapsed onto. Used for orbits/variants.py:122-137, 271-286. -/
structure ORow (I C K : Type) where
  orbit : I
  days : Int
  nanos : Int
  code : C
  state : Fin 6 → K
  aber : Option (Fin 6 → K)

/-- `Timestamp.millis()`: integer division of the nanoseconds of the day (nonnegative). time/time.py:82-83. -/
def millis (nanos : Int) : Int := nanos / 1000000

/-- The linkage key of the row and of the variant are equal. orbits/variants.py:122-137, 271-286. -/
def linked {I J C K : Type} [DecidableEq I] (r : ORow I C K) (v : VRow I J C K) : Bool :=
  decide (v.orbit = r.orbit ∧ v.days = r.days ∧ millis v.nanos = millis r.nanos)

section
variable {K : Type} [Field K]

/-- One sample's contribution to `(W_cov * residual.T) @ residual`; NaN when weight, sample or mean is missing.
covariances.py:406-409. -/
def term (mean : Option (Fin 6 → K)) (s : Option K × Option (Fin 6 → K)) : Option (Mat K) :=
  match mean, s.1, s.2 with
  | some m, some w, some x => some fun i j => w * (x i - m i) * (x j - m j)
  | _, _, _ => none

/-- Entrywise sum; NaN absorbs. Used for covariances.py:382-410. -/
def addO (a b : Option (Mat K)) : Option (Mat K) :=
  match a, b with
  | some a, some b => some fun i j => a i j + b i j
  | _, _ => none

/-- `weighted_covariance(mean, samples, W_cov)`; `none` is a matrix of NaN. The sum over no samples is the zero matrix.
covariances.py:382-410. -/
def weightedCov (mean : Option (Fin 6 → K)) (samples : List (Option K × Option (Fin 6 → K))) : Option (Mat K) :=
  (samples.map (term mean)).foldr addO (some fun _ _ => 0)

variable {I J C : Type} [DecidableEq I]

/-- `VariantOrbits.collapse`. orbits/variants.py:139-182. `sameScale` says that both tables use the same time scale; concatenating
no tables raises ValueError. -/
def collapseOrbits (sameScale : Bool) (orbits : List (ORow I C K)) (vs : List (VRow I J C K)) :
    Except PyErr (List (ORow I C K × Option (Mat K))) :=
  if !sameScale then .error .assertionError
  else if orbits.isEmpty then .error .valueError
  else .ok (orbits.map fun r =>
    (r, weightedCov (some r.state) ((vs.filter (linked r)).map fun v => (v.wc, some v.state))))

/-- What `VariantEphemeris.collapse` does with one row: the spherical covariance and, unless all aberrated states of a
non-empty selection are null (`pc.all` of nothing is null, hence not true), the aberrated covariance. orbits/variants.py:311-347. -/
def collapseRow (vs : List (VRow I J C K)) (r : ORow I C K) : ORow I C K × Option (Mat K) × Option (Option (Mat K)) :=
  let sel := vs.filter (linked r)
  (r, weightedCov (some r.state) (sel.map fun v => (v.wc, some v.state)),
    if !sel.isEmpty && sel.all (fun v => v.aber.isNone) then none
    else some (weightedCov r.aber (sel.map fun v => (v.wc, v.aber))))

/-- `VariantEphemeris.collapse`. orbits/variants.py:288-350. -/
def collapseEphemeris (sameScale : Bool) (eph : List (ORow I C K)) (vs : List (VRow I J C K)) :
    Except PyErr (List (ORow I C K × Option (Mat K) × Option (Option (Mat K)))) :=
  if !sameScale then .error .assertionError
  else if eph.isEmpty then .error .valueError
  else .ok (eph.map (collapseRow vs))

/-! ## By object id: orbits -/

/-- Result row of `VariantOrbits.collapse_by_object_id`. Used for orbits/variants.py:197-235. -/
structure ObjOrbit (J C K : Type) where
  obj : J
  days : Int
  nanos : Int
  code : C
  mean : Fin 6 → K
  cov : Option (Mat K)

/-- One iteration of the loop. orbits/variants.py:197-235. Selecting the null object id selects nothing, so the first assertion
fails. The orbit id is a fresh random identifier and is left out. -/
def objectOrbit [DecidableEq J] [DecidableEq C] (vs : List (VRow I (Option J) C K)) (o : Option J) :
    Except PyErr (ObjOrbit J C K) :=
  match o with
  | none => .error .assertionError
  | some j =>
    let sel := vs.filter fun v => decide (v.obj = some j)
    if (uniq (sel.map fun v => (v.days, v.nanos))).length ≠ 1 then .error .assertionError
    else if (uniq (sel.map VRow.code)).length ≠ 1 then .error .assertionError
    else
      match sel with
      | [] => .error .assertionError
      | v :: _ =>
        let n : K := (sel.length : K)
        let mean : Fin 6 → K := fun i => (sel.map fun v => v.state i).sum / n
        .ok ⟨j, v.days, v.nanos, v.code, mean, weightedCov (some mean) (sel.map fun v => (some (1 / n), some v.state))⟩

/-- `VariantOrbits.collapse_by_object_id`. orbits/variants.py:184-237. -/
def collapseOrbitsByObject [DecidableEq J] [DecidableEq C] (vs : List (VRow I (Option J) C K)) :
    Except PyErr (List (ObjOrbit J C K)) :=
  gather (objectOrbit vs) (uniq (vs.map VRow.obj))

end

/-! ## By object id: ephemerides -/

section
variable {K : Type} [Field K] [LinearOrder K] {I J C : Type} [LinearOrder J] [LinearOrder C]

/-- The sort key: object id, days, nanos, origin code. orbits/variants.py:380-387. -/
def veKey (v : VRow I J C K) : J ×ₗ Int ×ₗ Int ×ₗ C := toLex (v.obj, toLex (v.days, toLex (v.nanos, v.code)))

/-- The runs of equal keys (`key_change`, `bounds`). orbits/variants.py:389-405. -/
def runs {α κ : Type} [DecidableEq κ] (key : α → κ) : List α → List (List α)
  | [] => []
  | a :: l =>
    match runs key l with
    | [] => [[a]]
    | [] :: gs => [a] :: gs
    | (b :: g) :: gs => if key a = key b then (a :: b :: g) :: gs else [a] :: (b :: g) :: gs

/-- `1.0 / float(K)`. Used for orbits/variants.py:462-465. -/
def uniform (grp : List (VRow I J C K)) : K := 1 / (grp.length : K)

/-- Mean weights before normalisation. orbits/variants.py:462-465. -/
def rawMean (grp : List (VRow I J C K)) (v : VRow I J C K) : K :=
  if grp.all fun v => v.w.isSome then v.w.getD 0 else uniform grp

/-- `_normalize_rows`. orbits/variants.py:440-443. -/
def normalize (grp : List (VRow I J C K)) (f : VRow I J C K → K) (v : VRow I J C K) : K :=
  if (grp.map f).sum ≠ 0 then f v / (grp.map f).sum else uniform grp

/-- Mean weights, both paths. orbits/variants.py:462-469, 517-525. -/
def meanWeight (grp : List (VRow I J C K)) : VRow I J C K → K := normalize grp (rawMean grp)

/-- Covariance weights of the path for groups of equal size. orbits/variants.py:463-470. -/
def covWeightFast (grp : List (VRow I J C K)) : VRow I J C K → K :=
  normalize grp fun v => if grp.all fun v => v.wc.isSome then v.wc.getD 0 else rawMean grp v

/-- Covariance weights of the path for groups of different sizes. orbits/variants.py:526-530. -/
def covWeightSlow (grp : List (VRow I J C K)) (v : VRow I J C K) : K :=
  if grp.all fun v => v.wc.isSome then
    if (grp.map fun v => v.wc.getD 0).sum ≠ 0 then v.wc.getD 0 / (grp.map fun v => v.wc.getD 0).sum else meanWeight grp v
  else meanWeight grp v

/-- Mean, covariance and magnitude of a group. Used for orbits/variants.py:472-504, 532-561. -/
structure Stat (K : Type) where
  mean : Fin 6 → K
  cov : Mat K
  mag : Option K

/-- The statistics of one group for given weights. orbits/variants.py:472-504, 532-561. `circ` is the weighted circular mean of
longitudes and `wrap m x` the longitude `x` moved next to `m`. -/
def stat (circ : List (K × K) → K) (wrap : K → K → K) (wm wc : VRow I J C K → K) (grp : List (VRow I J C K)) : Stat K :=
  let lon := circ (grp.map fun v => (wm v, v.state 1))
  let samp : VRow I J C K → Fin 6 → K := fun v i => if i = 1 then wrap lon (v.state 1) else v.state i
  let mean : Fin 6 → K := fun i => if i = 1 then lon else (grp.map fun v => wm v * samp v i).sum
  let ok := grp.filter fun v => v.mag.isSome
  let denom := (ok.map wm).sum
  ⟨mean, fun i j => (grp.map fun v => wc v * (samp v i - mean i) * (samp v j - mean j)).sum,
    if 0 < denom then some ((ok.map fun v => wm v * v.mag.getD 0).sum / denom) else none⟩

/-- Result row: ids, time and observatory of the first row of the group and its statistics. orbits/variants.py:407-417, 563-582. -/
structure ObjEph (I J C K : Type) where
  orbit : I
  obj : J
  days : Int
  nanos : Int
  code : C
  stat : Stat K

/-- The result row of one group. Used for orbits/variants.py:352-585. -/
def ephRow (st : List (VRow I J C K) → Stat K) (grp : List (VRow I J C K)) : Option (ObjEph I J C K) :=
  match grp with
  | [] => none
  | v :: _ => some ⟨v.orbit, v.obj, v.days, v.nanos, v.code, st grp⟩

/-- `VariantEphemeris.collapse_by_object_id(aberration_mode="none")`. orbits/variants.py:352-585. The chunks of groups of the fast
path are computed group by group (every operation in it is along one group), so only the check of the chunk size is
kept. The modes that add aberrated coordinates are in `Verif.Collapse.Aberr`. -/
def collapseByObject (circ : List (K × K) → K) (wrap : K → K → K) (groupChunk : Int) (vs : List (VRow I J C K)) :
    Except PyErr (List (ObjEph I J C K)) :=
  if vs.isEmpty then .ok []
  else if groupChunk ≤ 0 then .error .valueError
  else
    let groups := runs veKey (sortBy veKey vs)
    let uniformSize := groups.all fun g => decide (some g.length = groups.head?.map List.length)
    .ok (groups.filterMap fun g => ephRow (fun g =>
      stat circ wrap (meanWeight g) (if uniformSize then covWeightFast g else covWeightSlow g) g) g)

/-- A row with the weights of the first row of its variant. Magnitudes are not used. orbits/variants.py:851-867. -/
def reweight (base v : Option (VRow I J C K)) : Option (VRow I J C K) :=
  match base, v with
  | some b, some v => some { v with w := b.w, wc := b.wc, mag := none }
  | _, _ => none

/-- `VariantEphemeris.collapse_sigma_points_orbit_major`. orbits/variants.py:744-937. Row `(o, k, t)` is at
`(o * nVariants + k) * nTimes + t`. The weights of a variant are those of its first row; times and observatories are
those of the first `nTimes` rows; magnitudes are null. -/
def collapseOrbitMajor [DecidableEq I] (circ : List (K × K) → K) (wrap : K → K → K) (nTimes nVariants : Int)
    (vs : List (VRow I J C K)) : Except PyErr (List (ObjEph I J C K)) :=
  if vs.isEmpty then .ok []
  else if nTimes ≤ 0 then .error .valueError
  else if nVariants ≤ 0 then .error .valueError
  else
    let N := nTimes.toNat
    let V := nVariants.toNat
    if vs.length % (N * V) ≠ 0 then .error .valueError
    else
      let O := vs.length / (N * V)
      let base : Nat → Nat → Option (VRow I J C K) := fun o k => vs[(o * V + k) * N]?
      if (List.range O).any fun o => (List.range V).any fun k =>
          decide ((base o k).map VRow.orbit ≠ (base o 0).map VRow.orbit ∨ (base o k).map VRow.obj ≠ (base o 0).map VRow.obj)
      then collapseByObject circ wrap 200000 vs
      else .ok ((List.range O).flatMap fun o => (List.range N).filterMap fun t =>
        let grp := (List.range V).filterMap fun k => reweight (base o k) vs[(o * V + k) * N + t]?
        match base o 0, vs[t]? with
        | some b, some g => some ⟨b.orbit, b.obj, g.days, g.nanos, g.code, stat circ wrap (meanWeight grp) (covWeightFast grp) grp⟩
        | _, _ => none)

end

end Verif.Collapse
