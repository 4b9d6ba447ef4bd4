import Verif.Sched.Model
import Verif.Time.Model
import Mathlib.Order.WithBot
import Mathlib.Data.Real.Basic

/-! # Model of the observation tables

`src/adam_core/observations/associations.py`, `detections.py`, `exposures.py`, `source_catalog.py`. A null is `none`. -/

namespace Verif.Catalog

open Verif Verif.Sched Verif.Time

section groups
variable {ρ K : Type} [LinearOrder K]

/-- The order in which `sort_by` puts a column that may be null: nulls at the end. Used for associations.py:21-44. -/
def orderKey : Option K → WithTop K
  | some k => (k : WithTop K)
  | none => ⊤

/-- `Associations.group_by_object`: `sort_by` is a stable sort. associations.py:21-44. -/
def groupByObject (key : ρ → Option K) (rows : List ρ) : List (List ρ) :=
  let ids := uniq (rows.map key)
  let sorted := sortBy (fun r => orderKey (key r)) rows
  (ids.filterMap id).map (fun k => sorted.filter fun r => decide (key r = some k)) ++
    if none ∈ ids then [sorted.filter fun r => (key r).isNone] else []

/-- `PointSourceDetections.group_by_exposure`: a comparison with a null is null, and the filter drops nulls.
detections.py:36-46. -/
def groupByExposure (key : ρ → Option K) (rows : List ρ) : List (List ρ) :=
  let sorted := sortBy (fun r => orderKey (key r)) rows
  (uniq (rows.map key)).map fun id => sorted.filter fun r =>
    match id, key r with
    | some k, some k' => decide (k' = k)
    | _, _ => false

/-- `Exposures.group_by_observatory_code` and `Orbits.group_by_orbit_id`. exposures.py:28-35, orbits/orbits.py:26-40. The
columns cannot be null. -/
def groupByCode (key : ρ → K) (rows : List ρ) : List (K × List ρ) :=
  (uniq (rows.map key)).map fun k => (k, rows.filter fun r => decide (key r = k))

/-- `PointSourceDetections.group_by_healpixel`; the pixel of a row is `pix`. detections.py:54-65. -/
def groupByPixel (pix : ρ → Nat) (rows : List ρ) : List (Nat × List ρ) :=
  (sortBy id (uniq (rows.map pix))).map fun p => (p, rows.filter fun r => decide (pix r = p))

end groups

/-- A nullable float64 cell. Used for source_catalog.py:20-83. -/
inductive Cell
  | null
  | nan
  | num (x : ℝ)

/-- A row of `SourceCatalog` with the columns that have rules. source_catalog.py:20-83. -/
structure Source where
  id : String
  exposureId : Option String
  raSigma : Cell
  decSigma : Cell
  corr : Cell
  mag : Cell
  code : String
  filter : Option String
  start : Option Time.Row
  duration : Option ℚ
  objectId : Option String

/-- A column validator `and_(ge(lo), le(hi))`: nulls pass, NaN does not. Used for source_catalog.py:85-104. -/
noncomputable def passes (lo hi : ℝ) : Cell → Bool
  | .null => true
  | .nan => false
  | .num x => decide (lo ≤ x) && decide (x ≤ hi)

/-- A row of `PointSourceDetections`, the columns above. Used for source_catalog.py:85-104. -/
structure Detection where
  id : String
  exposureId : Option String
  raSigma : Cell
  decSigma : Cell
  mag : Cell

/-- `SourceCatalog.detections`; `none` is the exception of the validator of the magnitude column. source_catalog.py:85-104,
detections.py:33. Right ascension and declination have the same validators in both tables. -/
noncomputable def detections (cat : List Source) : Option (List Detection) :=
  if cat.all fun s => passes (-10) 30 s.mag then some (cat.map fun s => ⟨s.id, s.exposureId, s.raSigma, s.decSigma, s.mag⟩)
  else none

/-- A row of `Exposures`, the columns above. exposures.py:15-26. -/
structure Exposure where
  id : String
  start : Time.Row
  duration : ℚ
  filter : String
  code : String
  deriving DecidableEq

/-- The exposure of one row, if its columns may stand in `Exposures`: no nulls and a duration of at most an hour.
exposures.py:20-24, source_catalog.py:115-123. -/
def exposureOf (s : Source) : Option Exposure :=
  match s.exposureId, s.start, s.duration, s.filter with
  | some i, some t, some d, some f => if 0 ≤ d ∧ d ≤ 3600 then some ⟨i, t, d, f, s.code⟩ else none
  | _, _, _, _ => none

/-- All rows or none. Used for source_catalog.py:106-125. -/
def allExposures : List Source → Option (List Exposure)
  | [] => some []
  | s :: l =>
    match exposureOf s, allExposures l with
    | some e, some es => some (e :: es)
    | _, _ => none

/-- quivr's `drop_duplicates(subset=["id"])`: the first row of every id, in order. Used for source_catalog.py:106-125. -/
def dropDuplicates : List Exposure → List Exposure
  | [] => []
  | e :: l => e :: (dropDuplicates l).filter fun e' => decide (e'.id ≠ e.id)

/-- `SourceCatalog.exposures`; `none` is the exception raised for nulls and by the validator. source_catalog.py:106-125. -/
def exposures (cat : List Source) : Option (List Exposure) := (allExposures cat).map dropDuplicates

/-- A null or NaN is NaN in numpy. Used for source_catalog.py:168-185. -/
def Cell.value : Cell → Option ℝ
  | .num x => some x
  | _ => none

/-- The covariance matrix of `SourceCatalog.coordinates` for one row; `none` is NaN. source_catalog.py:168-185. -/
noncomputable def covariance (s : Source) : Fin 6 → Fin 6 → Option ℝ :=
  let ra := s.raSigma.value.map (· / 3600)
  let dec := s.decSigma.value.map (· / 3600)
  let cross := s.corr.value.bind fun c => ra.bind fun a => dec.map fun d => c * a * d
  fun i j =>
    if i = 1 ∧ j = 1 then ra.map (· ^ 2)
    else if i = 2 ∧ j = 2 then dec.map (· ^ 2)
    else if (i = 1 ∧ j = 2) ∨ (i = 2 ∧ j = 1) then cross
    else none

/-- The times of `SourceCatalog.observers(exposure_midpoint=True)` for start times and durations. source_catalog.py:216-226. -/
def sourceMidpoints (start : TS) (durations : List ℚ) : Except PyErr TS :=
  start.addNanos (.array (durations.map fun d => roundHalfEven (d / 2 * 10 ^ 9)))

/-- `Exposures.midpoint`. exposures.py:76-80. -/
def midpoints (start : TS) (durations : List ℚ) : Except PyErr TS := start.addSeconds (.array (durations.map (· / 2)))

end Verif.Catalog
