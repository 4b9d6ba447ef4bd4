import Verif.Hg.Model
import Verif.Band.Resolve
import Verif.Sched.Model
import Mathlib.Data.Char
import Mathlib.Data.List.Lex

/-! # Model of the absolute-magnitude fits (`src/adam_core/photometry/absolute_magnitude.py`)

Exact real arithmetic. A magnitude or uncertainty that is null, NaN or infinite is `none`. -/

namespace Verif.AbsMag

open Verif Band Hg Sched

/-- `np.nanmedian` of finite numbers, not empty. Used for absolute_magnitude.py:31-35. -/
noncomputable def median (l : List ℝ) : ℝ :=
  let s := sortBy id l
  let n := s.length
  if n % 2 = 1 then s.getD (n / 2) 0 else (s.getD (n / 2 - 1) 0 + s.getD (n / 2) 0) / 2

/-- `_mad_sigma`. absolute_magnitude.py:31-35. -/
noncomputable def madSigma (l : List ℝ) : ℝ :=
  let m := median l
  1.4826 * median (l.map fun x => |x - m|)

/-- The answer of a fit. Used for absolute_magnitude.py:38-83. -/
structure Fit where
  H : ℝ
  Hsigma : Option ℝ
  sigmaEff : Option ℝ
  chi2Red : Option ℝ
  nUsed : Nat

/-- `1 / sigma**2`. Used for absolute_magnitude.py:38-83. -/
noncomputable def weight (s : ℝ) : ℝ := 1 / (s * s)

/-- `_fit_absolute_magnitude_rows` for the rows `(h, sigma)`. absolute_magnitude.py:38-83. A zero uncertainty makes the sum of
the weights infinite, which raises; the other exits of lines 59-60 need overflow. -/
noncomputable def fitRows (rows : List (ℝ × Option ℝ)) : Except PyErr Fit :=
  if rows = [] then .error .valueError
  else
    let h := rows.map Prod.fst
    let n := rows.length
    if rows.all fun r => r.2.isSome then
      let s := rows.map fun r => r.2.getD 0
      if s.any fun x => decide (x = 0) then .error .valueError
      else
        let w := s.map weight
        let wsum := w.sum
        let H := (List.zipWith (· * ·) w h).sum / wsum
        let resid := h.map fun x => x - H
        if n ≥ 2 then
          let chi2 := (List.zipWith (fun w r => w * (r * r)) w resid).sum
          let red := chi2 / ((n : ℝ) - 1)
          let hs := Real.sqrt (1 / wsum)
          .ok ⟨H, some (if red > 1 then hs * Real.sqrt red else hs), some (madSigma resid), some red, n⟩
        else .ok ⟨H, none, none, none, n⟩
    else
      let H := h.sum / n
      let resid := h.map fun x => x - H
      if n ≥ 2 then .ok ⟨H, some (madSigma resid / Real.sqrt n), some (madSigma resid), none, n⟩
      else .ok ⟨H, none, none, none, n⟩

/-- Used for absolute_magnitude.py:138-151, 260-271. -/
structure Detection where
  exposureId : Option Str
  mag : Option ℝ
  sigma : Option ℝ

/-- The columns of an exposure in use; the midpoint is opaque. Used for absolute_magnitude.py:138-151, 260-271. -/
structure Exposure (T : Type) where
  id : Str
  code : Str
  filter : Str
  midpoint : T

/-- What does not change from call to call: the packaged data and the observer positions (`Exposures.observers` is row by row,
see `Joins.exposuresObservers`). Used for absolute_magnitude.py:138-173, 260-291. -/
structure World (T : Type) where
  data : Data ℝ
  tables : Tables
  site : Str → T → Except PyErr Pos

variable {T : Type}

/-- `pc.index_in(detections.exposure_id, value_set=exposures.id)` followed by `exposures.take`: the first exposure of that id.
absolute_magnitude.py:138-151, 260-271. -/
def align (exps : List (Exposure T)) (dets : List Detection) : Except PyErr (List (Exposure T)) :=
  if dets.any fun d => d.exposureId.isNone then .error .valueError
  else gather (fun (d : Detection) => match exps.find? fun e => decide (some e.id = d.exposureId) with
    | none => .error .valueError
    | some e => .ok e) dets

/-- `exposures.observers()`. Used for absolute_magnitude.py:138-173, 260-291. -/
def observers (W : World T) (exps : List (Exposure T)) : Except PyErr Coords :=
  match gather (fun (e : Exposure T) => W.site e.code e.midpoint) exps with
  | .error e => .error e
  | .ok ps => .ok ⟨exps.map fun _ => sun, "ecliptic".toList, ps⟩

/-- The part common to both estimators: magnitudes for H = 0. absolute_magnitude.py:138-173, 260-291. -/
noncomputable def forward (W : World T) (s : State ℝ (Comp ℝ)) (dets : List Detection) (exps : List (Exposure T)) (obj : Coords)
    (comp : Comp ℝ) (G : Option ℝ) (strict : Bool) : Except PyErr (List Num) × State ℝ (Comp ℝ) :=
  match align exps dets with
  | .error e => (.error e, s)
  | .ok es =>
    match mapBands W.tables (es.map fun e => some e.code) (es.map fun e => some e.filter) (!strict) .raise with
    | .error e => (.error e, s)
    | .ok canonical => predict W.data s (.scalar (some 0)) obj canonical (observers W es) (.scalar G) ['V'] comp

/-- `H_i` and its uncertainty where magnitude and prediction are finite. absolute_magnitude.py:175-185, 292-305. -/
noncomputable def usable (d : Detection) (m0 : Num) : Option (ℝ × Option ℝ) :=
  match d.mag, m0 with
  | some m, .fin x => some (m - x, d.sigma)
  | _, _ => none

/-- `estimate_absolute_magnitude_v_from_detections`. absolute_magnitude.py:86-200. -/
noncomputable def estimate (W : World T) (s : State ℝ (Comp ℝ)) (dets : List Detection) (exps : List (Exposure T)) (obj : Coords)
    (comp : Comp ℝ) (G : Option ℝ) (strict : Bool) (reference : Str) : Except PyErr Fit × State ℝ (Comp ℝ) :=
  if reference ≠ ['V'] then (.error .valueError, s)
  else if dets = [] then (.error .valueError, s)
  else if obj.rows.length ≠ dets.length then (.error .valueError, s)
  else
    match forward W s dets exps obj comp G strict with
    | (.error e, s) => (.error e, s)
    | (.ok m0, s) =>
      let rows := (List.zipWith usable dets m0).filterMap id
      if rows = [] then (.error .valueError, s) else (fitRows rows, s)

/-- The two nested `while` loops: consecutive rows of one id. absolute_magnitude.py:319-340. -/
def runs {A : Type} : List (Str × A) → List (Str × List A)
  | [] => []
  | (k, a) :: rest =>
    (k, a :: (rest.takeWhile fun r => decide (r.1 = k)).map Prod.snd) :: runs (rest.dropWhile fun r => decide (r.1 = k))
termination_by l => l.length
decreasing_by
  simp only [List.length_cons]
  have := (List.dropWhile_suffix (l := rest) (fun r => decide (r.1 = k))).length_le
  omega

/-- A group whose fit raises is left out. absolute_magnitude.py:326-339. -/
noncomputable def fitGroup (g : Str × List (ℝ × Option ℝ)) : Option (Str × Fit) :=
  match fitRows g.2 with
  | .error _ => none
  | .ok f => some (g.1, f)

/-- A usable row with an object id. absolute_magnitude.py:294-305. -/
noncomputable def usableOf (p : Option Str × Detection) (m0 : Num) : Option (Str × ℝ × Option ℝ) :=
  match p.1, usable p.2 m0 with
  | some k, some r => some (k, r)
  | _, _ => none

/-- `estimate_absolute_magnitude_v_from_detections_grouped`. absolute_magnitude.py:203-354. -/
noncomputable def estimateGrouped (W : World T) (s : State ℝ (Comp ℝ)) (dets : List Detection) (exps : List (Exposure T))
    (obj : Coords) (ids : List (Option Str)) (comp : Comp ℝ) (G : Option ℝ) (strict : Bool) (reference : Str) :
    Except PyErr (List (Str × Fit)) × State ℝ (Comp ℝ) :=
  if reference ≠ ['V'] then (.error .valueError, s)
  else if dets = [] then (.ok [], s)
  else if obj.rows.length ≠ dets.length then (.error .valueError, s)
  else if ids.length ≠ dets.length then (.error .valueError, s)
  else
    match forward W s dets exps obj comp G strict with
    | (.error e, s) => (.error e, s)
    | (.ok m0, s) =>
      let rows := (List.zipWith usableOf (ids.zip dets) m0).filterMap id
      if rows = [] then (.ok [], s) else (.ok ((runs (sortBy Prod.fst rows)).filterMap fitGroup), s)

end Verif.AbsMag
