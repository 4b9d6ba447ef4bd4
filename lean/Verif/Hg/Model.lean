import Verif.V3
import Verif.Basic
import Verif.Chunk.Model
import Verif.Band.Model
import Mathlib.Analysis.SpecialFunctions.Log.Base
import Mathlib.Analysis.SpecialFunctions.Pow.Real
import Mathlib.Analysis.SpecialFunctions.Complex.Arg

/-! # Model of the H-G magnitudes (`src/adam_core/photometry/magnitude.py`, `magnitude_common.py`)

Exact real arithmetic instead of float64. Values that real arithmetic does not have are explicit: `Num.inf` and `Num.nan`;
inputs that are NaN or null are `none`. -/

namespace Verif.Hg

open Verif

/-- A float64 result. Used for magnitude_common.py:28-44. -/
inductive Num
  | fin (x : ℝ)
  | inf
  | nan

/-- `-2.5 * log10(p)`: plus infinity at zero, NaN below. Used for magnitude_common.py:28-44. -/
noncomputable def mag10 (p : ℝ) : Num :=
  if 0 < p then .fin (-2.5 * Real.logb 10 p) else if p = 0 then .inf else .nan

/-- `(1 - G) * phi1 + G * phi2` for `tan_half = t`. magnitude_common.py:41-43, 57-59, coefficients 23-24. -/
noncomputable def mixture (G t : ℝ) : ℝ :=
  (1 - G) * Real.exp (-3.33 * t ^ (0.63 : ℝ)) + G * Real.exp (-1.87 * t ^ (1.22 : ℝ))

/-- `hg_phase_correction`. magnitude_common.py:28-44. Where the tangent is infinite both exponentials vanish and the floor
applies; where it is negative `np.power` gives NaN. -/
noncomputable def hgPhaseCorrection (alphaDeg G : ℝ) : Num :=
  let half := 0.5 * (alphaDeg * (Real.pi / 180))
  if Real.cos half = 0 then mag10 1e-12
  else if Real.tan half < 0 then .nan
  else mag10 (max (mixture G (Real.tan half)) 1e-12)

/-- `_hg_phase_correction_from_cos_jax`. magnitude_common.py:47-60. For `cos = -1` the quotient is infinite and both
exponentials vanish. -/
noncomputable def correctionFromCos (c G : ℝ) : Num :=
  if c = -1 then mag10 0 else mag10 (mixture G (Real.sqrt ((1 - c) / (1 + c))))

/-- A row of a position column: `none` when an entry is null, NaN or infinite. Used for magnitude.py:53-58. -/
abbrev Pos := Option V3

/-- One row of `_validate_hg_geometry`. magnitude.py:53-58. Squares that overflow are not modelled. -/
noncomputable def validRow (obj obs : Pos) : Bool :=
  match obj, obs with
  | some p, some q => decide (¬(V3.norm p ≤ 0 ∨ V3.norm (V3.sub p q) ≤ 0))
  | _, _ => false

/-- `_validate_hg_geometry`. magnitude.py:35-63. Arrays of the wrong shape are not modelled: the columns give three numbers
per row. -/
noncomputable def validGeometry (obj obs : List Pos) : Except PyErr Unit :=
  if obs.length ≠ obj.length then .error .valueError
  else if (List.zipWith validRow obj obs).all id then .ok () else .error .valueError

/-- `np.clip(x, -1, 1)`. Used for magnitude.py:268-278, 298-305, 324-331. -/
noncomputable def clip1 (x : ℝ) : ℝ := min (max x (-1)) 1

/-- The cosine of the phase angle by the law of cosines. magnitude.py:268-278, 298-305, 324-331. -/
noncomputable def cosPhase (p q : V3) : ℝ :=
  let r := V3.norm p
  let delta := V3.norm (V3.sub p q)
  let o := V3.norm q
  clip1 ((r * r + delta * delta - o * o) / (2 * r * delta))

/-- `np.arctan2(y, x)`. Used for magnitude.py:308-311, 340-343. -/
noncomputable def arctan2 (y x : ℝ) : ℝ := Complex.arg ⟨x, y⟩

/-- Degrees from the cosine. magnitude.py:308-311, 340-343. -/
noncomputable def angleOf (c : ℝ) : ℝ :=
  let y := Real.sqrt (max 0 (1 - c))
  let x := Real.sqrt (max 0 (1 + c))
  2 * arctan2 y x * (180 / Real.pi)

/-- `_calculate_phase_angle_core_jax` on one row. magnitude.py:287-311. -/
noncomputable def phaseRow (p q : V3) : ℝ := angleOf (cosPhase p q)

/-- `a + x` for a finite `a`. Used for magnitude.py:251-283. -/
noncomputable def Num.addLeft (a : ℝ) : Num → Num
  | .fin x => .fin (a + x)
  | .inf => .inf
  | .nan => .nan

/-- `_calculate_apparent_magnitude_core_jax` on one row. magnitude.py:251-283. NaN for a NaN in `H` or `G`. -/
noncomputable def magRow (H G : Option ℝ) (p q : V3) : Num :=
  match H, G with
  | some H, some G =>
    (correctionFromCos (cosPhase p q) G).addLeft (H + 5 * Real.logb 10 (V3.norm p * V3.norm (V3.sub p q)))
  | _, _ => .nan

/-- A column of positions with its labels. Used for magnitude.py:66-174. -/
structure Coords where
  origins : List (List Char)
  frame : List Char
  rows : List Pos

/-- The row of zeros that pads a chunk. Used for magnitude.py:66-174. -/
def zeroPos : Pos := some ⟨0, 0, 0⟩

/-- One row of a kernel. The kernels never meet a row that is not finite: the validation comes first.
Used for magnitude.py:66-174. -/
def onRow {α γ : Type} (junk : γ) (f : α → V3 → V3 → γ) (a : α × Pos) (q : Pos) : γ :=
  match a.2, q with
  | some p, some q => f a.1 p q
  | _, _ => junk

/-- A kernel on two chunks, row by row. Used for magnitude.py:66-174. -/
def kernel {α γ : Type} (junk : γ) (f : α → V3 → V3 → γ) (as : List (α × Pos)) (qs : List Pos) : List γ :=
  List.zipWith (onRow junk f) as qs

/-- `JAX_CHUNK_SIZE`. magnitude_common.py:17. -/
def chunkSize : Nat := 8192

/-- Used for magnitude.py:66-174. -/
def sun : List Char := "SUN".toList

/-- `calculate_phase_angle`. magnitude.py:66-174. -/
noncomputable def phaseAngle (obj obs : Coords) : Except PyErr (List Num) :=
  if obs.rows.length ≠ obj.rows.length then .error .valueError
  else if obj.origins.any (fun o => decide (o ≠ sun)) then .error .valueError
  else if obs.origins.any (fun o => decide (o ≠ sun)) then .error .valueError
  else if obj.frame ≠ obs.frame then .error .valueError
  else
    match validGeometry obj.rows obs.rows with
    | .error e => .error e
    | .ok () =>
      Chunk.runPadded ((), zeroPos) zeroPos Num.nan (kernel Num.nan fun _ p q => .fin (phaseRow p q))
        (obj.rows.map fun p => ((), p)) obs.rows chunkSize

/-- A number or an array. Used for magnitude.py:397-411, 468-482, 575-589. -/
inductive Arg
  | scalar (x : Option ℝ)
  | array (xs : List (Option ℝ))

/-- Broadcasting of `H` and `G`. magnitude.py:397-411, 468-482, 575-589. -/
def broadcast (n : Nat) : Arg → Except PyErr (List (Option ℝ))
  | .scalar x => .ok (List.replicate n x)
  | .array xs => if xs.length ≠ n then .error .valueError else .ok xs

/-- `calculate_apparent_magnitude_v`. magnitude.py:370-442. Neither origins nor frames are looked at. -/
noncomputable def apparentV (H : Arg) (obj obs : Coords) (G : Arg) : Except PyErr (List Num) :=
  if obs.rows.length ≠ obj.rows.length then .error .valueError
  else
    match validGeometry obj.rows obs.rows with
    | .error e => .error e
    | .ok () =>
      match broadcast obj.rows.length H with
      | .error e => .error e
      | .ok Hs =>
        match broadcast obj.rows.length G with
        | .error e => .error e
        | .ok Gs =>
          Chunk.runPadded ((some 0, some 0), zeroPos) zeroPos Num.nan (kernel Num.nan fun a p q => magRow a.1 a.2 p q)
            ((Hs.zip Gs).zip obj.rows) obs.rows chunkSize

/-- `calculate_apparent_magnitude_v_and_phase_angle`. magnitude.py:445-512; the kernel 315-344 is the two others together. -/
noncomputable def apparentVAndPhase (H : Arg) (obj obs : Coords) (G : Arg) : Except PyErr (List Num × List Num) :=
  if obs.rows.length ≠ obj.rows.length then .error .valueError
  else
    match validGeometry obj.rows obs.rows with
    | .error e => .error e
    | .ok () =>
      match broadcast obj.rows.length H with
      | .error e => .error e
      | .ok Hs =>
        match broadcast obj.rows.length G with
        | .error e => .error e
        | .ok Gs =>
          match Chunk.runPadded ((some 0, some 0), zeroPos) zeroPos (Num.nan, Num.nan)
            (kernel (Num.nan, Num.nan) fun a p q => (magRow a.1 a.2 p q, Num.fin (phaseRow p q)))
            ((Hs.zip Gs).zip obj.rows) obs.rows chunkSize with
          | .error e => .error e
          | .ok rows => .ok (rows.map Prod.fst, rows.map Prod.snd)

/-! ### predictions in other filters -/

/-- `-2.5 * log10(x)` as the colour tables use it. Used for magnitude.py:515-658. -/
noncomputable def mag (x : ℝ) : ℝ := -2.5 * Real.logb 10 x

/-- `x + d` where `d` may be NaN. Used for magnitude.py:515-658. -/
noncomputable def Num.plusDelta (x : Num) (d : Option ℝ) : Num :=
  match x, d with
  | .fin x, some d => .fin (x + d)
  | .inf, some _ => .inf
  | _, _ => .nan

/-- `H - d` where both may be NaN. Used for magnitude.py:515-658. -/
noncomputable def minusDelta (H d : Option ℝ) : Option ℝ :=
  match H, d with
  | some H, some d => some (H - d)
  | _, _ => none

open Band in
/-- `predict_magnitudes`. magnitude.py:515-658. `observers` is the answer of `exposures.observers()`; the exposures have
the filters `filters`. -/
noncomputable def predict (d : Data ℝ) (s : State ℝ (Comp ℝ)) (H : Arg) (obj : Coords) (filters : List (Option Str))
    (observers : Except PyErr Coords) (G : Arg) (reference : Str) (comp : Comp ℝ) :
    Except PyErr (List Num) × State ℝ (Comp ℝ) :=
  if obj.rows.length ≠ filters.length then (.error .valueError, s)
  else if filters.any (fun f => (f.bind fun f => d.filters.lookup f).isNone) then (.error .valueError, s)
  else if (d.filters.lookup reference).isNone then (.error .valueError, s)
  else
    match observers with
    | .error e => (.error e, s)
    | .ok obs =>
      match validGeometry obj.rows obs.rows with
      | .error e => (.error e, s)
      | .ok () =>
        match broadcast obj.rows.length H with
        | .error e => (.error e, s)
        | .ok Hs =>
          match broadcast obj.rows.length G with
          | .error e => (.error e, s)
          | .ok Gs =>
            match deltaTable d mag s comp with
            | (.error e, s) => (.error e, s)
            | (.ok t, s) =>
              let Hv := if reference = ['V'] then Hs
                else Hs.map fun H => minusDelta H ((deltaOf d t reference).getD none)
              let deltas := filters.map fun f => (f.bind fun f => deltaOf d t f).getD none
              (Chunk.runPadded (((some 0, some 0), some 0), zeroPos) zeroPos Num.nan
                (kernel Num.nan fun a p q => (magRow a.1.1 a.1.2 p q).plusDelta a.2)
                (((Hv.zip Gs).zip deltas).zip obj.rows) obs.rows chunkSize, s)

end Verif.Hg
