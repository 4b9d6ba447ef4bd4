import Verif.Porkchop.Model
import Verif.Units.Model
import Mathlib.Data.List.MinMax
import Mathlib.Data.List.Sort
import Mathlib.Data.List.Dedup
import Mathlib.Algebra.Order.Round

/-! # The porkchop plot (missions/porkchop.py)

The figure is what its traces hold: the axes, the two contour grids, the grid of flight times, the contour ranges, the limits and the two
markers. Colours, labels and layout are left out. Axes and limits are MJD: the plot turns each into a UTC `datetime`, whatever the
scale of the table. Numbers are exact reals instead of float64; `none` is NaN. -/

namespace Verif.Porkchop

open Classical Verif

/-- The arguments of `plot_porkchop_plotly` that choose what is drawn. porkchop.py:746-765. -/
structure Limits where
  c3Min : Option ℝ
  c3Max : Option ℝ
  vinfMin : Option ℝ
  vinfMax : Option ℝ
  tofMin : Option ℝ
  tofMax : Option ℝ
  xlim : Option (ℝ × ℝ)
  ylim : Option (ℝ × ℝ)
  optimal : Bool

/-- A row that passed the filter: its dates, C3, arrival speed and time of flight. Used for porkchop.py:859-878. -/
structure Point where
  dep : ℝ
  arr : ℝ
  c3 : ℝ
  vinf : ℝ
  tof : ℝ

/-- Where the contours of a trace start and end, and the step between them. Used for porkchop.py:880-916. -/
structure Levels where
  lo : ℝ
  hi : ℝ
  step : ℝ

/-- The contour traces. Used for porkchop.py:942-1249. -/
structure Contours where
  x : List ℝ
  y : List ℝ
  c3 : List (List (Option ℝ))
  vinf : List (List (Option ℝ))
  tof : List (List ℝ)
  c3Levels : Levels
  vinfLevels : Levels
  tofLevels : Levels
  xlim : ℝ × ℝ
  ylim : ℝ × ℝ
  /-- The marker named "Optimal C3". -/
  bestC3 : Option (ℝ × ℝ)
  /-- The marker named "Optimal V∞". -/
  bestVinf : Option (ℝ × ℝ)

/-- A figure: without traces, or with them. Used for porkchop.py:924-940, 1248-1307. -/
inductive Figure
  | insufficient
  | contours (c : Contours)

/-- `np.max`: NaN if any value is NaN, refused without values. Used for porkchop.py:827, 840, 846. -/
noncomputable def npMax : List (Option ℝ) → Except PyErr (Option ℝ)
  | [] => .error .valueError
  | a :: l => .ok (l.foldl (Option.map₂ max) a)

/-- An upper limit: the argument, or the largest value. porkchop.py:826-827, 839-840, 845-846. -/
noncomputable def upper (given : Option ℝ) (values : List (Option ℝ)) : Except PyErr (Option ℝ) :=
  match given with
  | some m => .ok (some m)
  | none => npMax values

/-- The assertions that the range is not empty; no comparison with NaN holds. porkchop.py:829-834, 852-853. -/
noncomputable def checked (lo : ℝ) (hi : Option ℝ) : Except PyErr ℝ :=
  match hi with
  | some h => if lo < h then .ok h else .error .assertionError
  | none => .error .assertionError

/-- Python's `round`: to the nearest integer, halves to even. Used for porkchop.py:849, 909. -/
noncomputable def roundEven (x : ℝ) : ℤ :=
  if x - ⌊x⌋ < 1 / 2 then ⌊x⌋ else if 1 / 2 < x - ⌊x⌋ then ⌊x⌋ + 1 else if ⌊x⌋ % 2 = 0 then ⌊x⌋ else ⌊x⌋ + 1

/-- The step between contours of the time of flight. porkchop.py:848-849, 908-909. -/
noncomputable def tofStep (lo hi : ℝ) : ℝ := roundEven (max 5 ((hi - lo) / 10) / 5) * 5

/-- C3 at departure in km²/s² and V∞ at arrival in km/s. porkchop.py:814-822. -/
noncomputable def speeds (u : Units.Consts ℝ) (s : Solution) : Option (ℝ × ℝ) :=
  (c3 s).bind fun c => (vinf s).map fun v => (c.1 * Units.auDayToKmS u 1 ^ 2, Units.auDayToKmS u v.2)

/-- The six limits after the defaults. Used for porkchop.py:824-846. -/
structure Window where
  c3Min : ℝ
  c3Max : ℝ
  vinfMin : ℝ
  vinfMax : ℝ
  tofMin : ℝ
  tofMax : ℝ

/-- `data_mask` and the five filtered arrays, for a row. porkchop.py:855-878. -/
noncomputable def point (u : Units.Consts ℝ) (w : Window) (s : Solution) : Option Point :=
  match speeds u s with
  | none => none
  | some (c, v) =>
    if c ≤ w.c3Max ∧ w.c3Min ≤ c ∧ w.vinfMin ≤ v ∧ v ≤ w.vinfMax ∧ w.tofMin ≤ timeOfFlight s ∧ timeOfFlight s ≤ w.tofMax then
      some ⟨mjd s.dep, mjd s.arr, c, v, timeOfFlight s⟩
    else none

/-- `np.unique`. porkchop.py:918-923. -/
noncomputable def unique (l : List ℝ) : List ℝ := l.dedup.insertionSort (· ≤ ·)

/-- A grid of NaN and the assignment `grid[rows, columns] = values`: a later value replaces an earlier one. porkchop.py:956-967. -/
noncomputable def fill (ny nx : Nat) (cells : List (Nat × Nat × ℝ)) : List (List (Option ℝ)) :=
  cells.foldl (fun g c => g.modify c.1 fun row => row.set c.2.1 (some c.2.2)) (List.replicate ny (List.replicate nx none))

/-- `np.min` of values that are not NaN. Used for porkchop.py:882, 893, 906, 977, 981. -/
noncomputable def least : List ℝ → ℝ
  | [] => 0
  | a :: l => l.foldl min a

/-- `np.max` of values that are not NaN. Used for porkchop.py:883, 894, 907, 978, 982. -/
noncomputable def greatest : List ℝ → ℝ
  | [] => 0
  | a :: l => l.foldl max a

/-- The contours of C3 or V∞, ten steps from the smallest value to the largest. porkchop.py:881-886, 892-899. -/
noncomputable def levels (values : List ℝ) : Levels :=
  let step := (greatest values - least values) / 10
  ⟨least values, greatest values, if step ≤ 0 then 1 else step⟩

/-- The contours of the time of flight. porkchop.py:905-911. -/
noncomputable def tofLevels (values : List ℝ) : Levels :=
  let step := tofStep (least values) (greatest values)
  ⟨least values, greatest values, if step ≤ 0 then 5 else step⟩

/-- The marker of the first row with the smallest value, if it is within the limits. porkchop.py:1172-1246. -/
noncomputable def marker (xlim ylim : ℝ × ℝ) (value : Point → ℝ) (points : List Point) : Option (ℝ × ℝ) :=
  match points.argmin value with
  | none => none
  | some p => if (xlim.1 ≤ p.dep ∧ p.dep ≤ xlim.2) ∧ (ylim.1 ≤ p.arr ∧ p.arr ≤ ylim.2) then some (p.dep, p.arr) else none

/-- The figure of the rows that passed the filter. porkchop.py:880-1249. The branches for an empty filter only choose ranges that are not
drawn, and are left out. -/
noncomputable def figure (L : Limits) (points : List Point) : Figure :=
  let x := unique (points.map Point.dep)
  let y := unique (points.map Point.arr)
  if x.length < 2 ∨ y.length < 2 then .insufficient
  else
    let cells (value : Point → ℝ) := points.map fun p => (y.idxOf p.arr, x.idxOf p.dep, value p)
    let xlim := L.xlim.getD (least x, greatest x)
    let ylim := L.ylim.getD (least y, greatest y)
    .contours
      { x := x
        y := y
        c3 := fill y.length x.length (cells Point.c3)
        vinf := fill y.length x.length (cells Point.vinf)
        tof := y.map fun a => x.map fun d => a - d
        c3Levels := levels (points.map Point.c3)
        vinfLevels := levels (points.map Point.vinf)
        tofLevels := tofLevels (points.map Point.tof)
        xlim := xlim
        ylim := ylim
        bestC3 := if L.optimal then marker xlim ylim Point.c3 points else none
        bestVinf := if L.optimal then marker xlim ylim Point.vinf points else none }

/-- `plot_porkchop_plotly`. porkchop.py:746-1307. -/
noncomputable def plot (u : Units.Consts ℝ) (L : Limits) (S : Solutions) : Except PyErr Figure := do
  let c3Min := L.c3Min.getD 0
  let c3Max ← checked c3Min (← upper L.c3Max (S.rows.map fun s => (speeds u s).map Prod.fst))
  let vinfMin := L.vinfMin.getD 0
  let vinfMax ← upper L.vinfMax (S.rows.map fun s => (speeds u s).map Prod.snd)
  let tofMin := L.tofMin.getD 0
  let tofMax ← upper L.tofMax (S.rows.map fun s => some (timeOfFlight s))
  let vinfMax ← checked vinfMin vinfMax
  let tofMax := tofMax.getD 0
  if tofStep tofMin tofMax ≤ 0 then .error .assertionError
  else .ok (figure L (S.rows.filterMap (point u ⟨c3Min, c3Max, vinfMin, vinfMax, tofMin, tofMax⟩)))

end Verif.Porkchop
