import Mathlib.Data.EReal.Basic
import Mathlib.Data.EReal.Operations
import Mathlib.Tactic.Linarith
import Mathlib.Tactic.NormNum

/-! # Orbit classes (orbits/classification.py)

Columns are lists; an entry is an extended real, or `none` for NaN. Arithmetic is exact. The empty table is not modelled: numpy
then makes an array of floats, which takes no strings. -/

namespace Verif.OrbitClass

open Classical

/-- An entry of a float column; `none` is NaN. Used for dynamics/kepler.py:55-72. -/
abbrev F := Option EReal

/-- `x < y`; false for NaN. Used for classification.py:45-59. -/
noncomputable def lt (x y : F) : Bool :=
  match x, y with
  | some a, some b => decide (a < b)
  | _, _ => false

/-- `x == y`; false for NaN. Used for classification.py:45-59. -/
noncomputable def eq (x y : F) : Bool :=
  match x, y with
  | some a, some b => decide (a = b)
  | _, _ => false

/-- A constant. Used for dynamics/kepler.py:34-51. -/
noncomputable def num (x : ℝ) : F := some (x : EReal)

/-- The elements of one orbit used by the classification. Used for classification.py:37-41. -/
structure Elements where
  a : F
  e : F
  q : F
  Q : F

/-- `calc_apoapsis_distance`. dynamics/kepler.py:55-72. -/
noncomputable def apoapsis (a : F) (e : ℝ) : F :=
  if e ≥ 1 then some ⊤
  else
    match a with
    | some a => some (a * ((1 + e : ℝ) : EReal))
    | none => none

/-- `calc_periapsis_distance`. dynamics/kepler.py:34-51. -/
noncomputable def periapsis (a e : ℝ) : F := num (a * (1 - e))

/-- `calc_semi_major_axis`, with the division by zero of a parabola. dynamics/kepler.py:76-93. -/
noncomputable def semiMajorAxis (q e : ℝ) : F :=
  if e = 1 then (if q > 0 then some ⊤ else if q < 0 then some ⊥ else none)
  else num (q / (1 - e))

/-- Keplerian elements `(a, e)`, finite. classification.py:37-41, coordinates/keplerian.py:76-82, 101-107. -/
noncomputable def ofKeplerian (r : ℝ × ℝ) : Elements := ⟨num r.1, num r.2, periapsis r.1 r.2, apoapsis (num r.1) r.2⟩

/-- Cometary elements `(q, e)`, finite. classification.py:31-35, coordinates/cometary.py:80-86, 105-111. -/
noncomputable def ofCometary (r : ℝ × ℝ) : Elements :=
  ⟨semiMajorAxis r.1 r.2, num r.2, num r.1, apoapsis (semiMajorAxis r.1 r.2) r.2⟩

/-- The codes. Used for classification.py:45-59. -/
inductive Code
  | AST | AMO | APO | ATE | CEN | IEO | IMB | MBA | MCA | OMB | TJN | TNO | PAA | HYA
  deriving DecidableEq, Repr

/-- `orbit_class_dict` in the order of the dict. classification.py:45-59. -/
noncomputable def rules : List (Code × (Elements → Bool)) :=
  [(.AMO, fun x => lt (num 1.0) x.a && lt (num 1.017) x.q && lt x.q (num 1.3)),
   (.APO, fun x => lt (num 1.0) x.a && lt x.q (num 1.017)),
   (.ATE, fun x => lt x.a (num 1.0) && lt (num 0.983) x.Q),
   (.CEN, fun x => lt (num 5.5) x.a && lt x.a (num 30.1)),
   (.IEO, fun x => lt x.Q (num 0.983)),
   (.IMB, fun x => lt x.a (num 2.0) && lt (num 1.666) x.q),
   (.MBA, fun x => lt (num 2.0) x.a && lt x.a (num 3.2) && lt (num 1.666) x.q),
   (.MCA, fun x => lt x.a (num 3.2) && lt (num 1.3) x.q && lt x.q (num 1.666)),
   (.OMB, fun x => lt (num 3.2) x.a && lt x.a (num 4.6)),
   (.TJN, fun x => lt (num 4.6) x.a && lt x.a (num 5.5) && lt x.e (num 0.3)),
   (.TNO, fun x => lt (num 30.1) x.a),
   (.PAA, fun x => eq x.e (num 1)),
   (.HYA, fun x => lt (num 1) x.e)]

/-- `orbit_class[v] = c`, `v` the indices where the rule holds. classification.py:60-61. -/
def assign (cls : List Code) (hit : List Bool) (c : Code) : List Code :=
  List.zipWith (fun k h => if h then c else k) cls hit

/-- `calc_orbit_class`. classification.py:9-63. -/
noncomputable def calcOrbitClass (els : List Elements) : List Code :=
  rules.foldl (fun cls r => assign cls (els.map r.2) r.1) (els.map fun _ => .AST)

end Verif.OrbitClass
