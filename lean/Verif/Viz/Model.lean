import Verif.Basic
import Verif.Sched.Model
import Mathlib.Algebra.Order.Floor.Ring
import Mathlib.Data.Rat.Floor

/-! # Model of the data of impact visualisations (`src/adam_core/dynamics/plots.py`) and of the dates of porkchop plots
(`src/adam_core/missions/porkchop.py`)

Times are rational numbers of days (MJD), without rounding, in the scale of the variants: the conversion of the times of impact to that
scale is left out. -/

namespace Verif.Viz

open Verif Sched

/-- Bodies that variants collide with. Used for dynamics/plots.py:73, 87-94. -/
inductive Body
  | earth
  | moon
  | other (code : Nat)
  deriving DecidableEq

/-- A row of the propagated variants: `orbit_id`, which is the variant id, the time and the coordinates. Other columns are left out.
Used for dynamics/plots.py:43-163. -/
structure Row (I C : Type) where
  id : I
  time : ℚ
  coord : C
  deriving DecidableEq

/-- A row of `CollisionEvent`. impacts.py:84-100. -/
structure Impact (I G : Type) where
  orbit : I
  variant : Option I
  body : Body
  time : ℚ
  place : G

variable {I C G : Type} [DecidableEq I]

/-- `pc.is_in(orbit_id, impacts.variant_id)`. dynamics/plots.py:77-82, 99-101. -/
def named (impacts : List (Impact I G)) (r : Row I C) : Bool := impacts.any fun i => decide (i.variant = some r.id)

/-- `post_impact_mask`. dynamics/plots.py:105-113. -/
def after (i : Impact I G) (r : Row I C) : Bool := decide (i.variant = some r.id) && decide (i.time ≤ r.time)

/-- One impact: rows at or after it get the place of the impact on the surface at their time, and go to the end. `surface` stands for
the change of the distance to the radius of the body and the transformation to geocentric coordinates at the given time.
dynamics/plots.py:103-159. -/
def strike (surface : Body → G → ℚ → C) (rows : List (Row I C)) (i : Impact I G) : List (Row I C) :=
  rows.filter (fun r => !after i r) ++
    (rows.filter fun r => after i r).map fun r => { r with coord := surface i.body i.place r.time }

/-- The rows of one body. dynamics/plots.py:96-161. -/
def struck (surface : Body → G → ℚ → C) (impacts : List (Impact I G)) (rows : List (Row I C)) (b : Body) : List (Row I C) :=
  let onBody := impacts.filter fun i => decide (i.body = b)
  onBody.foldl (strike surface) ((rows.filter fun r => named impacts r).filter fun r => named onBody r)

/-- The dictionary returned: the rows that do not impact and, in the order of first appearance, those of every body. Used for
dynamics/plots.py:73-83, 161-163. -/
structure Prepared (I C : Type) where
  free : List (Row I C)
  bodies : List (Body × List (Row I C))

/-- `prepare_propagated_variants`. dynamics/plots.py:43-163. -/
def prepare (surface : Body → G → ℚ → C) (ecliptic : Bool) (rows : List (Row I C)) (impacts : List (Impact I G)) :
    Except PyErr (Prepared I C) :=
  if ecliptic = false then .error .assertionError
  else if (uniq (impacts.map Impact.body)).any (fun b => decide (b ≠ .earth ∧ b ≠ .moon)) then .error .valueError
  else .ok ⟨rows.filter fun r => !named impacts r, (uniq (impacts.map Impact.body)).map fun b => (b, struck surface impacts rows b)⟩

/-- `np.arange(a, b, h)`, for positive `h` and exact arithmetic. dynamics/plots.py:222-226, porkchop.py:589-593. -/
def arange (a b h : ℚ) : List ℚ := (List.range ⌈(b - a) / h⌉.toNat).map fun k : Nat => a + k * h

/-- `mjds - np.mod(mjds, h)`. dynamics/plots.py:227. -/
def floorTo (h x : ℚ) : ℚ := x - (x - h * ⌊x / h⌋)

/-- `np.min` or `np.max` of the times; ValueError without impacts. dynamics/plots.py:218-219. -/
def extreme (f : ℚ → ℚ → ℚ) : List ℚ → Except PyErr ℚ
  | [] => .error .valueError
  | t :: l => .ok (l.foldl f t)

/-- The propagation times. `step` and `range` are in minutes. Simplified: only meant for a positive `step` (with 0 `np.arange` raises).
dynamics/plots.py:216-228. -/
def times (step range : ℚ) (impacts : List (Impact I G)) : Except PyErr (List ℚ) := do
  let first ← extreme min (impacts.map Impact.time)
  let last ← extreme max (impacts.map Impact.time)
  return (arange (first - range / 60 / 24) (last + range / 60 / 24 + step / 60 / 24) (step / 60 / 24)).map (floorTo (step / 60 / 24))

/-- A row of the variants given: orbit id, variant id and state. Used for dynamics/plots.py:231-239. -/
structure Variant (I S : Type) where
  orbit : I
  id : I
  state : S

/-- The variants prepared by `generate_impact_visualization_data`: `propagate` stands for the propagator and the transformation to
geocentric coordinates, of states to all times. The nominal orbit is left out. dynamics/plots.py:203-273. -/
def generate {S : Type} (propagate : S → ℚ → C) (surface : Body → G → ℚ → C) (step range : ℚ) (variants : List (Variant I S))
    (impacts : List (Impact I G)) : Except PyErr (List ℚ × Prepared I C) :=
  if impacts.any fun i => decide (i.body ≠ .earth ∧ i.body ≠ .moon) then .error .valueError
  else do
    let ts ← times step range impacts
    let rows := variants.flatMap fun v => ts.map fun t => (⟨v.id, t, propagate v.state t⟩ : Row I C)
    let p ← prepare surface true rows impacts
    return (ts, ⟨sortBy Row.time p.free, p.bodies.map fun e => (e.1, sortBy Row.time e.2)⟩)

/-- The dates of `prepare_and_propagate_orbits`, from times in TDB. porkchop.py:588-595. -/
def dates (start stop step : ℚ) : List ℚ := arange start stop step

end Verif.Viz
