import Verif.Sigma.Model
import Verif.Collapse.Model

/-! # Model of `VariantOrbits.create` (`src/adam_core/orbits/variants.py`)

The sampling of covariances is the model `Sigma`, the way back the model `Collapse`. -/

namespace Verif.Variants

open Verif Sched

/-- A row of `Orbits`: ids, epoch, origin, physical parameters, values and covariances. Used for orbits/variants.py:79-102. -/
structure Orbit (I J O P : Type) where
  id : I
  obj : J
  days : Int
  nanos : Int
  origin : O
  phys : P
  values : Fin 6 → Option ℝ
  cov : Fin 6 → Fin 6 → Option ℝ

/-- A row of `VariantOrbits`. `variant` is the number whose decimal digits are `variant_id`. orbits/variants.py:25-32. -/
structure Variant (I J O P : Type) where
  orbit : I
  obj : J
  variant : Nat
  days : Int
  nanos : Int
  origin : O
  phys : P
  values : Fin 6 → ℝ
  weight : ℝ
  weightCov : ℝ

variable {I J O P σ : Type}

/-- The coordinates of an orbit; what travels along is kept in one value. Used for orbits/variants.py:80-88. -/
def coord (o : Orbit I J O P) : Sigma.Coord (O × Int × Int) := ⟨o.values, o.cov, (o.origin, o.days, o.nanos), (o.origin, o.days, o.nanos)⟩

/-- One row of the result: `pc.take` at the index of the sample, coordinates and weights of the sample, and the row number.
orbits/variants.py:89-102. -/
def row (orbits : List (Orbit I J O P)) (q : Sigma.Variant (O × Int × Int) × Nat) : Except PyErr (Variant I J O P) :=
  match orbits[q.1.index]? with
  | none => .error .indexError
  | some o => .ok ⟨o.id, o.obj, q.2, q.1.time.2.1, q.1.time.2.2, q.1.origin.1, o.phys, q.1.values, q.1.weight, q.1.weightCov⟩

/-- `VariantOrbits.create`. orbits/variants.py:35-102. -/
noncomputable def create (p : Sigma.Params σ) (orbits : List (Orbit I J O P))
    (h : ∀ c ∈ orbits.map coord, ∀ i j, c.cov i j = c.cov j i) : Except PyErr (List (Variant I J O P)) :=
  match Sigma.createVariants p (orbits.map coord) h with
  | .error e => .error e
  | .ok rows => gather (row orbits) rows.zipIdx

/-- A variant as a row to be collapsed. orbits/variants.py:139-182. -/
def vRow (v : Variant I J O P) : Collapse.VRow I J O ℝ :=
  ⟨v.orbit, v.obj, v.days, v.nanos, v.origin, v.values, some v.weight, some v.weightCov, none, none⟩

/-- An orbit as a row that variants are collapsed onto; its values are complete. orbits/variants.py:139-182. -/
def oRow (o : Orbit I J O P) : Collapse.ORow I O ℝ := ⟨o.id, o.days, o.nanos, o.origin, fun i => (o.values i).getD 0, none⟩

end Verif.Variants
