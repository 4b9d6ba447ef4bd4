import Verif.Collapse.Model

/-! # Specification vocabulary for collapsing variants

Stated with plain sums over the variants selected by their own fields; nothing here refers to link keys, sorting, runs,
normalisation helpers or the two code paths of the model. -/

namespace Verif.Collapse.Spec

open Verif

variable {I J C K : Type} [Field K]

/-- The matrix is the `w`-weighted covariance of the samples `x` about `m`. -/
def IsCov (S : List (VRow I J C K)) (w : VRow I J C K → K) (m : Fin 6 → K) (x : VRow I J C K → Fin 6 → K)
    (M : Fin 6 → Fin 6 → K) : Prop :=
  ∀ i j, M i j = (S.map fun v => w v * ((x v i - m i) * (x v j - m j))).sum

/-- The variants of an orbit at a time. -/
def variantsAt [DecidableEq I] (vs : List (VRow I J C K)) (orbit : I) (days nanos : Int) : List (VRow I J C K) :=
  vs.filter fun v => decide (v.orbit = orbit) && decide (v.days = days) && decide (v.nanos = nanos)

/-- The variants of an orbit at a time seen from an observatory. -/
def variantsSeen [DecidableEq I] [DecidableEq C] (vs : List (VRow I J C K)) (orbit : I) (days nanos : Int) (code : C) :
    List (VRow I J C K) :=
  vs.filter fun v => decide (v.orbit = orbit) && decide (v.days = days) && decide (v.nanos = nanos) && decide (v.code = code)

/-- The variants of an object at a time seen from an observatory. -/
def objectSeen [DecidableEq J] [DecidableEq C] (vs : List (VRow I J C K)) (obj : J) (days nanos : Int) (code : C) :
    List (VRow I J C K) :=
  vs.filter fun v => decide (v.obj = obj) && decide (v.days = days) && decide (v.nanos = nanos) && decide (v.code = code)

/-- `f` are the given weights scaled to sum one; all equal when a weight is missing or they sum to zero. -/
def Scaled (S : List (VRow I J C K)) (w : VRow I J C K → Option K) (f : VRow I J C K → K) : Prop :=
  ((∀ v ∈ S, w v ≠ none) → (S.map fun v => (w v).getD 0).sum ≠ 0 →
    ∀ v ∈ S, f v * (S.map fun v => (w v).getD 0).sum = (w v).getD 0) ∧
  ((∃ v ∈ S, w v = none) ∨ (S.map fun v => (w v).getD 0).sum = 0 → ∀ v ∈ S, f v * (S.length : K) = 1)

/-- `f` are the given covariance weights scaled to sum one, or `g` when one is missing. -/
def ScaledOr (S : List (VRow I J C K)) (w : VRow I J C K → Option K) (g f : VRow I J C K → K) : Prop :=
  ((∀ v ∈ S, w v ≠ none) → ∀ v ∈ S, f v * (S.map fun v => (w v).getD 0).sum = (w v).getD 0) ∧
  ((∃ v ∈ S, w v = none) → ∀ v ∈ S, f v = g v)

/-- Mean and covariance of the variants: the longitude by the circular mean, longitudes taken near it. -/
def IsMoments (circ : List (K × K) → K) (wrap : K → K → K) (f c : VRow I J C K → K) (S : List (VRow I J C K))
    (mean : Fin 6 → K) (cov : Fin 6 → Fin 6 → K) : Prop :=
  mean 1 = circ (S.map fun v => (f v, v.state 1)) ∧
  (∀ i, i ≠ 1 → mean i = (S.map fun v => f v * v.state i).sum) ∧
  IsCov S c mean (fun v i => if i = 1 then wrap (mean 1) (v.state 1) else v.state i) cov

/-- The weighted mean of the magnitudes that are there. -/
def IsMag [LinearOrder K] (f : VRow I J C K → K) (S : List (VRow I J C K)) (mag : Option K) : Prop :=
  let den := (S.map fun v => if v.mag = none then 0 else f v).sum
  (0 < den → ∃ m, mag = some m ∧ m * den = (S.map fun v => f v * v.mag.getD 0).sum) ∧ (¬ 0 < den → mag = none)

/-- The circular mean does not depend on the order of the samples. -/
def Symmetric (circ : List (K × K) → K) : Prop := ∀ l m, l.Perm m → circ l = circ m

end Verif.Collapse.Spec
