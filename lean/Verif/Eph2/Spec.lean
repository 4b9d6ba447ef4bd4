import Verif.Eph2.Model

/-! # Specification vocabulary for two-body ephemerides -/

namespace Verif.Eph2.Spec

variable {I S T M V C P : Type}

/-- Every number of the row is finite. -/
def AllFinite (finite : V → Bool) (o : Out V) : Prop :=
  finite o.lt = true ∧ ∀ i, finite (o.sph i) = true ∧ finite (o.aber i) = true

/-- The prediction for an (orbit, observer) pair: the kernel at the barycentric states. -/
def predict (k : Kernel I S T M V C P) (f : S × T × S × M → Out V) (p : Orb I S T C P × Obs I S) : Out V :=
  f (k.bary p.1, p.1.time, k.obsBary p.2 p.1.time, k.mu)

/-- The error names the first pair with property `bad`: its position, ids and time. -/
structure NamesFirst (ps : List (Orb I S T C P × Obs I S)) (bad : Orb I S T C P × Obs I S → Prop) (e : NumErr I T V) :
    Prop where
  here : ∃ p, ps[e.row]? = some p ∧ bad p ∧ e.orbit = p.1.id ∧ e.obj = p.1.obj ∧ e.time = p.1.time
  first : ∀ (j : Nat) p, j < e.row → ps[j]? = some p → ¬ bad p

/-- What a row shows: ids, time, observatory, numbers, covariance (a null entry reads as NaN), photometry. -/
def rowView (r : Row I T V C) : I × I × T × I × Out V × Option C × Option V × Option V :=
  (r.id, r.obj, r.time, r.code, r.out, r.cov.toMatrix, r.mag, r.alpha)

end Verif.Eph2.Spec
