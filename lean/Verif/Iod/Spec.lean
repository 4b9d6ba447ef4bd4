import Verif.Iod.Model

/-! # Specification vocabulary for initial orbit determination -/

namespace Verif.Iod.Spec

/-- The difference of the latest and the earliest of some times. -/
def IsArc (times : List ℚ) (a : ℚ) : Prop := ∃ lo ∈ times, ∃ hi ∈ times, a = hi - lo ∧ ∀ t ∈ times, lo ≤ t ∧ t ≤ hi

/-- What holds of every returned orbit. -/
structure Accepted {S N : Type} [DecidableEq N] (obs : List (N × ℚ)) (triples : List (List N)) (budget : ℤ) (thr : ℚ) (r : Result S N) :
    Prop where
  /-- One member row per observation, in the order given. -/
  rows : r.members.map Row.obs = obs.map Prod.fst
  /-- The reduced chi2 is within the threshold. -/
  below : r.rchi2 ≤ thr
  /-- The chi2 is that of the members not flagged as outliers. -/
  sum : r.chi2 = ((r.members.filter fun m => !m.outlier).map Row.chi2).sum
  /-- The reduced chi2 is the chi2 over the degrees of freedom of the number of observations reported. -/
  reduced : (2 * (r.numObs : ℚ) - 6) * r.rchi2 = r.chi2 ∧ 3 < r.numObs
  /-- No more outliers than allowed. -/
  budget : (((r.members.filter fun m => m.outlier).length : ℕ) : ℤ) ≤ budget
  /-- The members flagged as solution are those of one of the selected triples. -/
  triple : ∃ t ∈ triples, ∀ m ∈ r.members, m.solution = true ↔ m.obs ∈ t
  /-- No solution member is an outlier. -/
  disjoint : ∀ m ∈ r.members, ¬ (m.solution = true ∧ m.outlier = true)
  /-- The outliers are the worst members outside the triple. -/
  worst : ∀ m ∈ r.members, ∀ m' ∈ r.members, m.outlier = true → m'.outlier = false → m'.solution = false → m'.chi2 ≤ m.chi2

/-- What the orbit row says about its observations. -/
structure Consistent {S N : Type} [DecidableEq N] (obs : List (N × ℚ)) (r : Result S N) : Prop where
  numObs : r.numObs = (r.members.filter fun m => !m.outlier).length
  arc : ∃ a, r.arc = some a ∧
    IsArc ((obs.filter fun o => !decide (∃ m ∈ r.members, m.obs = o.1 ∧ m.outlier = true)).map Prod.snd) a

/-- The orbits and members found for a set of linkages, sorted. -/
structure Found {I N R S : Type} [LinearOrder I] (linkages : List I)
    (fit : I → Except PyErr (Option (Fit.Orbit I S × List (Fit.Member I N R)))) (time : N → ℤ ×ₗ ℤ)
    (out : List (Fit.Orbit I S) × List (Fit.Member I N R)) : Prop where
  orbits : ∀ o, o ∈ out.1 ↔ ∃ l ∈ linkages, ∃ o' ms, fit l = .ok (some (o', ms)) ∧ o = ⟨l, o'.numObs, o'.arc, o'.rchi2, o'.state⟩
  sorted : out.1.Pairwise fun a b => a.id < b.id
  members : ∀ m, m ∈ out.2 ↔ ∃ l ∈ linkages, ∃ o' ms, fit l = .ok (some (o', ms)) ∧ ∃ m' ∈ ms, m = ⟨l, m'.obs, m'.rest⟩
  member_order : out.2.Pairwise fun a b => a.orbit < b.orbit ∨ a.orbit = b.orbit ∧ time a.obs ≤ time b.obs

end Verif.Iod.Spec
