import Verif.Od.Model

/-! # Specification vocabulary for the differential correction -/

namespace Verif.Od.Spec

/-- What is used of the order of float64: a value compared with from below is a number, and `<` followed by `≤`. -/
structure FloatOrder {V : Type} (lt le : V → V → Bool) : Prop where
  number : ∀ x y, le x y = true → le y y = true
  trans : ∀ x y z, lt x y = true → le y z = true → le x z = true

/-- A well-formed call: distinct observation ids, one time, chi2 and sort position per observation, positions in
ascending order of chi2. -/
structure WellFormed {O R N V : Type} (c : Ctx O R N V) (oracle : Nat → Option (Cand O R)) : Prop where
  ids : (c.obs.map Obs.id).Nodup
  times : c.ephTimes.length = c.obs.length
  chi0 : c.chi0.length = c.obs.length
  order : c.order.Perm (List.range c.obs.length)
  sorted : c.order.Pairwise fun i j => c.chi0.getD i 0 ≤ c.chi0.getD j 0
  cands : ∀ n x, oracle n = some x → x.chi2.length = c.obs.length

/-- The number of rows with a given outlier flag. -/
def count {N : Type} (members : List (Member N)) (flag : Bool) : Nat :=
  (members.filter fun m => m.outlier == flag).length

/-- An acceptable result: the rows are the observations, flagged as solution or outlier but not both; the statistics are
those of the observations not flagged; thresholds, arc, minimum number and outlier budget are met; the outliers are the
observations that fit the input orbit worst. -/
structure Acceptable {O R N V : Type} (c : Ctx O R N V) (oracle : Nat → Option (Cand O R)) (minObs : Int) (budget : Nat)
    (fit : Fit O R V) (members : List (Member N)) : Prop where
  rows : members.map Member.obs = c.obs.map Obs.id
  flags : ∀ m ∈ members, m.solution = !m.outlier
  candidate : ∃ x, oracle fit.iterations = some x ∧ fit.orbit = x.orbit ∧ fit.resid = x.resid ∧
    fit.chi2 = (((members.zip x.chi2).filter fun p => !p.1.outlier).map Prod.snd).sum
  reduced : fit.rchi2 = c.div fit.chi2 (2 * fit.numObs - 6)
  threshold : c.le fit.rchi2 c.threshold = true
  number : fit.numObs = count members false
  enough : minObs ≤ count members false
  outliers : count members true ≤ budget
  arc : ∃ a ∈ c.obs.zip members, ∃ b ∈ c.obs.zip members, a.2.outlier = false ∧ b.2.outlier = false ∧
    fit.arc = b.1.mjd - a.1.mjd ∧
    ∀ p ∈ c.obs.zip members, p.2.outlier = false → a.1.mjd ≤ p.1.mjd ∧ p.1.mjd ≤ b.1.mjd
  longEnough : c.minArc ≤ fit.arc
  worst : ∀ p ∈ members.zip c.chi0, ∀ q ∈ members.zip c.chi0, p.1.outlier = true → q.1.outlier = false → q.2 ≤ p.2
  bounded : 1 ≤ fit.iterations ∧ fit.iterations ≤ c.maxIter * (budget + 1)
  success : fit.success = true ↔ c.le fit.rchi2 (c.div c.chi0.sum (2 * (c.obs.length : Int) - 6)) = true

/-- The normal equations of the current orbit: every observation kept enters with its own partials, weight and current
residual. -/
def OwnTerms {P W B : Type} (keep : List Bool) (partials : List P) (sigmas : List W) (current : List B) :
    List (P × W × B) :=
  (((partials.zip (sigmas.zip current)).zip keep).filter Prod.snd).map Prod.fst

end Verif.Od.Spec
