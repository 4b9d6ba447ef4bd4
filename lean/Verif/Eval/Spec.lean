import Verif.Eval.Model

/-! # Specification vocabulary for the evaluation of orbits -/

namespace Verif.Eval.Spec

/-- The observations are in order of time, and of observatory at equal times. -/
def InOrder {I N Y : Type} [LinearOrder I] (observations : List (Obs I N Y)) : Prop :=
  observations.Pairwise fun a b => a.time < b.time ∨ a.time = b.time ∧ a.code ≤ b.code

/-- The residual of an observation with respect to an orbit: its own prediction, at its time and observatory. -/
def own {I S N Y Z K : Type} (predict : S → ℤ ×ₗ ℤ → I → Z) (res : Y → Z → Res K) (o : Orb I S) (b : Obs I N Y) : Res K :=
  res b.coord (predict o.state b.time b.code)

/-- Every observation is compared with its own prediction: members are the pairs in orbit-id order and observation order,
the outlier flag says whether the observation was to be ignored, chi2 is the sum over the others, reduced chi2 that sum
over the degrees of freedom left, and the arc is the time from the first to the last of them. -/
structure Pairs {I S N Y Z K : Type} [Field K] [LinearOrder I] [DecidableEq N] (predict : S → ℤ ×ₗ ℤ → I → Z) (res : Y → Z → Res K)
    (orbits : List (Orb I S)) (observations : List (Obs I N Y)) (parameters : Int) (ignore : List N)
    (fitted : List (Fitted I S K)) (members : List (Member I N (Res K))) : Prop where
  orbits : ∃ os : List (Orb I S), os.Perm orbits ∧ (os.map Orb.id).Pairwise (· < ·) ∧
    fitted.map (fun f => (f.id, f.state)) = os.map (fun o => (o.id, o.state)) ∧
    members = os.flatMap (fun o => observations.map fun b => ⟨o.id, b.id, own predict res o b, decide (b.id ∈ ignore)⟩) ∧
    ∀ (i : Nat) o f, os[i]? = some o → fitted[i]? = some f →
      let used := observations.filter fun b => !decide (b.id ∈ ignore)
      f.numObs = used.length ∧
      (used ≠ [] → ∃ first ∈ used, ∃ last ∈ used, f.arc = some (last.mjd - first.mjd) ∧
        ∀ b ∈ used, first.mjd ≤ b.mjd ∧ b.mjd ≤ last.mjd) ∧
      (used ≠ [] → f.chi2 = some (used.map fun b => (own predict res o b).chi2).sum) ∧
      ∀ r, f.reduced = some r →
        r * ((used.map fun b => (own predict res o b).dof).sum - parameters : Int) =
          (used.map fun b => (own predict res o b).chi2).sum

end Verif.Eval.Spec
