import Verif.Aberr.Model
import Verif.Aberr.Spec
import Mathlib.Tactic.FieldSimp
import Mathlib.Tactic.LinearCombination
import Mathlib.Tactic.Positivity

/-! # Facts about the light-time loop -/

namespace Verif.Aberr

theorem lightSpeed_pos : 0 < lightSpeed := by unfold lightSpeed; norm_num

/-- What holds after at least one round: the light time is the distance to the previous orbit, and the orbit is the argument
propagated by minus the light time. -/
def Inv (prop : State → ℝ → ℝ → State) (orbit : State) (observer : V3) (p : Loop) : Prop :=
  ∃ (prev : State) (ltPrev : ℝ), p.lt = V3.norm (V3.sub prev.1 observer) / lightSpeed ∧ p.dlt = |p.lt - ltPrev| ∧
    (∃ a, p.orbit = prop orbit a (a - p.lt)) ∧
    ((prev = orbit ∧ ltPrev = 1e30 ∧ p.iterations = 1) ∨ ((∃ a, prev = prop orbit a (a - ltPrev)) ∧ 2 ≤ p.iterations))

theorem inv_iterate_first (prop : State → ℝ → ℝ → State) (orbit : State) (observer : V3) (t0 : ℝ) :
    Inv prop orbit observer (iterate prop orbit observer ⟨orbit, t0, 1e30, 1e30, 0⟩) :=
  ⟨orbit, 1e30, rfl, rfl, ⟨t0, rfl⟩, Or.inl ⟨rfl, rfl, rfl⟩⟩

theorem inv_iterate {prop : State → ℝ → ℝ → State} {orbit : State} {observer : V3} {p : Loop}
    (h : Inv prop orbit observer p) : Inv prop orbit observer (iterate prop orbit observer p) := by
  obtain ⟨prev, l, -, -, ho, hc⟩ := h
  refine ⟨p.orbit, p.lt, rfl, rfl, ⟨p.t0, rfl⟩, Or.inr ⟨ho, ?_⟩⟩
  show 2 ≤ p.iterations + 1
  rcases hc with ⟨-, -, h⟩ | ⟨-, h⟩ <;> omega

theorem inv_loop {prop : State → ℝ → ℝ → State} {orbit : State} {observer : V3} {ltTol : ℝ} {maxLtIter : Nat} :
    ∀ (fuel : Nat) {p : Loop}, Inv prop orbit observer p →
      Inv prop orbit observer (loop prop orbit observer ltTol maxLtIter fuel p) := by
  intro fuel
  induction fuel with
  | zero => intro p h; exact h
  | succ n ih =>
    intro p h
    simp only [loop]
    split
    · exact ih (inv_iterate h)
    · exact h

/-- The loop stops because its condition is false. -/
theorem loop_stops {prop : State → ℝ → ℝ → State} {orbit : State} {observer : V3} {ltTol : ℝ} {maxLtIter : Nat} :
    ∀ (fuel : Nat) {p : Loop}, maxLtIter ≤ p.iterations + fuel → p.iterations ≤ maxLtIter →
      let q := loop prop orbit observer ltTol maxLtIter fuel p
      q.iterations ≤ maxLtIter ∧ ¬ (q.dlt > ltTol ∧ q.iterations < maxLtIter) := by
  intro fuel
  induction fuel with
  | zero => intro p h h'; simp only [loop]; exact ⟨h', fun c => absurd c.2 (by omega)⟩
  | succ n ih =>
    intro p h h'
    simp only [loop]
    split
    · rename_i hc
      exact ih (by show maxLtIter ≤ p.iterations + 1 + n; omega) (by show p.iterations + 1 ≤ maxLtIter; omega)
    · rename_i hc
      exact ⟨h', hc⟩

/-- The start, or a state with the invariant. -/
theorem result_inv (prop : State → ℝ → ℝ → State) (orbit : State) (t0 : ℝ) (observer : V3) {ltTol : ℝ} (ht : ltTol < 1e30)
    {maxLtIter : Nat} (hm : 0 < maxLtIter) :
    Inv prop orbit observer (loop prop orbit observer ltTol maxLtIter maxLtIter ⟨orbit, t0, 1e30, 1e30, 0⟩) := by
  obtain ⟨n, rfl⟩ : ∃ n, maxLtIter = n + 1 := ⟨maxLtIter - 1, by omega⟩
  simp only [loop]
  rw [if_pos ⟨ht, by omega⟩]
  exact inv_loop n (inv_iterate_first prop orbit observer t0)

/-- The number of rounds is the least with a small change, or the limit. -/
theorem loop_iterate {prop : State → ℝ → ℝ → State} {orbit : State} {observer : V3} {ltTol : ℝ} {maxLtIter : Nat} :
    ∀ (fuel : Nat) {p : Loop}, ∃ k, loop prop orbit observer ltTol maxLtIter fuel p = (iterate prop orbit observer)^[k] p ∧
      (∀ j < k, ((iterate prop orbit observer)^[j] p).dlt > ltTol) := by
  intro fuel
  induction fuel with
  | zero => intro p; exact ⟨0, rfl, fun j hj => absurd hj (by omega)⟩
  | succ n ih =>
    intro p
    simp only [loop]
    split
    · rename_i hc
      obtain ⟨k, e, h⟩ := ih (p := iterate prop orbit observer p)
      refine ⟨k + 1, by rw [e, Function.iterate_succ_apply], fun j hj => ?_⟩
      rcases j with _ | j
      · exact hc.1
      · rw [Function.iterate_succ_apply]; exact h j (by omega)
    · exact ⟨0, rfl, fun j hj => absurd hj (by omega)⟩

theorem iterations_iterate (prop : State → ℝ → ℝ → State) (orbit : State) (observer : V3) (k : Nat) (p : Loop) :
    ((iterate prop orbit observer)^[k] p).iterations = p.iterations + k := by
  induction k with
  | zero => rfl
  | succ n ih => rw [Function.iterate_succ_apply']; show _ + 1 = _; rw [ih]; rfl

end Verif.Aberr
