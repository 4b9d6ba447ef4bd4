import Verif.Units.Model
import Mathlib.Tactic.FieldSimp
import Mathlib.Tactic.Ring
import Mathlib.Tactic.NormNum
import Mathlib.Algebra.BigOperators.Ring.Finset
import Mathlib.Algebra.Order.Field.Rat
import Mathlib.Tactic.FinCases
import Mathlib.Tactic.LinearCombination

/-! # Units: the properties -/

namespace Verif.Units.Props

open Verif

variable {K : Type} [Field K] (c : Consts K)

/-- Lengths and speeds convert there and back. -/
theorem C46_scalars (h1 : c.kmPerAu ≠ 0) (h2 : c.secondsPerDay ≠ 0) (x : K) :
    kmToAu c (auToKm c x) = x ∧ auToKm c (kmToAu c x) = x ∧
    kmSToAuDay c (auDayToKmS c x) = x ∧ auDayToKmS c (kmSToAuDay c x) = x := by
  unfold kmToAu auToKm kmSToAuDay auDayToKmS
  refine ⟨?_, ?_, ?_, ?_⟩ <;> field_simp

/-- One au is 149597870.7 km and one day 86400 s: 1 au/day is 1731.45... km/s; a speed is a length per time. -/
theorem C46_meaning (h1 : c.kmPerAu ≠ 0) (h2 : c.secondsPerDay ≠ 0) (x t : K) (ht : t ≠ 0) :
    auToKm c 1 = c.kmPerAu ∧ auDayToKmS c (x / t) = auToKm c x / (t * c.secondsPerDay) := by
  unfold auToKm auDayToKmS
  constructor
  · ring
  · field_simp

/-- States convert there and back. -/
theorem C46_states (h1 : c.kmPerAu ≠ 0) (h2 : c.secondsPerDay ≠ 0) (v : Fin 6 → K) :
    stateToAu c (stateToKm c v) = v ∧ stateToKm c (stateToAu c v) = v := by
  constructor
  · funext i
    unfold stateToAu stateToKm
    by_cases h : i.1 < 3
    · simp only [h, if_true]; exact (C46_scalars c h1 h2 _).1
    · simp only [h, if_false]; exact (C46_scalars c h1 h2 _).2.2.1
  · funext i
    unfold stateToAu stateToKm
    by_cases h : i.1 < 3
    · simp only [h, if_true]; exact (C46_scalars c h1 h2 _).2.1
    · simp only [h, if_false]; exact (C46_scalars c h1 h2 _).2.2.2

theorem vec_state (i : Fin 6) (v : Fin 6 → K) : stateToKm c v i = vecToKm c i * v i := by
  unfold stateToKm vecToKm auToKm auDayToKmS
  fin_cases i <;> simp <;> ring

theorem vec_state' (i : Fin 6) (v : Fin 6 → K) : stateToAu c v i = vecToAu c i * v i := by
  unfold stateToAu vecToAu kmToAu kmSToAuDay
  fin_cases i <;> simp <;> ring

theorem vec_inv (h1 : c.kmPerAu ≠ 0) (h2 : c.secondsPerDay ≠ 0) (i : Fin 6) : vecToKm c i * vecToAu c i = 1 := by
  have := congrFun (C46_states c h1 h2 fun _ => 1).2 i
  rw [vec_state, vec_state'] at this
  simpa using this

/-- Covariances convert there and back. -/
theorem C46_covariances (h1 : c.kmPerAu ≠ 0) (h2 : c.secondsPerDay ≠ 0) (m : Fin 6 → Fin 6 → K) :
    covToAu c (covToKm c m) = m ∧ covToKm c (covToAu c m) = m := by
  have h := vec_inv c h1 h2
  constructor <;> (funext i j; unfold covToAu covToKm; linear_combination (m i j) * (h i * vecToKm c j * vecToAu c j + h j))

/-- The covariance conversion is the one induced by the conversion of states: the covariance of any weighted sample converts
with it. -/
theorem C46_induced {ι : Type} (s : Finset ι) (w : ι → K) (d : ι → Fin 6 → K) (i j : Fin 6) :
    covToKm c (fun i j => ∑ k ∈ s, w k * d k i * d k j) i j = ∑ k ∈ s, w k * stateToKm c (d k) i * stateToKm c (d k) j ∧
    covToAu c (fun i j => ∑ k ∈ s, w k * d k i * d k j) i j = ∑ k ∈ s, w k * stateToAu c (d k) i * stateToAu c (d k) j := by
  constructor
  · unfold covToKm
    rw [Finset.sum_mul]
    apply Finset.sum_congr rfl
    intro k _
    rw [vec_state, vec_state]
    ring
  · unfold covToAu
    rw [Finset.sum_mul]
    apply Finset.sum_congr rfl
    intro k _
    rw [vec_state', vec_state']
    ring

/-- The constants of the code. -/
example : (⟨1495978707 / 10, 86400⟩ : Consts ℚ).kmPerAu ≠ 0 ∧
    auDayToKmS (⟨1495978707 / 10, 86400⟩ : Consts ℚ) 864000 = 1495978707 := by
  unfold auDayToKmS
  constructor <;> norm_num

end Verif.Units.Props
