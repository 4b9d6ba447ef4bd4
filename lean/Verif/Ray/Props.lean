import Verif.Ray.Model
import Mathlib.Tactic.Common

/-! # The use of Ray: the properties -/

namespace Verif.Ray.Props

open Verif Ray

variable {Cluster : Type}

/-- Whether more than one process is asked for. -/
def Parallel : Option Int → Prop
  | none => True
  | some n => 2 ≤ n

theorem parallel_iff (cpus : Option Int) : cpus.all (1 < ·) = true ↔ Parallel cpus := by
  cases cpus with
  | none => simp [Parallel]
  | some n => simp [Parallel]; omega

theorem init_serial (R : Ray Cluster) (s : State Cluster) {cpus : Option Int} (bytes : Option Int) (kw : Kwargs) (h : ¬ Parallel cpus) :
    initializeUseRay R s cpus bytes kw = (.ok false, s) := by
  unfold initializeUseRay
  rw [if_neg ((parallel_iff _).not.mpr h)]

theorem init_connected (R : Ray Cluster) {s : State Cluster} {cpus : Option Int} (bytes : Option Int) (kw : Kwargs) (h : Parallel cpus)
    {c : Cluster} (hs : s.cluster = some c) : initializeUseRay R s cpus bytes kw = (.ok true, s) := by
  unfold initializeUseRay
  rw [if_pos ((parallel_iff _).mpr h)]
  simp only [hs]

/-- The answer is whether more than one process is asked for, and if it is yes, the process is connected to a cluster afterwards. With at
most one process Ray is not touched, whatever the other arguments. -/
theorem C166_answer (R : Ray Cluster) (s : State Cluster) (cpus bytes : Option Int) (kw : Kwargs) :
    (∀ b, (initializeUseRay R s cpus bytes kw).1 = .ok b →
      (b = true ↔ Parallel cpus) ∧ (b = true → (initializeUseRay R s cpus bytes kw).2.cluster.isSome)) ∧
    (¬ Parallel cpus → initializeUseRay R s cpus bytes kw = (.ok false, s)) := by
  refine ⟨fun b hb => ?_, init_serial R s bytes kw⟩
  by_cases h : Parallel cpus
  · cases hs : s.cluster with
    | some c =>
      rw [init_connected R bytes kw h hs] at hb ⊢
      cases hb
      exact ⟨by simp [h], fun _ => by rw [hs]; rfl⟩
    | none =>
      have auto : ∀ kw c s', initAuto R s kw = (.ok c, s') → s'.cluster.isSome := by
        intro kw c s' h
        unfold initAuto at h
        repeat' split at h
        all_goals cases h
        rfl
      have fresh : ∀ s kw c s', initFresh R s cpus bytes kw = (.ok c, s') → s'.cluster.isSome := by
        intro s kw c s' h
        unfold initFresh at h
        repeat' split at h
        all_goals cases h
        rfl
      unfold initializeUseRay at hb ⊢
      rw [if_pos ((parallel_iff _).mpr h)] at hb ⊢
      simp only [hs] at hb ⊢
      split at hb
      · rename_i c s' he
        cases hb
        exact ⟨by simp [h], fun _ => auto _ _ _ he⟩
      · split at hb
        · rename_i s' _ c s'' he
          cases hb
          exact ⟨by simp [h], fun _ => fresh _ _ _ _ he⟩
        · cases hb
      · cases hb
  · rw [init_serial R s bytes kw h] at hb ⊢
    cases hb
    simp [h]

/-- A process that is connected stays connected to the same cluster, whatever is asked for in any number of later calls, and none of them
fails. So the CPUs are those of the first call that connected it. -/
theorem C166_first (R : Ray Cluster) (s : State Cluster) (c : Cluster) (hs : s.cluster = some c) (h : List Call) :
    run R s h = s ∧ ∀ call : Call, ∃ b, initializeUseRay R (run R s h) call.cpus call.bytes call.kwargs = (.ok b, s) := by
  have one : ∀ call : Call, ∃ b, initializeUseRay R s call.cpus call.bytes call.kwargs = (.ok b, s) := by
    intro call
    by_cases hp : Parallel call.cpus
    · exact ⟨true, init_connected R _ _ hp hs⟩
    · exact ⟨false, init_serial R s _ _ hp⟩
  have hrun : run R s h = s := by
    unfold run
    induction h with
    | nil => rfl
    | cons call h ih =>
      obtain ⟨b, hb⟩ := one call
      rw [List.foldl_cons, hb]
      exact ih
  exact ⟨hrun, fun call => by rw [hrun]; exact one call⟩

/-- A process that is not connected takes a running cluster if there is one, whatever number of CPUs and bytes is asked for; only if there is
none to connect to, it starts one with these numbers. Other failures are passed on, without a second attempt. -/
theorem C166_connect (R : Ray Cluster) (s : State Cluster) (hs : s.cluster = none) (cpus bytes : Option Int) (kw : Kwargs)
    (hp : Parallel cpus) (ha : ∀ x ∈ kw, x.1 ≠ "address") (hm : ∀ x ∈ kw, x.1 ≠ "object_store_memory") :
    ∃ kw', (∀ x, x ∈ kw' ↔ x ∈ kw ∨ ((∀ y ∈ kw, y.1 ≠ "include_dashboard") ∧ x = ("include_dashboard", "False"))) ∧
    (∀ c, R.auto s.clock kw' = .ok c → initializeUseRay R s cpus bytes kw = (.ok true, ⟨some c, s.clock + 1⟩)) ∧
    (∀ e, R.auto s.clock kw' = .error e → e ≠ .connection → initializeUseRay R s cpus bytes kw = (.error e, ⟨none, s.clock + 1⟩)) ∧
    (R.auto s.clock kw' = .error .connection →
      (∀ c, R.fresh (s.clock + 1) cpus bytes kw' = .ok c → initializeUseRay R s cpus bytes kw = (.ok true, ⟨some c, s.clock + 2⟩)) ∧
      ∀ e, R.fresh (s.clock + 1) cpus bytes kw' = .error e → initializeUseRay R s cpus bytes kw = (.error e, ⟨none, s.clock + 2⟩)) := by
  have hmem : ∀ x, x ∈ setDefault kw "include_dashboard" "False" ↔
      x ∈ kw ∨ ((∀ y ∈ kw, y.1 ≠ "include_dashboard") ∧ x = ("include_dashboard", "False")) := by
    intro x
    unfold setDefault
    by_cases h : kw.any (fun x => x.1 == "include_dashboard") = true
    · rw [if_pos h]
      rw [List.any_eq_true] at h
      obtain ⟨y, hy, he⟩ := h
      have : ¬ ∀ y ∈ kw, y.1 ≠ "include_dashboard" := fun hall => hall y hy (by simpa using he)
      simp only [this, false_and, or_false]
    · rw [if_neg h]
      have : ∀ y ∈ kw, y.1 ≠ "include_dashboard" := fun y hy he => h (List.any_eq_true.mpr ⟨y, hy, by simpa using he⟩)
      rw [List.mem_append, List.mem_singleton]
      constructor
      · rintro (h | h)
        · exact Or.inl h
        · exact Or.inr ⟨this, h⟩
      · rintro (h | h)
        · exact Or.inl h
        · exact Or.inr h.2
  have hno : ∀ name, name ≠ "include_dashboard" → (∀ x ∈ kw, x.1 ≠ name) →
      (setDefault kw "include_dashboard" "False").any (fun x => x.1 == name) = false := by
    intro name hn hkw
    rw [List.any_eq_false]
    intro x hx he
    rcases (hmem x).mp hx with h | ⟨-, rfl⟩
    · exact hkw x h (by simpa using he)
    · exact hn (beq_iff_eq.mp he).symm
  have h1 := hno "address" (by decide) ha
  have h2 := hno "object_store_memory" (by decide) hm
  refine ⟨setDefault kw "include_dashboard" "False", hmem, fun c hc => ?_, fun e he hne => ?_, fun he => ⟨fun c hc => ?_, fun e hc => ?_⟩⟩ <;>
    (unfold initializeUseRay initAuto initFresh
     rw [if_pos ((parallel_iff _).mpr hp)]
     simp only [hs, h1, h2, Bool.false_eq_true, if_false])
  · simp only [hc]
  · cases e with
    | connection => exact absurd rfl hne
    | type => simp only [he]
    | other n => simp only [he]
  · simp only [he, hc]
  · simp only [he, hc]

/-- An address among the keyword arguments is a TypeError exactly if the process would have to connect. -/
theorem C166_address (R : Ray Cluster) (s : State Cluster) (cpus bytes : Option Int) (kw : Kwargs) (ha : ∃ x ∈ kw, x.1 = "address") :
    (Parallel cpus ∧ s.cluster = none → initializeUseRay R s cpus bytes kw = (.error .type, s)) ∧
    (¬ (Parallel cpus ∧ s.cluster = none) → ∃ b, initializeUseRay R s cpus bytes kw = (.ok b, s)) := by
  constructor
  · rintro ⟨hp, hs⟩
    obtain ⟨x, hx, he⟩ := ha
    have h1 : (setDefault kw "include_dashboard" "False").any (fun x => x.1 == "address") = true := by
      rw [List.any_eq_true]
      refine ⟨x, ?_, by simp [he]⟩
      unfold setDefault
      split
      · exact hx
      · exact List.mem_append_left _ hx
    unfold initializeUseRay initAuto
    rw [if_pos ((parallel_iff _).mpr hp)]
    simp only [hs, h1, if_true]
  · intro h
    by_cases hp : Parallel cpus
    · cases hs : s.cluster with
      | none => exact absurd ⟨hp, hs⟩ h
      | some c => exact ⟨true, init_connected R _ _ hp hs⟩
    · exact ⟨false, init_serial R s _ _ hp⟩

/-- A machine: a new cluster has the CPUs that are asked for, all 64 by default. `running` is the size of one that already runs. -/
def machine (running : Option Int) : Ray Int where
  auto _ _ := match running with
    | none => .error .connection
    | some n => .ok n
  fresh _ cpus _ _ := .ok (cpus.getD 64)

/-- Not true: that at most as many processes are used as asked for. A running cluster is taken as it is, and so is the one of an earlier
call. -/
theorem C166_limit_false :
    initializeUseRay (machine (some 96)) ⟨none, 0⟩ (some 2) none [] = (.ok true, ⟨some 96, 1⟩) ∧
    run (machine none) ⟨none, 0⟩ [⟨none, none, []⟩, ⟨some 2, none, []⟩] = ⟨some 64, 2⟩ ∧
    initializeUseRay (machine none) ⟨none, 0⟩ (some 2) none [] = (.ok true, ⟨some 2, 2⟩) ∧
    initializeUseRay (machine none) ⟨none, 0⟩ (some 0) none [("address", "local")] = (.ok false, ⟨none, 0⟩) := by
  refine ⟨?_, ?_, ?_, ?_⟩ <;> rfl

end Verif.Ray.Props
