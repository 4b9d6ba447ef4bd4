import Verif.Sched.TwoBody

/-! # Scheduling and propagation: the properties -/

namespace Verif.Sched.Props

open Verif Spec Chunk.Spec

/-! ## C30: two-body propagation -/

section
variable {I S T M P O C : Type}

theorem take_chunk_mem {α : Type} (l : List α) (idx : List Nat) {a : α} (h : a ∈ take l idx) : a ∈ l := by
  unfold take at h
  obtain ⟨i, _, hi⟩ := List.mem_filterMap.mp h
  exact List.mem_of_getElem? hi

theorem view_flatMap (k : Kernel2 S T M C) (f : S × T × T × M → S) (hT : ∀ a, k.transport a none = none)
    (os : List (Orbit2 I S T M P O C)) (times : List T) :
    (os.flatMap fun o => times.map fun t => rowOf f o t
      (if os.all (fun o => o.cov.isNone) then .null else .matrix (k.transport (args2 o t) o.cov))).map view =
    os.flatMap fun o => times.map fun t =>
      (o.id, o.obj, o.phys, f (o.state, o.t0, t, o.mu), t, o.origin, k.transport (o.state, o.t0, t, o.mu) o.cov) := by
  have key : ∀ l : List (Orbit2 I S T M P O C), (∀ o ∈ l, o ∈ os) →
      (l.flatMap fun o => times.map fun t => rowOf f o t
        (if os.all (fun o => o.cov.isNone) then .null else .matrix (k.transport (args2 o t) o.cov))).map view =
      l.flatMap fun o => times.map fun t =>
        (o.id, o.obj, o.phys, f (o.state, o.t0, t, o.mu), t, o.origin, k.transport (o.state, o.t0, t, o.mu) o.cov) := by
    intro l
    induction l with
    | nil => intro _; rfl
    | cons o l ih =>
      intro h
      rw [List.flatMap_cons, List.flatMap_cons, List.map_append, ih fun x hx => h x (List.mem_cons_of_mem _ hx)]
      congr 1
      rw [List.map_map]
      apply List.map_congr_left
      intro t _
      simp only [Function.comp, view, rowOf, args2]
      by_cases hall : os.all (fun o => o.cov.isNone) = true
      · rw [if_pos hall]
        have := List.all_eq_true.mp hall o (h o (by simp))
        rw [Option.isNone_iff_eq_none.mp this, hT]
      · rw [if_neg hall]
  exact key os fun _ h => h

/-- For every number of orbits and times, every chunk size, number of processes and completion order, `propagate_2body`
returns one row per (orbit, time) pair in orbit-major order, with the ids, physical parameters and origin of that orbit,
the propagated state and the transported covariance of that pair. -/
theorem C30_pairs (k : Kernel2 S T M C) (f : S × T × T × M → S) (hF : Rowwise k.F f)
    (hT : ∀ a, k.transport a none = none) (pick : Nat → Nat) (orbits : List (Orbit2 I S T M P O C)) (times : List T)
    (maxProc chunk : Int) (hc : 0 < chunk)
    (hg : ∀ o ∈ orbits, ∀ t ∈ times, k.badIn o.state = false ∧ k.badOut (f (o.state, o.t0, t, o.mu)) = false) :
    ∃ rows, propagate2 k pick orbits times maxProc chunk = .ok rows ∧
      rows.map view = orbits.flatMap fun o => times.map fun t =>
        (o.id, o.obj, o.phys, f (o.state, o.t0, t, o.mu), t, o.origin, k.transport (o.state, o.t0, t, o.mu) o.cov) := by
  unfold propagate2
  by_cases hm : maxProc ≤ 1
  · rw [if_pos hm]
    exact ⟨_, serial2_ok k hF orbits times hg, view_flatMap k f hT orbits times⟩
  · rw [if_neg hm, chunks_range orbits hc]
    simp only
    have hcn : 0 < chunk.toNat := by omega
    let h : Nat → List Nat := fun i => ((List.range orbits.length).drop i).take chunk.toNat
    let R : List (Orbit2 I S T M P O C) → List (Row2 I S T P O C) := fun os =>
      os.flatMap fun o => times.map fun t => rowOf f o t
        (if os.all (fun o => o.cov.isNone) then .null else .matrix (k.transport (args2 o t) o.cov))
    rw [runTasks_ok (g := fun idx => (idx.headD 0, R (take orbits idx))) _ _ (by
      intro idx _
      unfold work2
      rw [serial2_ok k hF (take orbits idx) times fun o ho => hg o (take_chunk_mem _ _ ho)])]
    simp only
    refine ⟨_, rfl, ?_⟩
    have hmap : (Chunk.rangeFrom 0 orbits.length chunk.toNat).map
        (fun i => ((List.range orbits.length).drop i).take chunk.toNat) =
        (Chunk.rangeFrom 0 orbits.length chunk.toNat).map h := rfl
    rw [hmap, runAll_map, List.map_map]
    have hd := runAll_perm (atLeast maxProc.toNat) pick (Chunk.rangeFrom 0 orbits.length chunk.toNat)
    have hhead : ∀ i ∈ (runAll (atLeast maxProc.toNat) pick (Chunk.rangeFrom 0 orbits.length chunk.toNat)).done,
        ((fun idx : List Nat => (idx.headD 0, R (take orbits idx))) ∘ h) i = (i, R (take orbits (h i))) := by
      intro i hi
      have hlt := (Chunk.mem_rangeFrom hcn (hd.mem_iff.mp hi)).2
      simp only [Function.comp, h]
      congr 1
      rw [List.headD_eq_head?_getD, List.head?_take, if_neg (by omega), List.head?_drop,
        List.getElem?_range hlt]
      rfl
    rw [List.map_congr_left hhead, dict_sorted _ (rangeFrom_sorted _ _ hcn 0) (fun i => R (take orbits (h i))) _ hd]
    rw [List.flatMap_map, List.map_flatMap]
    have hcongr : ∀ i, (R (take orbits (h i))).map view = (take orbits (h i)).flatMap fun o => times.map fun t =>
        (o.id, o.obj, o.phys, f (o.state, o.t0, t, o.mu), t, o.origin, k.transport (o.state, o.t0, t, o.mu) o.cov) :=
      fun i => view_flatMap k f hT _ times
    simp only [hcongr]
    conv_rhs => rw [← chunks_take_flatten orbits hcn]
    rw [List.flatMap_def, List.flatMap_def, List.map_flatten, List.flatten_flatten, List.map_map, List.map_map]
    rfl

/-- If some pair is not finite (input state or propagated state), the call fails with the numerical error, whatever the
chunk size, number of processes and completion order; no result is returned and no other error occurs. -/
theorem C30_failure (k : Kernel2 S T M C) (f : S × T × T × M → S) (hF : Rowwise k.F f) (pick : Nat → Nat)
    (orbits : List (Orbit2 I S T M P O C)) (times : List T) (maxProc chunk : Int) (hc : 0 < chunk)
    (hb : ∃ o ∈ orbits, ∃ t ∈ times, k.badIn o.state = true ∨ k.badOut (f (o.state, o.t0, t, o.mu)) = true) :
    ∃ j, propagate2 k pick orbits times maxProc chunk = .error (.inr j) := by
  unfold propagate2
  by_cases hm : maxProc ≤ 1
  · rw [if_pos hm]
    exact serial2_bad k hF orbits times hb
  · rw [if_neg hm, chunks_range orbits hc]
    simp only
    have hcn : 0 < chunk.toNat := by omega
    obtain ⟨o, ho, t, ht, hb⟩ := hb
    have hfl := chunks_take_flatten orbits hcn
    have ho' : o ∈ ((Chunk.rangeFrom 0 orbits.length chunk.toNat).map fun i =>
      take orbits (((List.range orbits.length).drop i).take chunk.toNat)).flatten := by rw [hfl]; exact ho
    obtain ⟨os, hos, hoo⟩ := List.mem_flatten.mp ho'
    obtain ⟨i, hi, rfl⟩ := List.mem_map.mp hos
    have hserial : ∀ os : List (Orbit2 I S T M P O C), ∀ e, serial2 k os times = .error e → ∃ j, e = .inr j := by
      intro os e he
      by_cases hall : ∀ o ∈ os, ∀ t ∈ times, k.badIn o.state = false ∧ k.badOut (f (args2 o t)) = false
      · rw [serial2_ok k hF os times hall] at he; cases he
      · push Not at hall
        obtain ⟨o, ho, t, ht, h⟩ := hall
        have hor : k.badIn o.state = true ∨ k.badOut (f (args2 o t)) = true := by
          cases h1 : k.badIn o.state
          · right; have := h h1; simpa using this
          · exact .inl rfl
        obtain ⟨j, hj⟩ := serial2_bad k hF os times ⟨o, ho, t, ht, hor⟩
        rw [hj] at he
        injection he with he
        exact ⟨j, he.symm⟩
    obtain ⟨j, hj⟩ := serial2_bad k hF (take orbits (((List.range orbits.length).drop i).take chunk.toNat)) times
      ⟨o, hoo, t, ht, hb⟩
    have hwork : work2 k orbits times (((List.range orbits.length).drop i).take chunk.toNat) = .error (.inr j) := by
      simp only [work2, hj]
    obtain ⟨e, he⟩ := runTasks_error (work := work2 k orbits times) (atLeast maxProc.toNat) pick
      (tasks := (Chunk.rangeFrom 0 orbits.length chunk.toNat).map fun i =>
        ((List.range orbits.length).drop i).take chunk.toNat)
      (List.mem_map.mpr ⟨i, hi, rfl⟩) ⟨_, hwork⟩
    obtain ⟨idx, _, hidx⟩ := gather_error_of he
    have : ∃ j, e = .inr j := by
      simp only [work2] at hidx
      cases hs : serial2 k (take orbits idx) times with
      | ok r => rw [hs] at hidx; cases hidx
      | error e' =>
        rw [hs] at hidx
        injection hidx with h
        obtain ⟨j, hj⟩ := hserial _ _ hs
        exact ⟨j, by rw [← h, hj]⟩
    obtain ⟨j', rfl⟩ := this
    exact ⟨j', by rw [he]⟩

/-- The rows as stored do depend on the chunk size: an orbit without covariance gets a null entry when its whole chunk has
none and a NaN matrix when another orbit of the chunk has one. -/
theorem C30_null_entries_false :
    ¬ ∀ (k : Kernel2 Nat Nat Nat Nat) (pick : Nat → Nat) (orbits : List (Orbit2 Nat Nat Nat Nat Nat Nat Nat))
        (times : List Nat) (maxProc chunk : Int), 0 < chunk →
        propagate2 k pick orbits times maxProc chunk = propagate2 k pick orbits times 1 100 := by
  intro h
  have := h ⟨fun l => l.map (·.1), fun _ => false, fun _ => false, fun _ c => c, (0, 0, 0, 0), 0⟩ (fun _ => 0)
    [⟨0, 0, 0, 0, 0, 0, 0, none⟩, ⟨1, 0, 0, 0, 0, 0, 0, some 5⟩] [7] 2 1 (by decide)
  have h2 := congrArg (fun r => match r with
    | .ok (⟨_, _, _, _, _, _, .null⟩ :: _) => true
    | _ => false) this
  revert h2
  decide +kernel

/-- The hypotheses of `C30_pairs` are met by a kernel that shifts states by the elapsed time, three orbits, two times. -/
example : (match propagate2 (⟨fun l => l.map fun a => a.1 + (a.2.2.1 - a.2.1) * a.2.2.2, fun s => decide (s = 99),
      fun s => decide (s = 99), fun _ c => c, (0, 0, 0, 0), 0⟩ : Kernel2 Int Int Int Int) (fun n => 3 * n + 1)
      ([⟨0, 0, 1, 0, 2, 0, 10, none⟩, ⟨1, 0, 2, 1, 3, 0, 10, some 4⟩, ⟨2, 0, 3, 5, 1, 0, 399, none⟩] :
        List (Orbit2 Nat Int Int Int Int Nat Int)) [10, 20] 2 1 with
      | .ok rows => rows.map fun r => (r.id, r.state, r.time)
      | .error _ => []) =
        [(0, 21, 10), (0, 41, 20), (1, 29, 10), (1, 59, 20), (2, 8, 10), (2, 18, 20)] := by
  decide +kernel

end

end Verif.Sched.Props
