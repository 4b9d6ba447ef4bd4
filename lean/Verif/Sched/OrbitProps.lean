import Verif.Sched.Orbits
import Mathlib.Tactic.NormNum

/-! # `propagate_orbits`, `generate_ephemeris`, origins and completion order: the properties -/

namespace Verif.Sched.Props

open Verif Spec

section c25
variable {I O S X C : Type} [LinearOrder I] [DecidableEq O] (E : Engine I O S X C) (good : Orb I O S → Prop)
  (f : Orb I O S → (ℤ ×ₗ ℤ) → Row I X C)

/-- The same table for every completion order, chunk size and number of processes (including none): exactly one row per
orbit and time, in that orbit's input origin, sorted by orbit id, (variant id,) and time. Rows for the same id, (variant)
and time must be identical, as they are when the ids are distinct (`C25_distinct_ids`). -/
theorem C25_schedule (hI : Independent E.backend good f) (hid : ∀ o t, (f o t).id = o.id)
    (hre : ∀ r, (E.rescale r).id = r.id) (isVar : Bool) (orbits : List (Orb I O S)) (times : List (ℤ ×ₗ ℤ))
    (hne : orbits ≠ []) (hg : ∀ o ∈ orbits, good o)
    (hcons : ∀ a ∈ orbits, ∀ b ∈ orbits, a.id = b.id → a.origin = b.origin)
    (hcoh : Coherent (RowSame isVar)
      (orbits.flatMap fun o => times.map fun t => E.toOrigin o.origin (E.rescale (f o t)))) :
    ∃ table : List (Row I X C),
      table.Perm (orbits.flatMap fun o => times.map fun t => E.toOrigin o.origin (E.rescale (f o t))) ∧
      table.Pairwise (RowLe isVar) ∧
      ∀ (pick : Nat → Nat) (chunk maxProc : Int), 0 < chunk →
        propagateOrbits E pick isVar orbits times false chunk maxProc = .ok table := by
  refine ⟨sortBy (rowKey isVar) (orbits.flatMap fun o => times.map fun t => E.toOrigin o.origin (E.rescale (f o t))),
    sortBy_perm _ _, (sortBy_sorted _ _).imp fun h => (rowKey_le isVar _ _).mp h, ?_⟩
  intro pick chunk maxProc hc
  obtain ⟨out, h1, h2⟩ := propagate_plain hI hid hre pick isVar orbits times false (by simp) chunk maxProc hc hne hg hcons
  rw [h1, sortBy_congr (rowKey isVar) h2]
  intro a ha b hb hab
  exact hcoh a (h2.mem_iff.mp ha) b (h2.mem_iff.mp hb) ((rowKey_eq isVar a b).mp hab)

/-- With distinct orbit ids (variant ids within an orbit for variants), a backend that stamps each row with the requested
time, and any times, repeated or not, the result does not depend on the schedule. -/
theorem C25_distinct_ids (hI : Independent E.backend good f)
    (hid : ∀ o t c, (f o t).id = o.id ∧ (E.rescale (f o t)).id = o.id ∧ (E.toOrigin c (E.rescale (f o t))).id = o.id)
    (hvar : ∀ o t c, (E.toOrigin c (E.rescale (f o t))).variant = o.variant)
    (htime : ∀ o t c, (E.toOrigin c (E.rescale (f o t))).time = t)
    (hre : ∀ r, (E.rescale r).id = r.id) (isVar : Bool) (orbits : List (Orb I O S)) (times : List (ℤ ×ₗ ℤ))
    (hne : orbits ≠ []) (hg : ∀ o ∈ orbits, good o)
    (hcons : ∀ a ∈ orbits, ∀ b ∈ orbits, a.id = b.id → a.origin = b.origin)
    (hdist : ∀ a ∈ orbits, ∀ b ∈ orbits, a.id = b.id → (isVar = true → a.variant = b.variant) → a = b) :
    ∃ table : List (Row I X C),
      table.Perm (orbits.flatMap fun o => times.map fun t => E.toOrigin o.origin (E.rescale (f o t))) ∧
      table.Pairwise (RowLe isVar) ∧
      ∀ (pick : Nat → Nat) (chunk maxProc : Int), 0 < chunk →
        propagateOrbits E pick isVar orbits times false chunk maxProc = .ok table := by
  refine C25_schedule E good f hI (fun o t => (hid o t o.origin).1) hre isVar orbits times hne hg hcons ?_
  intro a ha b hb ⟨h1, h2, h3⟩
  obtain ⟨o, ho, ha⟩ := List.mem_flatMap.mp ha
  obtain ⟨t, ht, rfl⟩ := List.mem_map.mp ha
  obtain ⟨o', ho', hb⟩ := List.mem_flatMap.mp hb
  obtain ⟨t', ht', rfl⟩ := List.mem_map.mp hb
  rw [(hid o t _).2.2, (hid o' t' _).2.2] at h1
  rw [hvar, hvar] at h2
  rw [htime, htime] at h3
  rw [hdist o ho o' ho' h1 h2, h3]

/-- With covariances requested, too: each row's covariance is computed from one table of variant rows, sorted by orbit id,
variant id and time, restricted to the rows linked to it, whatever the schedule. -/
theorem C25_covariance (hI : Independent E.backend good f) (hid : ∀ o t, (f o t).id = o.id)
    (hre : ∀ r, (E.rescale r).id = r.id) (orbits vs : List (Orb I O S)) (times : List (ℤ ×ₗ ℤ))
    (hne : orbits ≠ []) (hnt : times ≠ []) (hg : ∀ o ∈ orbits, good o) (hnan : E.allNan orbits = false)
    (hcr : E.create orbits = .ok vs) (hvs : vs ≠ []) (hgv : ∀ o ∈ vs, good o)
    (hcons : ∀ a ∈ orbits, ∀ b ∈ orbits, a.id = b.id → a.origin = b.origin)
    (hvcoh : Coherent (RowSame true) (vs.flatMap fun o => times.map (f o)))
    (hcoh : ∀ w : Row I X C → C, Coherent (RowSame false) (orbits.flatMap fun o => times.map fun t =>
      E.toOrigin o.origin (E.rescale { f o t with cov := some (w (f o t)) }))) :
    ∃ V table : List (Row I X C), V.Perm (vs.flatMap fun o => times.map (f o)) ∧ V.Pairwise (RowLe true) ∧
      table.Perm (orbits.flatMap fun o => times.map fun t => E.toOrigin o.origin (E.rescale
        { f o t with cov := some (E.weighted (f o t) (V.filter fun v => decide (Linked v (f o t)))) })) ∧
      table.Pairwise (RowLe false) ∧
      ∀ (pick : Nat → Nat) (chunk maxProc : Int), 0 < chunk →
        propagateOrbits E pick false orbits times true chunk maxProc = .ok table := by
  let V := sortBy (rowKey true) (vs.flatMap fun o => times.map (f o))
  have hV : V.Perm (vs.flatMap fun o => times.map (f o)) := sortBy_perm _ _
  have hlink : ∀ r : Row I X C, (V.filter fun v => decide (linkKey v = linkKey r)) =
      V.filter fun v => decide (Linked v r) := by
    intro r
    congr 1
    funext v
    unfold linkKey Linked
    simp only [Prod.mk.injEq]
  have hwc : ∀ r : Row I X C, withCov E.weighted V r =
      { r with cov := some (E.weighted r (V.filter fun v => decide (Linked v r))) } := by
    intro r
    unfold withCov
    rw [hlink]
  refine ⟨V, sortBy (rowKey false) (orbits.flatMap fun o => times.map fun t => E.toOrigin o.origin (E.rescale
        { f o t with cov := some (E.weighted (f o t) (V.filter fun v => decide (Linked v (f o t)))) })),
    hV, (sortBy_sorted _ _).imp fun h => (rowKey_le true _ _).mp h, sortBy_perm _ _,
    (sortBy_sorted _ _).imp fun h => (rowKey_le false _ _).mp h, ?_⟩
  intro pick chunk maxProc hc
  obtain ⟨out, h1, h2⟩ := propagate_cov hI hid hre pick orbits vs times hnan hcr hvs chunk maxProc hc hne hnt hg hgv hcons
    V hV (sortBy_sorted _ _) (by
      intro a ha b hb hab
      exact hvcoh a (hV.mem_iff.mp ha) b (hV.mem_iff.mp hb) ((rowKey_eq true a b).mp hab))
  simp only [hwc] at h2
  rw [h1, sortBy_congr (rowKey false) h2]
  intro a ha b hb hab
  exact hcoh (fun r => E.weighted r (V.filter fun v => decide (Linked v r))) a (h2.mem_iff.mp ha) b (h2.mem_iff.mp hb)
    ((rowKey_eq false a b).mp hab)

/-- Repeated ids: the rows are still the same up to order and sorted by the keys, for any two schedules. -/
theorem C25_rearrangement (hI : Independent E.backend good f) (hid : ∀ o t, (f o t).id = o.id)
    (hre : ∀ r, (E.rescale r).id = r.id) (isVar : Bool) (orbits : List (Orb I O S)) (times : List (ℤ ×ₗ ℤ))
    (hne : orbits ≠ []) (hg : ∀ o ∈ orbits, good o)
    (hcons : ∀ a ∈ orbits, ∀ b ∈ orbits, a.id = b.id → a.origin = b.origin) (pick : Nat → Nat) (chunk maxProc : Int)
    (hc : 0 < chunk) :
    ∃ table : List (Row I X C), propagateOrbits E pick isVar orbits times false chunk maxProc = .ok table ∧
      table.Perm (orbits.flatMap fun o => times.map fun t => E.toOrigin o.origin (E.rescale (f o t))) ∧
      table.Pairwise (RowLe isVar) := by
  obtain ⟨out, h1, h2⟩ := propagate_plain hI hid hre pick isVar orbits times false (by simp) chunk maxProc hc hne hg hcons
  exact ⟨_, h1, (sortBy_perm _ _).trans h2, (sortBy_sorted _ _).imp fun h => (rowKey_le isVar _ _).mp h⟩

/-- A failing orbit makes the call raise under every schedule. -/
theorem C25_failure (hI : Independent E.backend good f) (pick : Nat → Nat) (isVar : Bool) (orbits : List (Orb I O S))
    (times : List (ℤ ×ₗ ℤ)) (covariance : Bool) (chunk maxProc : Int) (hc : 0 < chunk) (o : Orb I O S) (ho : o ∈ orbits)
    (hb : ¬ good o) : ∃ e, propagateOrbits E pick isVar orbits times covariance chunk maxProc = .error e :=
  propagate_error hI pick isVar orbits times covariance chunk maxProc hc o ho hb

/-- No orbits: every call raises (with workers for lack of tables to concatenate, in process for lack of an origin). -/
theorem C25_empty (pick : Nat → Nat) (isVar : Bool) (times : List (ℤ ×ₗ ℤ)) (chunk maxProc : Int) (hc : 0 < chunk) :
    ∃ e, propagateOrbits E pick isVar [] times false chunk maxProc = .error e := by
  unfold propagateOrbits
  rw [if_neg (by simp)]
  simp only
  split
  · rw [chunkTasks_eq false [] hc]
    simp only [List.length_nil]
    rw [Chunk.rangeFrom_done (le_refl 0)]
    simp only [Bool.false_and, Bool.false_eq_true, if_false, List.map_nil]
    exact ⟨.valueError, rfl⟩
  · cases hb : E.backend [] (sortBy id times) with
    | error e => exact ⟨e, rfl⟩
    | ok rows => exact ⟨.attributeError, rfl⟩

end c25

/-- A small engine: the state of an orbit is carried along unchanged. -/
def exEngine : Engine Nat Nat Nat (Nat × Nat) Nat where
  backend os ts := .ok (os.flatMap fun o => ts.map fun t => ⟨o.id, o.variant, t, none, (o.state, 0)⟩)
  create os := .ok (os.flatMap fun o => [{ o with variant := (0 : Nat) }, { o with variant := (1 : Nat), state := o.state + 1 }])
  allNan _ := false
  weighted r vs := vs.length * 100 + r.state.1
  rescale r := r
  toOrigin c r := { r with state := (r.state.1, c) }

theorem exEngine_independent : Independent exEngine.backend (fun _ => True)
    (fun o t => ⟨o.id, o.variant, t, none, (o.state, 0)⟩) :=
  ⟨fun _ _ _ => ⟨_, rfl, List.Perm.refl _⟩, fun _ _ _ _ h => absurd trivial h⟩

/-- The hypotheses of `C25_distinct_ids` hold for three orbits with two origins. -/
example := C25_distinct_ids exEngine (fun _ => True) (fun o t => ⟨o.id, o.variant, t, none, (o.state, 0)⟩)
  exEngine_independent (fun _ _ _ => ⟨rfl, rfl, rfl⟩) (fun _ _ _ => rfl) (fun _ _ _ => rfl) (fun _ => rfl) false
  [⟨3, ⊤, 10, 7⟩, ⟨1, ⊤, 399, 8⟩, ⟨2, ⊤, 10, 9⟩] [toLex (59001, 5), toLex (59000, 0)] (by simp) (by simp) (by decide) (by decide)

/-- The hypotheses of `C25_covariance` hold for two orbits with two variants each and two times. -/
example := C25_covariance exEngine (fun _ => True) (fun o t => ⟨o.id, o.variant, t, none, (o.state, 0)⟩)
  exEngine_independent (fun _ _ => rfl) (fun _ => rfl) [⟨3, ⊤, 10, 7⟩, ⟨1, ⊤, 399, 8⟩] _
  [toLex (59001, 5), toLex (59000, 0)] (by simp) (by simp) (by simp) rfl rfl (by simp) (by simp) (by decide)
  (by
    intro a ha b hb ⟨h1, h2, h3⟩
    simp only [List.flatMap_cons, List.flatMap_nil, List.map_cons, List.map_nil, List.append_nil, List.cons_append,
      List.nil_append, List.mem_cons, List.not_mem_nil, or_false] at ha hb
    rcases ha with rfl | rfl | rfl | rfl | rfl | rfl | rfl | rfl <;>
      rcases hb with rfl | rfl | rfl | rfl | rfl | rfl | rfl | rfl <;>
      first
        | rfl
        | (exfalso; revert h1 h2 h3; decide))
  (by
    intro w a ha b hb ⟨h1, h2, h3⟩
    simp only [List.flatMap_cons, List.flatMap_nil, List.map_cons, List.map_nil, List.append_nil, List.cons_append,
      List.nil_append, List.mem_cons, List.not_mem_nil, or_false] at ha hb
    rcases ha with rfl | rfl | rfl | rfl <;> rcases hb with rfl | rfl | rfl | rfl <;>
      first
        | rfl
        | (exfalso; revert h1 h3; simp [exEngine]))

/-- With repeated ids the order of the rows does depend on the completion order. -/
theorem C25_ties_order_false :
    ¬ ∀ (orbits : List (Orb Nat Nat Nat)) (times : List (ℤ ×ₗ ℤ)) (pick pick' : Nat → Nat) (chunk maxProc : Int), 0 < chunk →
        (∀ a ∈ orbits, ∀ b ∈ orbits, a.id = b.id → a.origin = b.origin) →
        propagateOrbits exEngine pick false orbits times false chunk maxProc =
          propagateOrbits exEngine pick' false orbits times false chunk maxProc := by
  intro h
  have := h [⟨1, ⊤, 10, 7⟩, ⟨1, ⊤, 10, 8⟩] [toLex (59000, 0)] (fun _ => 0) (fun _ => 1) 1 2 (by decide) (by decide)
  have h2 := congrArg (fun r => match r with
    | .ok (r :: _) => r.state.1
    | _ => 0) this
  revert h2
  decide +kernel

/-! ## C28: restoring the input origins -/

section c28
variable {I O S X C : Type} [LinearOrder I] [DecidableEq O] (toOrigin : O → Row I X C → Row I X C)

/-- One origin per orbit id and no foreign rows: each result row comes back exactly once, expressed in the origin of the
input orbit with its id. -/
theorem C28_one_row_each (inputs : List (Orb I O S)) (results : List (Row I X C)) (hne : inputs ≠ [])
    (hcons : ∀ a ∈ inputs, ∀ b ∈ inputs, a.id = b.id → a.origin = b.origin) (own : Row I X C → Orb I O S)
    (hown : ∀ r ∈ results, own r ∈ inputs ∧ (own r).id = r.id) :
    ∃ out, ensureOrigin toOrigin inputs results = .ok out ∧
      out.Perm (results.map fun r => toOrigin (own r).origin r) :=
  ensureOrigin_labelled toOrigin inputs hne hcons results own id (fun r hr => (hown r hr).1)
    (fun r hr => (hown r hr).2.symm) results (by simp)

/-- In general a result row comes back once for every distinct origin among the input orbits with its id. -/
theorem C28_general (inputs : List (Orb I O S)) (results : List (Row I X C)) (hne : inputs ≠ []) :
    ∃ out, ensureOrigin toOrigin inputs results = .ok out ∧
      ∃ origins : I → List O, (∀ i, (origins i).Nodup ∧ ∀ c, c ∈ origins i ↔ ∃ o ∈ inputs, o.id = i ∧ o.origin = c) ∧
        out.Perm (results.flatMap fun r => (origins r.id).map fun c => toOrigin c r) := by
  obtain ⟨out, h1, h2⟩ := ensureOrigin_rows toOrigin inputs results hne
  refine ⟨out, h1, fun i => (uniq (inputs.map Orb.origin)).filter fun c => decide (∃ o ∈ inputs, o.origin = c ∧ o.id = i),
    ?_, h2⟩
  intro i
  refine ⟨(nodup_uniq _).filter _, ?_⟩
  intro c
  rw [List.mem_filter, mem_uniq, decide_eq_true_iff]
  constructor
  · rintro ⟨_, o, ho, h, hi⟩; exact ⟨o, ho, hi, h⟩
  · rintro ⟨o, ho, hi, h⟩; exact ⟨List.mem_map.mpr ⟨o, ho, h⟩, o, ho, h, hi⟩

end c28

/-- Two orbits with the same id and different origins: the number of rows changes. -/
theorem C28_duplicated_false :
    ¬ ∀ (inputs : List (Orb Nat Nat Nat)) (results out : List (Row Nat (Nat × Nat) Nat)),
        (∀ r ∈ results, ∃ o ∈ inputs, o.id = r.id) →
        ensureOrigin exEngine.toOrigin inputs results = .ok out → out.length = results.length := by
  intro h
  have := h [⟨1, ⊤, 10, 7⟩, ⟨1, ⊤, 399, 8⟩] [⟨1, ⊤, toLex (0, 0), none, (5, 0)⟩] _ (by simp) rfl
  revert this
  decide +kernel

/-- Rows whose id is not among the inputs are dropped. -/
theorem C28_dropped_false :
    ¬ ∀ (inputs : List (Orb Nat Nat Nat)) (results out : List (Row Nat (Nat × Nat) Nat)), inputs ≠ [] →
        ensureOrigin exEngine.toOrigin inputs results = .ok out → out.length = results.length := by
  intro h
  have := h [⟨1, ⊤, 10, 7⟩] [⟨2, ⊤, toLex (0, 0), none, (5, 0)⟩] _ (by simp) rfl
  revert this
  decide +kernel

/-- The hypotheses of `C28_one_row_each` hold for two orbits with different origins and four rows. -/
example := C28_one_row_each exEngine.toOrigin [(⟨1, ⊤, 10, 7⟩ : Orb Nat Nat Nat), ⟨2, ⊤, 399, 8⟩]
  [⟨2, ⊤, toLex (0, 0), none, (5, 0)⟩, ⟨1, ⊤, toLex (0, 0), none, (6, 0)⟩, ⟨2, ⊤, toLex (1, 0), none, (7, 0)⟩] (by simp)
  (by decide) (fun r => if r.id = 1 then ⟨1, ⊤, 10, 7⟩ else ⟨2, ⊤, 399, 8⟩) (by
    intro r hr
    simp only [List.mem_cons, List.not_mem_nil, or_false] at hr
    rcases hr with rfl | rfl | rfl <;> simp)

/-! ## C26: ephemerides -/

section c26

/-- Every submitted task is collected exactly once, none is left outstanding, and never more than `1.5 * max_processes`
(rounded up) are outstanding at a time. -/
theorem C26_throttle {α : Type} (pick : Nat → Nat) (maxProc : Nat) (hm : 0 < maxProc) (tasks : List α) :
    (runAll (atLeast maxProc) pick tasks).done.Perm tasks ∧ (runAll (atLeast maxProc) pick tasks).pending = [] ∧
    2 * (runAll (atLeast maxProc) pick tasks).peak ≤ 3 * maxProc + 1 := by
  refine ⟨runAll_perm _ _ _, runAll_pending _ _ _, ?_⟩
  have := runAll_peak (atLeast maxProc) pick ((3 * maxProc + 1) / 2 - 1) (by
    intro n hn
    unfold atLeast
    rw [decide_eq_true_iff]
    omega) tasks
  omega

variable {I O S Y Z : Type} [LinearOrder I]
  (worker : List (Orb I O S) → List (Obs I Y) → Except PyErr (List (Eph I Z))) (good : Orb I O S → Prop)
  (f : Orb I O S → Obs I Y → Eph I Z) (rescale : Eph I Z → Eph I Z)

theorem generate_rows (hI : Independent worker good f) (pick : Nat → Nat) (isVar : Bool) (orbits : List (Orb I O S))
    (observers : List (Obs I Y)) (chunk maxProc : Int) (hc : 0 < chunk) (hm : 1 < maxProc) (hg : ∀ o ∈ orbits, good o) :
    ∃ rows, generateEphemeris worker rescale pick isVar orbits observers chunk maxProc =
        .ok ((sortBy (ephKey isVar) rows).map rescale) ∧
      rows.Perm (orbits.flatMap fun o => observers.map (f o)) := by
  classical
  unfold generateEphemeris
  rw [if_pos hm]
  have hec : 0 < effectiveChunk orbits.length chunk maxProc.toNat := by
    unfold effectiveChunk
    split
    · exact lt_min hc (lt_of_lt_of_le (by norm_num) (le_max_left _ _))
    · exact hc
  cases htk : chunkTasks isVar orbits (effectiveChunk orbits.length chunk maxProc.toNat) with
  | error e => rw [chunkTasks_eq isVar orbits hec] at htk; cases htk
  | ok tasks =>
    obtain ⟨hflat, _, _⟩ := chunkTasks_flat isVar orbits hec htk
    simp only
    have hch : ∀ t : Task I O S, ∃ rows, t ∈ tasks → worker t.rows observers = .ok rows ∧
        rows.Perm (t.rows.flatMap fun o => observers.map (f o)) := by
      intro t
      by_cases ht : t ∈ tasks
      · obtain ⟨rows, h1, h2⟩ := hI.ok t.rows observers fun o ho => hg o (by
          rw [← hflat]; exact List.mem_flatMap.mpr ⟨t, ht, ho⟩)
        exact ⟨rows, fun _ => ⟨h1, h2⟩⟩
      · exact ⟨[], fun h => absurd h ht⟩
    choose g hgs using hch
    rw [runTasks_ok (g := g) _ _ fun t ht => (hgs t ht).1]
    refine ⟨_, rfl, ?_⟩
    rw [← List.flatMap_def]
    refine (List.Perm.flatMap_right _ (runAll_perm _ _ tasks)).trans ?_
    refine (List.Perm.flatMap_left _ fun t ht => (hgs t ht).2).trans ?_
    rw [← List.flatMap_assoc, hflat]

/-- With workers: the same table for every completion order, chunk size and number of processes, one row per orbit and
observer, sorted by orbit id, (variant id,) time and observatory before the final conversion to UTC. -/
theorem C26_schedule (hI : Independent worker good f) (isVar : Bool) (orbits : List (Orb I O S))
    (observers : List (Obs I Y)) (hg : ∀ o ∈ orbits, good o)
    (hcoh : Coherent (EphSame isVar) (orbits.flatMap fun o => observers.map (f o))) :
    ∃ table : List (Eph I Z), table.Perm (orbits.flatMap fun o => observers.map (f o)) ∧
      table.Pairwise (EphLe isVar) ∧
      ∀ (pick : Nat → Nat) (chunk maxProc : Int), 0 < chunk → 1 < maxProc →
        generateEphemeris worker rescale pick isVar orbits observers chunk maxProc = .ok (table.map rescale) := by
  refine ⟨sortBy (ephKey isVar) (orbits.flatMap fun o => observers.map (f o)), sortBy_perm _ _,
    (sortBy_sorted _ _).imp fun h => (ephKey_le isVar _ _).mp h, ?_⟩
  intro pick chunk maxProc hc hm
  obtain ⟨rows, h1, h2⟩ := generate_rows worker good f rescale hI pick isVar orbits observers chunk maxProc hc hm hg
  rw [h1, sortBy_congr (ephKey isVar) h2]
  intro a ha b hb hab
  exact hcoh a (h2.mem_iff.mp ha) b (h2.mem_iff.mp hb) ((ephKey_eq isVar a b).mp hab)

/-- With workers and any orbits and observers, repeated ones included: the rows are the same under every schedule and sorted. -/
theorem C26_rearrangement (hI : Independent worker good f) (pick : Nat → Nat) (isVar : Bool) (orbits : List (Orb I O S))
    (observers : List (Obs I Y)) (chunk maxProc : Int) (hc : 0 < chunk) (hm : 1 < maxProc) (hg : ∀ o ∈ orbits, good o) :
    ∃ table : List (Eph I Z), generateEphemeris worker rescale pick isVar orbits observers chunk maxProc = .ok (table.map rescale) ∧
      table.Perm (orbits.flatMap fun o => observers.map (f o)) ∧ table.Pairwise (EphLe isVar) := by
  obtain ⟨rows, h1, h2⟩ := generate_rows worker good f rescale hI pick isVar orbits observers chunk maxProc hc hm hg
  exact ⟨_, h1, (sortBy_perm _ _).trans h2, (sortBy_sorted _ _).imp fun h => (ephKey_le isVar _ _).mp h⟩

/-- Distinct orbits and distinct observers: the same table for every completion order, chunk size and number of processes. -/
theorem C26_distinct_ids (hI : Independent worker good f) (isVar : Bool) (orbits : List (Orb I O S))
    (observers : List (Obs I Y)) (hg : ∀ o ∈ orbits, good o)
    (hf : ∀ o b, (f o b).id = o.id ∧ (f o b).variant = o.variant ∧ (f o b).time = b.time ∧ (f o b).code = b.code)
    (hdist : ∀ a ∈ orbits, ∀ b ∈ orbits, a.id = b.id → (isVar = true → a.variant = b.variant) → a = b)
    (hobs : ∀ a ∈ observers, ∀ b ∈ observers, a.time = b.time → a.code = b.code → a = b) :
    ∃ table : List (Eph I Z), table.Perm (orbits.flatMap fun o => observers.map (f o)) ∧
      table.Pairwise (EphLe isVar) ∧
      ∀ (pick : Nat → Nat) (chunk maxProc : Int), 0 < chunk → 1 < maxProc →
        generateEphemeris worker rescale pick isVar orbits observers chunk maxProc = .ok (table.map rescale) := by
  refine C26_schedule worker good f rescale hI isVar orbits observers hg ?_
  intro x hx y hy hxy
  obtain ⟨o, ho, hx⟩ := List.mem_flatMap.mp hx
  obtain ⟨b, hb, rfl⟩ := List.mem_map.mp hx
  obtain ⟨o', ho', hy⟩ := List.mem_flatMap.mp hy
  obtain ⟨b', hb', rfl⟩ := List.mem_map.mp hy
  obtain ⟨e1, e2, e3, e4⟩ := hxy
  obtain ⟨f1, f2, f3, f4⟩ := hf o b
  obtain ⟨g1, g2, g3, g4⟩ := hf o' b'
  rw [f1, g1] at e1
  rw [f2, g2] at e2
  rw [f3, g3] at e3
  rw [f4, g4] at e4
  rw [hdist o ho o' ho' e1 e2, hobs b hb b' hb' e3 e4]

/-- The in-process result is the same table when the worker returns its rows in that order (as the generic one does,
`C78_pairing`). -/
theorem C26_in_process (hI : Independent worker good f) (isVar : Bool) (orbits : List (Orb I O S))
    (observers : List (Obs I Y)) (hg : ∀ o ∈ orbits, good o)
    (hcoh : Coherent (EphSame isVar) (orbits.flatMap fun o => observers.map (f o))) (rows : List (Eph I Z))
    (hw : worker orbits observers = .ok rows) (hs : rows.Pairwise (EphLe isVar)) (pick pick' : Nat → Nat)
    (chunk chunk' maxProc maxProc' : Int) (hc : 0 < chunk) (hm : 1 < maxProc) (hm' : maxProc' ≤ 1) :
    generateEphemeris worker rescale pick' isVar orbits observers chunk' maxProc' =
      generateEphemeris worker rescale pick isVar orbits observers chunk maxProc := by
  obtain ⟨table, h1, h2, h3⟩ := C26_schedule worker good f rescale hI isVar orbits observers hg hcoh
  rw [h3 pick chunk maxProc hc hm]
  unfold generateEphemeris
  rw [if_neg (by omega), hw]
  simp only
  congr 2
  obtain ⟨rows', hr1, hr2⟩ := hI.ok orbits observers hg
  rw [hw] at hr1
  injection hr1 with hr1
  subst hr1
  refine eq_of_sorted (ephKey isVar) (hr2.trans h1.symm) ?_ (hs.imp fun h => (ephKey_le isVar _ _).mpr h)
    (h2.imp fun h => (ephKey_le isVar _ _).mpr h)
  intro a ha b hb hab
  exact hcoh a (hr2.mem_iff.mp ha) b (hr2.mem_iff.mp hb) ((ephKey_eq isVar a b).mp hab)

/-- A failing orbit makes the call raise under every schedule. -/
theorem C26_failure (hI : Independent worker good f) (pick : Nat → Nat) (isVar : Bool) (orbits : List (Orb I O S))
    (observers : List (Obs I Y)) (chunk maxProc : Int) (hc : 0 < chunk) (o : Orb I O S) (ho : o ∈ orbits) (hb : ¬ good o) :
    ∃ e, generateEphemeris worker rescale pick isVar orbits observers chunk maxProc = .error e := by
  classical
  unfold generateEphemeris
  split
  · have hec : 0 < effectiveChunk orbits.length chunk maxProc.toNat := by
      unfold effectiveChunk
      split
      · exact lt_min hc (lt_of_lt_of_le (by norm_num) (le_max_left _ _))
      · exact hc
    cases htk : chunkTasks isVar orbits (effectiveChunk orbits.length chunk maxProc.toNat) with
    | error e => exact ⟨e, rfl⟩
    | ok tasks =>
      obtain ⟨hflat, _, _⟩ := chunkTasks_flat isVar orbits hec htk
      rw [← hflat] at ho
      obtain ⟨t, ht, hot⟩ := List.mem_flatMap.mp ho
      simp only
      obtain ⟨e, he⟩ := runTasks_error (atLeast maxProc.toNat) pick (work := fun t : Task I O S => worker t.rows observers)
        ht (hI.bad t.rows observers o hot hb)
      rw [he]
      exact ⟨e, rfl⟩
  · obtain ⟨e, he⟩ := hI.bad orbits observers o ho hb
    rw [he]
    exact ⟨e, rfl⟩

end c26

/-- The order among rows of the same orbit id, time and observatory depends on the schedule. -/
theorem C26_ties_order_false :
    ¬ ∀ (worker : List (Orb Nat Nat Nat) → List (Obs Nat Nat) → Except PyErr (List (Eph Nat Nat)))
        (f : Orb Nat Nat Nat → Obs Nat Nat → Eph Nat Nat), Independent worker (fun _ => True) f →
        ∀ (orbits : List (Orb Nat Nat Nat)) (observers : List (Obs Nat Nat)) (pick pick' : Nat → Nat) (chunk maxProc : Int), 0 < chunk →
          generateEphemeris worker id pick false orbits observers chunk maxProc =
            generateEphemeris worker id pick' false orbits observers chunk maxProc := by
  intro h
  have := h (fun os obs => .ok (os.flatMap fun o => obs.map fun b => (⟨o.id, o.variant, b.time, b.code, o.state + b.state⟩ : Eph Nat Nat)))
    (fun o b => ⟨o.id, o.variant, b.time, b.code, o.state + b.state⟩)
    ⟨fun _ _ _ => ⟨_, rfl, List.Perm.refl _⟩, fun _ _ _ _ h => absurd trivial h⟩
    [⟨1, ⊤, 10, 7⟩, ⟨1, ⊤, 10, 8⟩] [⟨toLex (59000, 0), 500, 0⟩] (fun _ => 0) (fun _ => 1) 1 2 (by decide)
  have h2 := congrArg (fun r => match r with
    | .ok (r :: _) => r.value
    | _ => 0) this
  revert h2
  decide +kernel

/-- The hypotheses of `C26_schedule` hold for two orbits and three observers, two of them at the same time. -/
example := C26_schedule (fun (os : List (Orb Nat Nat Nat)) (obs : List (Obs Nat Nat)) =>
    .ok (os.flatMap fun o => obs.map fun b => (⟨o.id, o.variant, b.time, b.code, o.state + b.state⟩ : Eph Nat Nat)))
  (fun _ => True) (fun o b => ⟨o.id, o.variant, b.time, b.code, o.state + b.state⟩) id
  ⟨fun _ _ _ => ⟨_, rfl, List.Perm.refl _⟩, fun _ _ _ _ h => absurd trivial h⟩ false
  [⟨2, ⊤, 10, 100⟩, ⟨1, ⊤, 10, 200⟩]
  [⟨toLex (59000, 5), 695, 1⟩, ⟨toLex (59000, 5), 500, 2⟩, ⟨toLex (59000, 0), 500, 3⟩] (by simp) (by
    intro a ha b hb
    simp only [List.flatMap_cons, List.flatMap_nil, List.map_cons, List.map_nil, List.append_nil, List.cons_append,
      List.nil_append, List.mem_cons, List.not_mem_nil, or_false] at ha hb
    rintro ⟨h1, _, h3, h4⟩
    rcases ha with rfl | rfl | rfl | rfl | rfl | rfl <;> rcases hb with rfl | rfl | rfl | rfl | rfl | rfl <;>
      first
        | rfl
        | (exfalso; revert h1 h3 h4; decide))

/-! ## C32: entry points that keep the completion order -/

/-- Collision detection, MOIDs, differential correction and porkchop data contain the same rows for every completion
order and throttle: the rows of the in-process run, each exactly once, in some order. -/
theorem C32_rows {α β : Type} (full : Nat → Bool) (pick : Nat → Nat) (work : List α → Except PyErr (List β))
    (tasks : List (List α)) (g : List α → List β) (hw : ∀ t ∈ tasks, work t = .ok (g t)) :
    ∃ out, completionOrder full pick work tasks = .ok out ∧ out.Perm (tasks.flatMap g) := by
  unfold completionOrder
  rw [runTasks_ok full pick hw]
  refine ⟨_, rfl, ?_⟩
  rw [← List.flatMap_def]
  exact List.Perm.flatMap_right _ (runAll_perm _ _ _)

/-- If a worker raises, the call raises, under every schedule. -/
theorem C32_failure {α β : Type} (full : Nat → Bool) (pick : Nat → Nat) (work : List α → Except PyErr (List β))
    (tasks : List (List α)) (t : List α) (ht : t ∈ tasks) (hb : ∃ e, work t = .error e) :
    ∃ e, completionOrder full pick work tasks = .error e := by
  unfold completionOrder
  obtain ⟨e, he⟩ := runTasks_error full pick ht hb
  rw [he]
  exact ⟨e, rfl⟩

/-- The rows of the MOID tasks: every perturber with every orbit, each pair once, for every chunk size. -/
theorem C32_moid_pairs {α β : Type} (perturbers : List β) (orbits : List α) (chunk : Int) (hc : 0 < chunk)
    (chunks : List (List α)) (h : Chunk.iterateChunks orbits chunk = .ok chunks) :
    (moidTasks perturbers chunks).flatten = perturbers.flatMap fun p => orbits.map fun a => (p, a) := by
  have hfl : chunks.flatten = orbits := by
    unfold Chunk.iterateChunks at h
    rw [Chunk.range_pos hc] at h
    injection h with h
    rw [← h]
    have := Chunk.chunks_flatten orbits (c := chunk.toNat) (by omega) 0
    rwa [List.drop_zero] at this
  unfold moidTasks
  rw [List.flatMap_def, List.flatten_flatten, List.map_map, ← List.flatMap_def]
  congr 1
  funext p
  conv_rhs => rw [← hfl]
  simp only [Function.comp]
  rw [List.map_flatten]

/-- The order of the rows does depend on the completion order, so the tables differ. -/
theorem C32_order_false :
    ¬ ∀ (pick : Nat → Nat) (tasks : List (List Nat)), completionOrder (atLeast 2) pick (fun l => .ok l) tasks =
        completionOrder (atLeast 2) (fun _ => 0) (fun l => .ok l) tasks := by
  intro h
  have := h (fun _ => 1) [[1], [2]]
  revert this
  decide +kernel

/-- Outstanding tasks: porkchop data at most `1.5 * max_processes + 1` (its test is strict), collision detection all of
them at once. -/
theorem C32_outstanding {α : Type} (pick : Nat → Nat) (maxProc : Nat) (tasks : List α) :
    2 * (runAll (moreThan maxProc) pick tasks).peak ≤ 3 * maxProc + 2 ∧
    (runAll never pick tasks).peak = tasks.length := by
  constructor
  · have := runAll_peak (moreThan maxProc) pick (3 * maxProc / 2) (by
      intro n hn
      unfold moreThan
      rw [decide_eq_true_iff]
      omega) tasks
    omega
  · unfold runAll
    simp only
    rw [(drain_spec pick _ _ (le_refl _)).2.2]
    have key : ∀ (l : List α) (s : St α), s.peak = s.pending.length →
        (l.foldl (submit never pick) s).peak = s.pending.length + l.length ∧
        (l.foldl (submit never pick) s).pending.length = s.pending.length + l.length := by
      intro l
      induction l with
      | nil => intro s h; exact ⟨h, rfl⟩
      | cons a l ih =>
        intro s h
        rw [List.foldl_cons]
        obtain ⟨_, k2, k3⟩ := submit_spec never pick s a
        have k3' : (submit never pick s a).pending.length = s.pending.length + 1 := by rw [k3]; rfl
        have := ih (submit never pick s a) (by rw [k2, k3', h]; omega)
        rw [k3'] at this
        simp only [List.length_cons]
        omega
    have := (key tasks ⟨[], [], 0, 0⟩ rfl).1
    simpa using this

/-- The scheduler model covers every completion order: any arrangement of the tasks is the completion order of some
choice function (shown for the unthrottled loop). -/
theorem C32_all_orders {α : Type} (tasks order : List α) (h : order.Perm tasks) :
    ∃ pick, (runAll never pick tasks).done = order := by
  have hsub : ∀ (pick : Nat → Nat) (l : List α) (s : St α), (l.foldl (submit never pick) s).pending = s.pending ++ l ∧
      (l.foldl (submit never pick) s).done = s.done ∧ (l.foldl (submit never pick) s).waits = s.waits := by
    intro pick l
    induction l with
    | nil => intro s; simp
    | cons a l ih =>
      intro s
      rw [List.foldl_cons]
      have := ih (submit never pick s a)
      rw [this.1, this.2.1, this.2.2]
      simp [submit, never]
  have hdr : ∀ (order p d : List α) (w pk : Nat), order.Perm p →
      ∃ pick : Nat → Nat, ∀ pick' : Nat → Nat, (∀ n, w ≤ n → pick' n = pick n) →
        (drain pick' p.length ⟨p, d, w, pk⟩).done = d ++ order := by
    intro order
    induction order with
    | nil =>
      intro p d w pk hp
      have := List.nil_perm.mp hp
      subst this
      exact ⟨fun _ => 0, fun _ _ => by simp [drain]⟩
    | cons a order ih =>
      intro p d w pk hp
      have ha : a ∈ p := hp.mem_iff.mp (by simp)
      obtain ⟨i, hi, hia⟩ := List.mem_iff_getElem.mp ha
      have hp' : order.Perm (p.eraseIdx i) := by
        have h1 := List.getElem_cons_eraseIdx_perm hi
        rw [hia] at h1
        exact (hp.trans h1.symm).cons_inv
      obtain ⟨pick, hpick⟩ := ih (p.eraseIdx i) (d ++ [a]) (w + 1) pk hp'
      refine ⟨fun n => if n = w then i else pick n, ?_⟩
      intro pick' hpk
      have hlen : p.length = (p.eraseIdx i).length + 1 := by rw [List.length_eraseIdx_of_lt hi]; omega
      rw [hlen]
      unfold drain
      rw [if_neg (by simp; intro h; rw [h] at hi; simp at hi)]
      have hw : wait pick' (⟨p, d, w, pk⟩ : St α) = ⟨p.eraseIdx i, d ++ [a], w + 1, pk⟩ := by
        unfold wait
        have : pick' w = i := by rw [hpk w (le_refl _)]; simp
        simp only [this, Nat.mod_eq_of_lt hi, List.getElem?_eq_getElem hi, hia]
      rw [hw]
      have := hpick pick' (by
        intro n hn
        rw [hpk n (by omega)]
        simp only
        rw [if_neg (by omega)])
      rw [this]
      simp
  obtain ⟨pick, hp⟩ := hdr order tasks [] 0 (tasks.foldl (submit never (fun _ => 0)) ⟨[], [], 0, 0⟩).peak h
  refine ⟨pick, ?_⟩
  unfold runAll
  simp only
  have hs := hsub pick tasks ⟨[], [], 0, 0⟩
  have hpk : (tasks.foldl (submit never pick) ⟨[], [], 0, 0⟩).peak =
      (tasks.foldl (submit never (fun _ => 0)) ⟨[], [], 0, 0⟩).peak := by
    have : ∀ (l : List α) (s : St α), l.foldl (submit never pick) s = l.foldl (submit never (fun _ => 0)) s := by
      intro l
      induction l with
      | nil => intro s; rfl
      | cons a l ih => intro s; rw [List.foldl_cons, List.foldl_cons]; exact ih _
    rw [this]
  have hst : tasks.foldl (submit never pick) ⟨[], [], 0, 0⟩ =
      ⟨tasks, [], 0, (tasks.foldl (submit never (fun _ => 0)) ⟨[], [], 0, 0⟩).peak⟩ := by
    rw [← hpk]
    cases hst : tasks.foldl (submit never pick) ⟨[], [], 0, 0⟩ with
    | mk a b c d =>
      rw [hst] at hs
      simp only [List.nil_append] at hs
      simp [hs.1, hs.2.1, hs.2.2]
  rw [hst]
  have := hp pick (fun _ _ => rfl)
  simpa using this

end Verif.Sched.Props
