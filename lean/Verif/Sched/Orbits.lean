import Verif.Sched.Lemmas
import Verif.Sched.TwoBody

/-! Lemmas on `propagate_orbits`, `generate_ephemeris` and the restoring of the input origins. -/

namespace Verif.Sched

open Verif Spec

set_option linter.unusedSectionVars false

theorem mem_uniq {α : Type} [DecidableEq α] (l : List α) (a : α) : a ∈ uniq l ↔ a ∈ l := by
  induction l with
  | nil => rfl
  | cons b l ih =>
    unfold uniq
    rw [List.mem_cons, List.mem_filter, ih, List.mem_cons]
    by_cases h : a = b <;> simp [h]

theorem nodup_uniq {α : Type} [DecidableEq α] (l : List α) : (uniq l).Nodup := by
  induction l with
  | nil => exact List.nodup_nil
  | cons b l ih =>
    unfold uniq
    rw [List.nodup_cons]
    exact ⟨by simp, ih.filter _⟩

theorem swap_perm {α β γ : Type} (codes : List α) (P : α → β → Bool) (g : α → β → γ) (rows : List β) :
    (codes.flatMap fun c => (rows.filter (P c)).map (g c)).Perm
      (rows.flatMap fun r => (codes.filter fun c => P c r).map fun c => g c r) := by
  induction rows with
  | nil => simp
  | cons r rows ih =>
    rw [List.flatMap_cons]
    have h1 : (codes.flatMap fun c => ((r :: rows).filter (P c)).map (g c)) =
        codes.flatMap fun c => (if P c r then [g c r] else []) ++ (rows.filter (P c)).map (g c) := by
      congr 1
      funext c
      rw [List.filter_cons]
      split <;> simp
    rw [h1]
    refine (List.flatMap_append_perm codes _ _).symm.trans ?_
    refine List.Perm.append ?_ ih
    have : (codes.flatMap fun c => if P c r then [g c r] else []) = (codes.filter fun c => P c r).map fun c => g c r := by
      clear h1 ih
      induction codes with
      | nil => rfl
      | cons c codes ih =>
        rw [List.flatMap_cons, List.filter_cons, ih]
        split <;> simp
    rw [this]

section origin
variable {I O S X C : Type} [LinearOrder I] [DecidableEq O] (toOrigin : O → Row I X C → Row I X C)

theorem ensureOrigin_eq (inputs : List (Orb I O S)) (results : List (Row I X C)) (h : inputs ≠ []) :
    ensureOrigin toOrigin inputs results = .ok ((uniq (inputs.map Orb.origin)).flatMap fun c =>
      (results.filter fun r => decide (r.id ∈ (inputs.filter fun o => decide (o.origin = c)).map Orb.id)).map
        (toOrigin c)) := by
  unfold ensureOrigin
  split
  · rename_i heq
    exfalso
    apply h
    cases inputs with
    | nil => rfl
    | cons a l => simp [uniq] at heq
  · rfl

theorem ensureOrigin_perm (inputs : List (Orb I O S)) {r1 r2 : List (Row I X C)} (h : inputs ≠ []) (hp : r1.Perm r2) :
    ∃ a b, ensureOrigin toOrigin inputs r1 = .ok a ∧ ensureOrigin toOrigin inputs r2 = .ok b ∧ a.Perm b := by
  refine ⟨_, _, ensureOrigin_eq toOrigin inputs r1 h, ensureOrigin_eq toOrigin inputs r2 h, ?_⟩
  apply List.Perm.flatMap_left
  intro c _
  exact (hp.filter _).map _

/-- Each result row once per distinct origin of the input orbits with its id. -/
theorem ensureOrigin_rows (inputs : List (Orb I O S)) (results : List (Row I X C)) (h : inputs ≠ []) :
    ∃ out, ensureOrigin toOrigin inputs results = .ok out ∧ out.Perm (results.flatMap fun r =>
      ((uniq (inputs.map Orb.origin)).filter fun c => decide (∃ o ∈ inputs, o.origin = c ∧ o.id = r.id)).map
        fun c => toOrigin c r) := by
  refine ⟨_, ensureOrigin_eq toOrigin inputs results h, ?_⟩
  refine (swap_perm (uniq (inputs.map Orb.origin)) (fun c r => decide
    (r.id ∈ (inputs.filter fun o => decide (o.origin = c)).map Orb.id)) toOrigin results).trans ?_
  apply List.Perm.flatMap_left
  intro r _
  have : (fun c => decide (r.id ∈ (inputs.filter fun o => decide (o.origin = c)).map Orb.id)) =
      fun c => decide (∃ o ∈ inputs, o.origin = c ∧ o.id = r.id) := by
    funext c
    simp only [List.mem_map, List.mem_filter, decide_eq_true_eq, and_assoc]
  rw [this]

theorem origins_single (inputs : List (Orb I O S))
    (hcons : ∀ a ∈ inputs, ∀ b ∈ inputs, a.id = b.id → a.origin = b.origin) (o : Orb I O S) (ho : o ∈ inputs) :
    ((uniq (inputs.map Orb.origin)).filter fun c => decide (∃ o' ∈ inputs, o'.origin = c ∧ o'.id = o.id)) = [o.origin] := by
  rw [← List.perm_singleton]
  rw [List.perm_ext_iff_of_nodup ((nodup_uniq _).filter _) (List.nodup_singleton _)]
  intro c
  rw [List.mem_filter, mem_uniq, List.mem_singleton, decide_eq_true_iff]
  constructor
  · rintro ⟨_, o', ho', rfl, hid⟩
    exact hcons o' ho' o ho hid
  · rintro rfl
    exact ⟨List.mem_map_of_mem ho, o, ho, rfl, rfl⟩

/-- With one origin per id, rows labelled by their orbit come back once each, in that orbit's origin. -/
theorem ensureOrigin_labelled (inputs : List (Orb I O S)) (hne : inputs ≠ [])
    (hcons : ∀ a ∈ inputs, ∀ b ∈ inputs, a.id = b.id → a.origin = b.origin)
    {β : Type} (pairs : List β) (orb : β → Orb I O S) (row : β → Row I X C)
    (hin : ∀ p ∈ pairs, orb p ∈ inputs) (hid : ∀ p ∈ pairs, (row p).id = (orb p).id)
    (results : List (Row I X C)) (hp : results.Perm (pairs.map row)) :
    ∃ out, ensureOrigin toOrigin inputs results = .ok out ∧
      out.Perm (pairs.map fun p => toOrigin (orb p).origin (row p)) := by
  obtain ⟨out, ho, hperm⟩ := ensureOrigin_rows toOrigin inputs results hne
  refine ⟨out, ho, hperm.trans ?_⟩
  refine (List.Perm.flatMap_right _ hp).trans ?_
  rw [List.flatMap_map]
  have : (pairs.flatMap fun p => ((uniq (inputs.map Orb.origin)).filter fun c =>
      decide (∃ o ∈ inputs, o.origin = c ∧ o.id = (row p).id)).map fun c => toOrigin c (row p)) =
      pairs.flatMap fun p => [toOrigin (orb p).origin (row p)] := by
    rw [List.flatMap_def, List.flatMap_def]
    congr 1
    apply List.map_congr_left
    intro p hpm
    rw [hid p hpm, origins_single inputs hcons (orb p) (hin p hpm)]
    rfl
  rw [this]
  exact List.Perm.of_eq List.map_eq_flatMap.symm

end origin

/-! ### gathering chunks of orbits -/

section gatherOrbits
variable {I O S X C : Type} [LinearOrder I] [DecidableEq O] {E : Engine I O S X C} {good : Orb I O S → Prop}
  {f : Orb I O S → (ℤ ×ₗ ℤ) → Row I X C}

theorem chunkTasks_eq (b : Bool) (l : List (Orb I O S)) {c : Int} (hc : 0 < c) :
    chunkTasks b l c = .ok ((Chunk.rangeFrom 0 l.length c.toNat).map fun i =>
      ⟨b, take l (((List.range l.length).drop i).take c.toNat)⟩) := by
  unfold chunkTasks
  rw [chunks_range l hc]
  simp only [List.map_map]
  rfl

theorem chunkTasks_flat (b : Bool) (l : List (Orb I O S)) {c : Int} (hc : 0 < c) {tasks : List (Task I O S)}
    (h : chunkTasks b l c = .ok tasks) :
    tasks.flatMap Task.rows = l ∧ (∀ t ∈ tasks, t.covVariants = b) ∧ (l ≠ [] → tasks ≠ []) := by
  rw [chunkTasks_eq b l hc] at h
  injection h with h
  subst h
  have hfl := chunks_take_flatten l (c := c.toNat) (by omega)
  refine ⟨?_, ?_, ?_⟩
  · rw [List.flatMap_map]
    rw [← List.flatMap_def] at hfl
    exact hfl
  · intro t ht
    obtain ⟨i, _, rfl⟩ := List.mem_map.mp ht
    rfl
  · intro hl hnil
    apply hl
    rw [List.map_eq_nil_iff] at hnil
    rw [hnil] at hfl
    simpa using hfl.symm

theorem gatherOrbits_ok (hI : Independent E.backend good f) (pick : Nat → Nat) (tasks : List (Task I O S))
    (times : List (ℤ ×ₗ ℤ)) (m : Nat) (hg : ∀ t ∈ tasks, ∀ o ∈ t.rows, good o)
    (hne : ∃ t ∈ tasks, t.covVariants = false) :
    ∃ rows vrows, gatherOrbits E pick tasks times m = .ok (rows, if tasks.all (fun t => !t.covVariants) then none else
        some (sortBy (rowKey true) vrows)) ∧
      rows.Perm (((tasks.filter fun t => !t.covVariants).flatMap Task.rows).flatMap fun o => times.map (f o)) ∧
      vrows.Perm (((tasks.filter fun t => t.covVariants).flatMap Task.rows).flatMap fun o => times.map (f o)) := by
  classical
  have hch : ∀ t : Task I O S, ∃ rows, t ∈ tasks → E.backend t.rows times = .ok rows ∧
      rows.Perm (t.rows.flatMap fun o => times.map (f o)) := by
    intro t
    by_cases ht : t ∈ tasks
    · obtain ⟨rows, h1, h2⟩ := hI.ok t.rows times (hg t ht)
      exact ⟨rows, fun _ => ⟨h1, h2⟩⟩
    · exact ⟨[], fun h => absurd h ht⟩
  choose g hgs using hch
  let done := (runAll (atLeast m) pick tasks).done
  have hd : done.Perm tasks := runAll_perm _ _ tasks
  have hfil : ∀ p : Bool → Bool, ((done.map fun t => (t.covVariants, g t)).filter fun r => p r.1).map Prod.snd =
      (done.filter fun t => p t.covVariants).map g := by
    intro p
    rw [List.filter_map, List.map_map]
    rfl
  have hperm : ∀ p : Bool → Bool, ((done.filter fun t => p t.covVariants).map g).flatten.Perm
      (((tasks.filter fun t => p t.covVariants).flatMap Task.rows).flatMap fun o => times.map (f o)) := by
    intro p
    rw [← List.flatMap_def, List.flatMap_assoc]
    refine (List.Perm.flatMap_right _ (hd.filter _)).trans ?_
    apply List.Perm.flatMap_left
    intro t ht
    exact (hgs t (List.mem_of_mem_filter ht)).2
  refine ⟨((done.filter fun t => !t.covVariants).map g).flatten, ((done.filter fun t => t.covVariants).map g).flatten,
    ?_, hperm (fun b => !b), hperm (fun b => b)⟩
  unfold gatherOrbits
  simp only
  rw [runTasks_ok (g := fun t => (t.covVariants, g t)) (atLeast m) pick (by
    intro t ht
    unfold workOrbits
    rw [(hgs t ht).1])]
  simp only
  rw [hfil (fun b => !b), hfil (fun b => b)]
  have hnil : (done.filter fun t => !t.covVariants).map g ≠ [] := by
    obtain ⟨t, ht, hc⟩ := hne
    intro h
    rw [List.map_eq_nil_iff] at h
    have : t ∈ done.filter fun t => !t.covVariants := by
      rw [List.mem_filter]
      exact ⟨hd.mem_iff.mpr ht, by simp [hc]⟩
    rw [h] at this
    simp at this
  have hconc : ∀ l : List (List (Row I X C)), l ≠ [] → concatTables l = .ok l.flatten := by
    intro l hl
    cases l with
    | nil => exact absurd rfl hl
    | cons _ _ => rfl
  rw [hconc _ hnil]
  simp only
  congr 2
  by_cases hall : tasks.all (fun t => !t.covVariants) = true
  · rw [if_pos hall, if_pos]
    rw [List.map_eq_nil_iff, List.filter_eq_nil_iff]
    intro t ht
    have := List.all_eq_true.mp hall t (hd.mem_iff.mp ht)
    simpa using this
  · rw [if_neg hall, if_neg]
    intro h
    apply hall
    rw [List.map_eq_nil_iff, List.filter_eq_nil_iff] at h
    rw [List.all_eq_true]
    intro t ht
    have := h t (hd.mem_iff.mpr ht)
    simpa using this

theorem gatherOrbits_error (hI : Independent E.backend good f) (pick : Nat → Nat) (tasks : List (Task I O S))
    (times : List (ℤ ×ₗ ℤ)) (m : Nat) (t : Task I O S) (ht : t ∈ tasks) (o : Orb I O S) (ho : o ∈ t.rows)
    (hb : ¬ good o) : ∃ e, gatherOrbits E pick tasks times m = .error e := by
  obtain ⟨e, he⟩ := hI.bad t.rows times o ho hb
  unfold gatherOrbits
  simp only
  obtain ⟨e', he'⟩ := runTasks_error (atLeast m) pick (work := workOrbits E times) ht
    ⟨e, by unfold workOrbits; rw [he]⟩
  rw [he']
  exact ⟨e', rfl⟩

/-- All (orbit, time) pairs. -/
def pairs (orbits : List (Orb I O S)) (times : List (ℤ ×ₗ ℤ)) : List (Orb I O S × (ℤ ×ₗ ℤ)) :=
  orbits.flatMap fun o => times.map fun t => (o, t)

theorem pairs_map {β : Type} (orbits : List (Orb I O S)) (times : List (ℤ ×ₗ ℤ)) (g : Orb I O S → (ℤ ×ₗ ℤ) → β) :
    (pairs orbits times).map (fun p => g p.1 p.2) = orbits.flatMap fun o => times.map (g o) := by
  unfold pairs
  rw [List.map_flatMap]
  congr 1
  funext o
  rw [List.map_map]
  rfl

theorem mem_pairs {orbits : List (Orb I O S)} {times : List (ℤ ×ₗ ℤ)} {p : Orb I O S × (ℤ ×ₗ ℤ)}
    (h : p ∈ pairs orbits times) : p.1 ∈ orbits ∧ p.2 ∈ times := by
  unfold pairs at h
  obtain ⟨o, ho, h⟩ := List.mem_flatMap.mp h
  obtain ⟨t, ht, rfl⟩ := List.mem_map.mp h
  exact ⟨ho, ht⟩

/-- The covariance attached to a row by `collapse`. -/
def withCov (weighted : Row I X C → List (Row I X C) → C) (V : List (Row I X C)) (r : Row I X C) : Row I X C :=
  { r with cov := some (weighted r (V.filter fun v => decide (linkKey v = linkKey r))) }

theorem finish_none (hid : ∀ o t, (f o t).id = o.id) (hre : ∀ r, (E.rescale r).id = r.id) (isVar : Bool)
    (orbits : List (Orb I O S)) (times : List (ℤ ×ₗ ℤ)) (hne : orbits ≠ [])
    (hcons : ∀ a ∈ orbits, ∀ b ∈ orbits, a.id = b.id → a.origin = b.origin) (rows : List (Row I X C))
    (hp : rows.Perm (orbits.flatMap fun o => times.map (f o))) :
    ∃ out, finish E isVar orbits rows none = .ok (sortBy (rowKey isVar) out) ∧
      out.Perm (orbits.flatMap fun o => times.map fun t => E.toOrigin o.origin (E.rescale (f o t))) := by
  rw [← pairs_map] at hp
  obtain ⟨out, h1, h2⟩ := ensureOrigin_labelled E.toOrigin orbits hne hcons (pairs orbits times) Prod.fst
    (fun p => E.rescale (f p.1 p.2)) (fun p hp => (mem_pairs hp).1) (fun p _ => by rw [hre, hid]) (rows.map E.rescale)
    (by have := hp.map E.rescale; rwa [List.map_map] at this)
  refine ⟨out, ?_, ?_⟩
  · unfold finish
    simp only
    rw [h1]
  · rw [← pairs_map orbits times fun o t => E.toOrigin o.origin (E.rescale (f o t))]
    exact h2

theorem finish_some (hid : ∀ o t, (f o t).id = o.id) (hre : ∀ r, (E.rescale r).id = r.id) (isVar : Bool)
    (orbits : List (Orb I O S)) (times : List (ℤ ×ₗ ℤ)) (hne : orbits ≠ []) (hnt : times ≠ [])
    (hcons : ∀ a ∈ orbits, ∀ b ∈ orbits, a.id = b.id → a.origin = b.origin) (rows V : List (Row I X C))
    (hp : rows.Perm (orbits.flatMap fun o => times.map (f o))) :
    ∃ out, finish E isVar orbits rows (some V) = .ok (sortBy (rowKey isVar) out) ∧
      out.Perm (orbits.flatMap fun o => times.map fun t =>
        E.toOrigin o.origin (E.rescale (withCov E.weighted V (f o t)))) := by
  have hrows : rows ≠ [] := by
    intro h
    rw [h] at hp
    have := List.nil_perm.mp hp
    cases orbits with
    | nil => exact hne rfl
    | cons o os =>
      cases times with
      | nil => exact hnt rfl
      | cons t ts => simp at this
  rw [← pairs_map] at hp
  obtain ⟨out, h1, h2⟩ := ensureOrigin_labelled E.toOrigin orbits hne hcons (pairs orbits times) Prod.fst
    (fun p => E.rescale (withCov E.weighted V (f p.1 p.2))) (fun p hp => (mem_pairs hp).1)
    (fun p _ => by rw [hre]; exact hid p.1 p.2)
    ((rows.map (withCov E.weighted V)).map E.rescale)
    (by
      have := (hp.map (withCov E.weighted V)).map E.rescale
      rwa [List.map_map (l := pairs orbits times), List.map_map (l := pairs orbits times)] at this)
  refine ⟨out, ?_, ?_⟩
  · unfold finish collapse
    simp only
    rw [if_neg hrows]
    simp only
    rw [show (rows.map fun r => { r with cov := some (E.weighted r (V.filter fun v => decide (linkKey v = linkKey r))) })
      = rows.map (withCov E.weighted V) from rfl, h1]
  · rw [← pairs_map orbits times fun o t => E.toOrigin o.origin (E.rescale (withCov E.weighted V (f o t)))]
    exact h2

theorem pairs_times_perm {β : Type} (orbits : List (Orb I O S)) {ts ts' : List (ℤ ×ₗ ℤ)} (h : ts.Perm ts')
    (g : Orb I O S → (ℤ ×ₗ ℤ) → β) :
    (orbits.flatMap fun o => ts.map (g o)).Perm (orbits.flatMap fun o => ts'.map (g o)) :=
  List.Perm.flatMap_left _ fun _ _ => h.map _

/-- Without covariances: every schedule, chunk size and number of processes yields a sorted rearrangement of the expected
rows. -/
theorem propagate_plain (hI : Independent E.backend good f) (hid : ∀ o t, (f o t).id = o.id)
    (hre : ∀ r, (E.rescale r).id = r.id) (pick : Nat → Nat) (isVar : Bool) (orbits : List (Orb I O S))
    (times : List (ℤ ×ₗ ℤ)) (covariance : Bool) (hcov : covariance = true → isVar = false ∧ E.allNan orbits = true)
    (chunk maxProc : Int) (hc : 0 < chunk)
    (hne : orbits ≠ []) (hg : ∀ o ∈ orbits, good o)
    (hcons : ∀ a ∈ orbits, ∀ b ∈ orbits, a.id = b.id → a.origin = b.origin) :
    ∃ out, propagateOrbits E pick isVar orbits times covariance chunk maxProc = .ok (sortBy (rowKey isVar) out) ∧
      out.Perm (orbits.flatMap fun o => times.map fun t => E.toOrigin o.origin (E.rescale (f o t))) := by
  have hts : (sortBy id times).Perm times := sortBy_perm id times
  have hfin : ∀ rows : List (Row I X C), rows.Perm (orbits.flatMap fun o => (sortBy id times).map (f o)) →
      ∃ out, finish E isVar orbits rows none = .ok (sortBy (rowKey isVar) out) ∧
      out.Perm (orbits.flatMap fun o => times.map fun t => E.toOrigin o.origin (E.rescale (f o t))) := fun rows h =>
    finish_none hid hre isVar orbits times hne hcons rows (h.trans (pairs_times_perm orbits hts f))
  have hb1 : ¬ ((covariance && isVar) = true) := by
    cases covariance
    · simp
    · simp [(hcov rfl).1]
  have hb2 : ¬ ((covariance && !E.allNan orbits) = true) := by
    cases covariance
    · simp
    · simp [(hcov rfl).2]
  unfold propagateOrbits
  rw [if_neg hb1]
  simp only
  by_cases hm : 1 < maxProc
  · rw [if_pos hm]
    cases htk : chunkTasks false orbits chunk with
    | error e => rw [chunkTasks_eq false orbits hc] at htk; cases htk
    | ok tasks =>
      obtain ⟨hflat, hflag, htne⟩ := chunkTasks_flat false orbits hc htk
      simp only
      rw [if_neg hb2]
      obtain ⟨rows, vrows, h1, h2, _⟩ := gatherOrbits_ok hI pick tasks (sortBy id times) maxProc.toNat
        (fun t ht o ho => hg o (by rw [← hflat]; exact List.mem_flatMap.mpr ⟨t, ht, ho⟩))
        (by
          cases tasks with
          | nil => exact absurd rfl (htne hne)
          | cons t ts => exact ⟨t, by simp, hflag t (by simp)⟩)
      have hall : tasks.all (fun t => !t.covVariants) = true := by
        rw [List.all_eq_true]
        intro t ht
        simp [hflag t ht]
      rw [h1, if_pos hall]
      simp only
      apply hfin
      rw [List.filter_eq_self.mpr (by intro t ht; simp [hflag t ht]), hflat] at h2
      exact h2
  · rw [if_neg hm]
    obtain ⟨rows, h1, h2⟩ := hI.ok orbits (sortBy id times) hg
    rw [h1]
    simp only
    rw [if_neg hb2]
    exact hfin rows h2

/-- With covariances: the same, where the covariance of a row is computed from the one sorted table of variant rows. -/
theorem propagate_cov (hI : Independent E.backend good f) (hid : ∀ o t, (f o t).id = o.id)
    (hre : ∀ r, (E.rescale r).id = r.id) (pick : Nat → Nat) (orbits vs : List (Orb I O S))
    (times : List (ℤ ×ₗ ℤ)) (hnan : E.allNan orbits = false) (hcr : E.create orbits = .ok vs) (hvs : vs ≠ [])
    (chunk maxProc : Int) (hc : 0 < chunk) (hne : orbits ≠ []) (hnt : times ≠ []) (hg : ∀ o ∈ orbits, good o)
    (hgv : ∀ o ∈ vs, good o) (hcons : ∀ a ∈ orbits, ∀ b ∈ orbits, a.id = b.id → a.origin = b.origin)
    (V : List (Row I X C)) (hV : V.Perm (vs.flatMap fun o => times.map (f o)))
    (hVs : V.Pairwise fun a b => rowKey true a ≤ rowKey true b)
    (hVc : ∀ a ∈ V, ∀ b ∈ V, rowKey true a = rowKey true b → a = b) :
    ∃ out, propagateOrbits E pick false orbits times true chunk maxProc = .ok (sortBy (rowKey false) out) ∧
      out.Perm (orbits.flatMap fun o => times.map fun t =>
        E.toOrigin o.origin (E.rescale (withCov E.weighted V (f o t)))) := by
  have hts : (sortBy id times).Perm times := sortBy_perm id times
  have hfin : ∀ rows vrows : List (Row I X C), rows.Perm (orbits.flatMap fun o => (sortBy id times).map (f o)) →
      vrows.Perm (vs.flatMap fun o => (sortBy id times).map (f o)) →
      ∃ out, finish E false orbits rows (some (sortBy (rowKey true) vrows)) = .ok (sortBy (rowKey false) out) ∧
      out.Perm (orbits.flatMap fun o => times.map fun t =>
        E.toOrigin o.origin (E.rescale (withCov E.weighted V (f o t)))) := by
    intro rows vrows h1 h2
    have hVV : sortBy (rowKey true) vrows = V := by
      have hp : vrows.Perm V := (h2.trans (pairs_times_perm vs hts f)).trans hV.symm
      rw [sortBy_congr (rowKey true) hp, sortBy_of_sorted (rowKey true) hVs]
      intro a ha b hb
      exact hVc a (hp.mem_iff.mp ha) b (hp.mem_iff.mp hb)
    rw [hVV]
    exact finish_some hid hre false orbits times hne hnt hcons rows V (h1.trans (pairs_times_perm orbits hts f))
  unfold propagateOrbits
  rw [if_neg (by simp)]
  simp only
  have hb2 : (true && !E.allNan orbits) = true := by simp [hnan]
  by_cases hm : 1 < maxProc
  · rw [if_pos hm]
    cases htk : chunkTasks false orbits chunk with
    | error e => rw [chunkTasks_eq false orbits hc] at htk; cases htk
    | ok tasks =>
      cases hvk : chunkTasks true vs chunk with
      | error e => rw [chunkTasks_eq true vs hc] at hvk; cases hvk
      | ok vtasks =>
        obtain ⟨hflat, hflag, htne⟩ := chunkTasks_flat false orbits hc htk
        obtain ⟨hvflat, hvflag, hvtne⟩ := chunkTasks_flat true vs hc hvk
        simp only
        rw [if_pos hb2, hcr]
        simp only
        rw [hvk]
        simp only
        obtain ⟨rows, vrows, h1, h2, h3⟩ := gatherOrbits_ok hI pick (tasks ++ vtasks) (sortBy id times) maxProc.toNat
          (fun t ht o ho => by
            rcases List.mem_append.mp ht with ht | ht
            · exact hg o (by rw [← hflat]; exact List.mem_flatMap.mpr ⟨t, ht, ho⟩)
            · exact hgv o (by rw [← hvflat]; exact List.mem_flatMap.mpr ⟨t, ht, ho⟩))
          (by
            cases tasks with
            | nil => exact absurd rfl (htne hne)
            | cons t ts => exact ⟨t, by simp, hflag t (by simp)⟩)
        have hall : ¬ ((tasks ++ vtasks).all (fun t => !t.covVariants) = true) := by
          intro h
          rw [List.all_eq_true] at h
          cases vtasks with
          | nil => exact hvtne hvs rfl
          | cons t ts =>
            have := h t (by simp)
            rw [hvflag t (by simp)] at this
            simp at this
        rw [h1, if_neg hall]
        simp only
        apply hfin
        · rw [List.filter_append, List.filter_eq_self.mpr (by intro t ht; simp [hflag t ht]),
            List.filter_eq_nil_iff.mpr (by intro t ht; simp [hvflag t ht]), List.append_nil, hflat] at h2
          exact h2
        · rw [List.filter_append, List.filter_eq_nil_iff.mpr (by intro t ht; simp [hflag t ht]),
            List.filter_eq_self.mpr (by intro t ht; simp [hvflag t ht]), List.nil_append, hvflat] at h3
          exact h3
  · rw [if_neg hm]
    obtain ⟨rows, h1, h2⟩ := hI.ok orbits (sortBy id times) hg
    obtain ⟨vrows, h3, h4⟩ := hI.ok vs (sortBy id times) hgv
    rw [h1]
    simp only
    rw [if_pos hb2, hcr]
    simp only
    rw [h3]
    exact hfin rows vrows h2 h4

/-- An orbit the backend cannot handle makes the call raise, with and without workers. -/
theorem propagate_error (hI : Independent E.backend good f) (pick : Nat → Nat) (isVar : Bool) (orbits : List (Orb I O S))
    (times : List (ℤ ×ₗ ℤ)) (covariance : Bool) (chunk maxProc : Int) (hc : 0 < chunk) (o : Orb I O S) (ho : o ∈ orbits)
    (hb : ¬ good o) : ∃ e, propagateOrbits E pick isVar orbits times covariance chunk maxProc = .error e := by
  unfold propagateOrbits
  split
  · exact ⟨_, rfl⟩
  · simp only
    split
    · cases htk : chunkTasks false orbits chunk with
      | error e => exact ⟨e, rfl⟩
      | ok tasks =>
        obtain ⟨hflat, _, _⟩ := chunkTasks_flat false orbits hc htk
        rw [← hflat] at ho
        obtain ⟨t, ht, hot⟩ := List.mem_flatMap.mp ho
        simp only
        split
        · cases E.create orbits with
          | error e => exact ⟨e, rfl⟩
          | ok vs =>
            simp only
            cases chunkTasks true vs chunk with
            | error e => exact ⟨e, rfl⟩
            | ok vtasks =>
              simp only
              obtain ⟨e, he⟩ := gatherOrbits_error hI pick (tasks ++ vtasks) (sortBy id times) maxProc.toNat t
                (List.mem_append_left _ ht) o hot hb
              rw [he]
              exact ⟨e, rfl⟩
        · obtain ⟨e, he⟩ := gatherOrbits_error hI pick tasks (sortBy id times) maxProc.toNat t ht o hot hb
          rw [he]
          exact ⟨e, rfl⟩
    · obtain ⟨e, he⟩ := hI.bad orbits (sortBy id times) o ho hb
      rw [he]
      exact ⟨e, rfl⟩

end gatherOrbits

end Verif.Sched
