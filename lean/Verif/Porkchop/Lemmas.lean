import Verif.Porkchop.Model
import Verif.Chunk.Lemmas
import Verif.Sched.TwoBody
import Verif.Xform.Props

/-! Lemmas on the porkchop model. -/

namespace Verif.Porkchop

open Classical Verif Sched

/-- All pairs with the departure before the arrival, arrival by arrival. -/
noncomputable def grid (dep arr : List Body) : List (Body × Body) :=
  arr.flatMap fun a => (dep.filter fun d => decide (mjd d < mjd a)).map fun d => (d, a)

theorem range_filterMap {α β : Type} (l : List α) (g : α → Option β) :
    (List.range l.length).filterMap (fun i => l[i]?.bind g) = l.filterMap g := by
  induction l with
  | nil => rfl
  | cons a l ih =>
    rw [List.length_cons, List.range_succ_eq_map, List.filterMap_cons, List.filterMap_map, List.filterMap_cons]
    have : ((fun i => (a :: l)[i]?.bind g) ∘ Nat.succ) = fun i => l[i]?.bind g := by
      funext i; simp
    rw [this, ih]
    simp

theorem range_flatMap {α β : Type} (l : List α) (g : α → List β) :
    (List.range l.length).flatMap (fun i => match l[i]? with | some a => g a | none => []) = l.flatMap g := by
  induction l with
  | nil => rfl
  | cons a l ih =>
    rw [List.length_cons, List.range_succ_eq_map, List.flatMap_cons, List.flatMap_map, List.flatMap_cons]
    simp only [List.getElem?_cons_zero, List.getElem?_cons_succ]
    rw [ih]

theorem take_fst (dep arr : List Body) : take dep ((pairs dep arr).map Prod.fst) = (grid dep arr).map Prod.fst := by
  unfold take pairs grid
  rw [List.filterMap_map, List.filterMap_flatMap, List.map_flatMap, ← range_flatMap arr]
  congr 1
  funext j
  rw [List.filterMap_filterMap]
  cases hj : arr[j]? with
  | none => simp
  | some a =>
    simp only
    rw [List.map_map, ← List.filterMap_eq_map, List.filterMap_filter, ← range_filterMap dep]
    congr 1
    funext i
    cases hi : dep[i]? with
    | none => rfl
    | some d =>
      by_cases h : mjd d < mjd a <;> simp [h, hi]

theorem take_snd (dep arr : List Body) : take arr ((pairs dep arr).map Prod.snd) = (grid dep arr).map Prod.snd := by
  unfold take pairs grid
  rw [List.filterMap_map, List.filterMap_flatMap, List.map_flatMap, ← range_flatMap arr]
  congr 1
  funext j
  rw [List.filterMap_filterMap]
  cases hj : arr[j]? with
  | none => simp
  | some a =>
    simp only
    rw [List.map_map, ← List.filterMap_eq_map, List.filterMap_filter, ← range_filterMap dep]
    congr 1
    funext i
    cases hi : dep[i]? with
    | none => rfl
    | some d =>
      by_cases h : mjd d < mjd a <;> simp [h, hj]

theorem mem_grid {dep arr : List Body} {p : Body × Body} :
    p ∈ grid dep arr ↔ p.1 ∈ dep ∧ p.2 ∈ arr ∧ mjd p.1 < mjd p.2 := by
  unfold grid
  rw [List.mem_flatMap]
  constructor
  · rintro ⟨a, ha, h⟩
    rw [List.mem_map] at h
    obtain ⟨d, hd, rfl⟩ := h
    rw [List.mem_filter, decide_eq_true_eq] at hd
    exact ⟨hd.1, ha, hd.2⟩
  · rintro ⟨h1, h2, h3⟩
    exact ⟨p.2, h2, List.mem_map.mpr ⟨p.1, List.mem_filter.mpr ⟨h1, by simpa using h3⟩, rfl⟩⟩

theorem grid_perm {dep dep' arr arr' : List Body} (h1 : dep.Perm dep') (h2 : arr.Perm arr') : (grid dep arr).Perm (grid dep' arr') := by
  unfold grid
  refine (h2.flatMap_right _).trans ?_
  refine List.Perm.flatMap_left _ fun a _ => ?_
  exact (h1.filter _).map _

/-- One row of the result. -/
noncomputable def row (P : Params) (mu : ℝ) (p : Body × Body) : Solution :=
  ⟨p.1, p.2, Lambert.izzoLambert p.1.r p.2.r (mjd p.2 - mjd p.1) mu 0 P.prograde true P.maxIter P.tol P.tol, P.origin⟩

theorem worker_ok {P : Params} {mu : ℝ} (hmu : P.mu = some mu) (frame : String) (g : List (Body × Body)) :
    worker P frame (g.map Prod.fst) (g.map Prod.snd) = .ok ⟨frame, g.map (row P mu)⟩ := by
  unfold worker
  rw [hmu]
  simp only
  congr 2
  induction g with
  | nil => rfl
  | cons p g ih => simp only [List.map_cons, List.zipWith_cons_cons, ih]; rfl

theorem concat_foldl (frame : String) (L : List (List Solution)) (s : Solutions) (hs : s.rows = [] ∨ s.frame = frame)
    (hL : ∀ l ∈ L, l ≠ []) (hne : s.rows ++ L.flatten ≠ []) :
    (L.map fun l => (⟨frame, l⟩ : Solutions)).foldlM concat s = .ok ⟨frame, s.rows ++ L.flatten⟩ := by
  induction L generalizing s with
  | nil =>
    rw [List.flatten_nil, List.append_nil] at hne ⊢
    rcases hs with hs | hs
    · exact absurd hs hne
    · subst hs; rfl
  | cons l L ih =>
    rw [List.map_cons, List.foldlM_cons]
    have hl : l ≠ [] := hL l (by simp)
    have hc : concat s ⟨frame, l⟩ = .ok ⟨frame, s.rows ++ l⟩ := by
      unfold concat
      by_cases h : s.rows = []
      · rw [if_pos h, h]; rfl
      · rw [if_neg h, if_neg hl]
        rcases hs with hs | hs
        · exact absurd hs h
        · rw [if_pos hs, hs]
    rw [hc]
    change (L.map fun l => (⟨frame, l⟩ : Solutions)).foldlM concat ⟨frame, s.rows ++ l⟩ = _
    rw [ih ⟨frame, s.rows ++ l⟩ (.inr rfl) (fun l' hl' => hL l' (by simp [hl'])) (by simp [hl])]
    simp

theorem slice_map {α β : Type} (f : α → β) (l : List α) (i c : Nat) : Chunk.slice (l.map f) i c = (Chunk.slice l i c).map f := by
  unfold Chunk.slice
  rw [← List.map_take, ← List.map_drop]

theorem mem_rangeFrom {n c : Nat} (hc : 0 < c) (i : Nat) : ∀ j ∈ Chunk.rangeFrom i n c, j < n := by
  refine Chunk.range_induction (n := n) hc (P := fun i => ∀ j ∈ Chunk.rangeFrom i n c, j < n) ?_ ?_ i
  · intro i h j hj
    rw [Chunk.rangeFrom_done h] at hj
    simp at hj
  · intro i h ih j hj
    rw [Chunk.rangeFrom_step h hc, List.mem_cons] at hj
    rcases hj with rfl | hj
    · exact h
    · exact ih j hj

theorem slice_ne_nil {α : Type} {l : List α} {i c : Nat} (hi : i < l.length) (hc : 0 < c) : Chunk.slice l i c ≠ [] := by
  unfold Chunk.slice
  intro h
  have := congrArg List.length h
  simp at this
  omega

/-- The rows of the result, whatever the number of workers. -/
theorem solveAll_ok {P : Params} {mu : ℝ} (hmu : P.mu = some mu) (frame : String) (pick : Nat → Nat) (maxProc : Option Nat)
    {g : List (Body × Body)} (hg : g ≠ []) :
    ∃ rows, solveAll P frame pick maxProc (g.map Prod.fst) (g.map Prod.snd) = .ok ⟨frame, rows⟩ ∧ rows.Perm (g.map (row P mu)) ∧
      (maxProc = none → rows = g.map (row P mu)) := by
  unfold solveAll
  cases maxProc with
  | none => exact ⟨_, worker_ok hmu frame g, List.Perm.refl _, fun _ => rfl⟩
  | some m =>
    simp only
    rw [List.length_map]
    set is := Chunk.rangeFrom 0 g.length 100
    have ht : (is.map fun i => (Chunk.slice (g.map Prod.fst) i 100, Chunk.slice (g.map Prod.snd) i 100)) =
        (is.map fun i => Chunk.slice g i 100).map fun l => (l.map Prod.fst, l.map Prod.snd) := by
      rw [List.map_map]
      refine List.map_congr_left fun i _ => ?_
      simp only [Function.comp, slice_map]
    rw [ht]
    have hp := runAll_perm (moreThan m) pick (is.map fun i => Chunk.slice g i 100)
    have hr : runTasks (moreThan m) pick (fun t : List Body × List Body => worker P frame t.1 t.2)
        ((is.map fun i => Chunk.slice g i 100).map fun l => (l.map Prod.fst, l.map Prod.snd)) =
        .ok (((runAll (moreThan m) pick (is.map fun i => Chunk.slice g i 100)).done).map fun l => ⟨frame, l.map (row P mu)⟩) := by
      unfold runTasks
      rw [runAll_map]
      generalize (runAll (moreThan m) pick (is.map fun i => Chunk.slice g i 100)).done = D
      clear hp ht
      induction D with
      | nil => rfl
      | cons l D ih =>
        simp only [List.map_cons]
        unfold gather
        rw [worker_ok hmu]
        simp only
        rw [ih]
    rw [hr]
    simp only
    set D := (runAll (moreThan m) pick (is.map fun i => Chunk.slice g i 100)).done
    have hfl : D.flatten.Perm g := by
      refine hp.flatten.trans ?_
      rw [Chunk.chunks_flatten g (by norm_num) 0, List.drop_zero]
    have hD : ∀ l ∈ D, l ≠ [] := by
      intro l hl
      have := hp.mem_iff.mp hl
      rw [List.mem_map] at this
      obtain ⟨i, hi, rfl⟩ := this
      exact slice_ne_nil (mem_rangeFrom (by norm_num) 0 i hi) (by norm_num)
    have hf := concat_foldl frame (D.map fun l => l.map (row P mu)) Solutions.empty (.inl rfl)
      (by
        intro l hl
        rw [List.mem_map] at hl
        obtain ⟨l', hl', rfl⟩ := hl
        simpa using hD l' hl')
      (by
        simp only [Solutions.empty, List.nil_append]
        rw [← List.map_flatten]
        intro h
        rw [List.map_eq_nil_iff] at h
        rw [h] at hfl
        exact hg (List.nil_perm.mp hfl))
    rw [List.map_map] at hf
    refine ⟨_, hf, ?_, fun h => absurd h (by simp)⟩
    simp only [Solutions.empty, List.nil_append]
    rw [← List.map_flatten]
    exact hfl.map _

end Verif.Porkchop
