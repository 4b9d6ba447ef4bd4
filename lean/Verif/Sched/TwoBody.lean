import Verif.Sched.Lemmas
import Verif.Chunk.Props

/-! Lemmas on `propagate_2body`. -/

namespace Verif.Sched

open Verif Spec Chunk.Spec

theorem zip_repeat_tile {α β : Type} (os : List α) (ts : List β) :
    (npRepeat os ts.length).zip (npTile ts os.length) = os.flatMap fun o => ts.map fun t => (o, t) := by
  induction os with
  | nil => simp [npRepeat, npTile]
  | cons o os ih =>
    have h1 : npRepeat (o :: os) ts.length = List.replicate ts.length o ++ npRepeat os ts.length := by
      simp [npRepeat]
    have h2 : npTile ts (o :: os).length = ts ++ npTile ts os.length := by
      simp [npTile, List.replicate_succ]
    rw [h1, h2, List.zip_append (by simp), ih, List.flatMap_cons]
    congr 1
    clear h1 h2 ih
    induction ts with
    | nil => rfl
    | cons t ts ih => simp [List.replicate_succ, ih]

theorem length_repeat {α : Type} (os : List α) (n : Nat) : (npRepeat os n).length = os.length * n := by
  induction os with
  | nil => simp [npRepeat]
  | cons o os ih =>
    unfold npRepeat at ih ⊢
    rw [List.flatMap_cons, List.length_append, ih]
    simp [Nat.succ_mul]; omega

theorem length_tile {α : Type} (ts : List α) (n : Nat) : (npTile ts n).length = n * ts.length := by
  simp [npTile]

section
variable {I S T M P O C : Type} (k : Kernel2 S T M C) {f : S × T × T × M → S}

def args2 (o : Orbit2 I S T M P O C) (t : T) : S × T × T × M := (o.state, o.t0, t, o.mu)

def rowOf (f : S × T × T × M → S) (o : Orbit2 I S T M P O C) (t : T) (c : CovOut C) : Row2 I S T P O C :=
  ⟨o.id, o.obj, o.phys, f (args2 o t), t, o.origin, c⟩

theorem zipWith_map_same {α β γ δ : Type} (h : β → γ → δ) (g : α → β) (g' : α → γ) (l : List α) :
    List.zipWith h (l.map g) (l.map g') = l.map fun a => h (g a) (g' a) := by
  induction l with
  | nil => rfl
  | cons a l ih => simp [ih]

theorem serial2_ok (hF : Rowwise k.F f) (orbits : List (Orbit2 I S T M P O C)) (times : List T)
    (hg : ∀ o ∈ orbits, ∀ t ∈ times, k.badIn o.state = false ∧ k.badOut (f (args2 o t)) = false) :
    serial2 k orbits times = .ok (orbits.flatMap fun o => times.map fun t => rowOf f o t
      (if orbits.all (fun o => o.cov.isNone) then .null else .matrix (k.transport (args2 o t) o.cov))) := by
  have hlen : (npRepeat orbits times.length).length = (npTile times orbits.length).length := by
    rw [length_repeat, length_tile]
  have hz := zip_repeat_tile orbits times
  have hargs : List.zipWith (fun (o : Orbit2 I S T M P O C) t => (o.state, o.t0, t, o.mu)) (npRepeat orbits times.length)
      (npTile times orbits.length) = ((npRepeat orbits times.length).zip (npTile times orbits.length)).map
        fun p => args2 p.1 p.2 := by
    rw [← List.map_uncurry_zip_eq_zipWith]; rfl
  have hrep : npRepeat orbits times.length =
      ((npRepeat orbits times.length).zip (npTile times orbits.length)).map Prod.fst := by
    rw [List.map_fst_zip (by omega)]
  have hmem : ∀ p ∈ (npRepeat orbits times.length).zip (npTile times orbits.length),
      p.1 ∈ orbits ∧ p.2 ∈ times := by
    intro p hp
    rw [hz] at hp
    obtain ⟨o, ho, hp⟩ := List.mem_flatMap.mp hp
    obtain ⟨t, ht, rfl⟩ := List.mem_map.mp hp
    exact ⟨ho, ht⟩
  unfold serial2
  simp only
  rw [hargs]
  rw [(Chunk.Props.C76_names_bad_row k.pad k.junk k.F f hF (fun a => k.badIn a.1) k.badOut _ 200 (by omega)).1 (by
    intro a ha
    obtain ⟨p, hp, rfl⟩ := List.mem_map.mp ha
    obtain ⟨h1, h2⟩ := hmem p hp
    exact hg p.1 h1 p.2 h2)]
  simp only
  congr 1
  generalize hP : (npRepeat orbits times.length).zip (npTile times orbits.length) = L at *
  have hcov : (if orbits.all (fun o => o.cov.isNone) then List.replicate (L.map fun p => args2 p.1 p.2).length CovOut.null
      else List.zipWith (fun a (o : Orbit2 I S T M P O C) => CovOut.matrix (k.transport a o.cov))
        (L.map fun p => args2 p.1 p.2) (npRepeat orbits times.length)) =
      L.map fun p => if orbits.all (fun o => o.cov.isNone) then CovOut.null
        else CovOut.matrix (k.transport (args2 p.1 p.2) p.1.cov) := by
    split
    · rw [List.map_const', List.length_map]
    · rw [hrep, zipWith_map_same]
  rw [hcov, List.map_map]
  have : ((L.map (f ∘ fun p => args2 p.1 p.2)).zip (L.map fun p => if orbits.all (fun o => o.cov.isNone) then CovOut.null
      else CovOut.matrix (k.transport (args2 p.1 p.2) p.1.cov))) =
      L.map fun p => (f (args2 p.1 p.2), if orbits.all (fun o => o.cov.isNone) then CovOut.null
        else CovOut.matrix (k.transport (args2 p.1 p.2) p.1.cov)) := by
    rw [List.zip_eq_zipWith, zipWith_map_same]; rfl
  rw [this]
  have h3 := zipWith_map_same (fun (ot : Orbit2 I S T M P O C × T) (sc : S × CovOut C) =>
      (⟨ot.1.id, ot.1.obj, ot.1.phys, sc.1, ot.2, ot.1.origin, sc.2⟩ : Row2 I S T P O C)) id
      (fun p : Orbit2 I S T M P O C × T => (f (args2 p.1 p.2), if orbits.all (fun o => o.cov.isNone) then CovOut.null
        else CovOut.matrix (k.transport (args2 p.1 p.2) p.1.cov))) L
  rw [List.map_id] at h3
  rw [h3, hz, List.map_flatMap]
  congr 1
  funext o
  rw [List.map_map]
  rfl

theorem serial2_bad (hF : Rowwise k.F f) (orbits : List (Orbit2 I S T M P O C)) (times : List T)
    (hb : ∃ o ∈ orbits, ∃ t ∈ times, k.badIn o.state = true ∨ k.badOut (f (args2 o t)) = true) :
    ∃ j, serial2 k orbits times = .error (.inr j) := by
  obtain ⟨o, ho, t, ht, hb⟩ := hb
  have hz := zip_repeat_tile orbits times
  have hargs : List.zipWith (fun (o : Orbit2 I S T M P O C) t => (o.state, o.t0, t, o.mu)) (npRepeat orbits times.length)
      (npTile times orbits.length) = (orbits.flatMap fun o => times.map fun t => (o, t)).map
        fun p => args2 p.1 p.2 := by
    rw [← List.map_uncurry_zip_eq_zipWith, hz]; rfl
  unfold serial2
  simp only
  rw [hargs]
  obtain ⟨j, _, hj, _⟩ := (Chunk.Props.C76_names_bad_row k.pad k.junk k.F f hF (fun a => k.badIn a.1) k.badOut
    ((orbits.flatMap fun o => times.map fun t => (o, t)).map fun p => args2 p.1 p.2) 200 (by omega)).2
    ⟨args2 o t, List.mem_map.mpr ⟨(o, t), List.mem_flatMap.mpr ⟨o, ho, List.mem_map.mpr ⟨t, ht, rfl⟩⟩, rfl⟩, hb⟩
  rw [hj]
  exact ⟨j, rfl⟩

theorem foldl_dictSet {V : Type} (l d : List (Nat × V)) (h : ((d ++ l).map Prod.fst).Nodup) :
    l.foldl dictSet d = d ++ l := by
  induction l generalizing d with
  | nil => simp
  | cons x l ih =>
    rw [List.foldl_cons]
    have hd : dictSet d x = d ++ [x] := by
      unfold dictSet
      congr 1
      rw [List.filter_eq_self]
      intro e he
      have hne : x.1 ≠ e.1 := by
        rw [List.map_append, List.map_cons] at h
        have := List.nodup_append.mp h
        intro heq
        exact this.2.2 e.1 (List.mem_map_of_mem he) x.1 (by simp) heq.symm
      simpa using fun h => hne h.symm
    rw [hd, ih _ (by simpa using h)]
    simp

theorem rangeFrom_sorted (n c : Nat) (hc : 0 < c) (i : Nat) : (Chunk.rangeFrom i n c).Pairwise (· < ·) := by
  induction i using Chunk.range_induction (n := n) hc with
  | done i h => rw [Chunk.rangeFrom_done h]; exact List.Pairwise.nil
  | step i h ih =>
    rw [Chunk.rangeFrom_step h hc]
    refine List.Pairwise.cons ?_ ih
    intro j hj
    have := (Chunk.mem_rangeFrom hc hj).1
    omega

/-- Results keyed by the start of their chunk come out in the order of the chunks, whatever the completion order. -/
theorem dict_sorted {V : Type} (starts : List Nat) (hs : starts.Pairwise (· < ·)) (g : Nat → V)
    (done : List Nat) (hd : done.Perm starts) :
    sortBy Prod.fst ((done.map fun i => (i, g i)).foldl dictSet []) = starts.map fun i => (i, g i) := by
  have hnd : done.Nodup := hd.nodup_iff.mpr (hs.imp fun h => Nat.ne_of_lt h)
  rw [foldl_dictSet _ _ (by simpa [List.map_map, Function.comp_def] using hnd), List.nil_append]
  rw [sortBy_congr Prod.fst (hd.map fun i => (i, g i))]
  · apply sortBy_of_sorted
    rw [List.pairwise_map]
    exact hs.imp fun h => Nat.le_of_lt h
  · intro a ha b hb hab
    obtain ⟨i, _, rfl⟩ := List.mem_map.mp ha
    obtain ⟨j, _, rfl⟩ := List.mem_map.mp hb
    simp only at hab
    rw [hab]

/-- The tasks are indexed by their starts. -/
theorem runAll_map {α β : Type} (full : Nat → Bool) (pick : Nat → Nat) (h : α → β) (tasks : List α) :
    (runAll full pick (tasks.map h)).done = (runAll full pick tasks).done.map h := by
  have hw : ∀ s : St α, wait pick (⟨s.pending.map h, s.done.map h, s.waits, s.peak⟩ : St β) =
      ⟨(wait pick s).pending.map h, (wait pick s).done.map h, (wait pick s).waits, (wait pick s).peak⟩ := by
    intro s
    unfold wait
    simp only [List.length_map, List.getElem?_map]
    cases s.pending[pick s.waits % s.pending.length]? with
    | none => rfl
    | some a =>
      simp only [Option.map_some, List.map_append, List.map_cons, List.map_nil, List.eraseIdx_map]
  have hs : ∀ (s : St α) (a : α), submit full pick (⟨s.pending.map h, s.done.map h, s.waits, s.peak⟩ : St β) (h a) =
      ⟨(submit full pick s a).pending.map h, (submit full pick s a).done.map h, (submit full pick s a).waits,
        (submit full pick s a).peak⟩ := by
    intro s a
    have := hw ⟨s.pending ++ [a], s.done, s.waits, max s.peak (s.pending.length + 1)⟩
    unfold submit
    simp only [List.length_append, List.length_map, List.length_singleton, List.map_append, List.map_cons,
      List.map_nil] at this ⊢
    split
    · exact this
    · simp
  have hf : ∀ (l : List α) (s : St α), (l.map h).foldl (submit full pick)
      (⟨s.pending.map h, s.done.map h, s.waits, s.peak⟩ : St β) =
      ⟨(l.foldl (submit full pick) s).pending.map h, (l.foldl (submit full pick) s).done.map h,
        (l.foldl (submit full pick) s).waits, (l.foldl (submit full pick) s).peak⟩ := by
    intro l
    induction l with
    | nil => intro s; rfl
    | cons a l ih =>
      intro s
      rw [List.map_cons, List.foldl_cons, hs, ih]
      rfl
  have hd : ∀ (n : Nat) (s : St α), drain pick n (⟨s.pending.map h, s.done.map h, s.waits, s.peak⟩ : St β) =
      ⟨(drain pick n s).pending.map h, (drain pick n s).done.map h, (drain pick n s).waits, (drain pick n s).peak⟩ := by
    intro n
    induction n with
    | zero => intro s; rfl
    | succ n ih =>
      intro s
      unfold drain
      by_cases hp : s.pending = []
      · simp [hp]
      · rw [if_neg (by simpa using hp), if_neg (by simpa using hp), hw, ih]
  have h0 := hf tasks ⟨[], [], 0, 0⟩
  simp only [List.map_nil] at h0
  unfold runAll
  simp only
  rw [h0]
  simp only [List.length_map]
  rw [hd]

end

end Verif.Sched
