import Verif.Sched.Model
import Verif.Sched.Spec
import Verif.Chunk.Lemmas
import Mathlib.Data.List.Perm.Basic

/-! Helper lemmas for scheduling. -/

namespace Verif.Sched

open Verif Spec

set_option linter.unusedSectionVars false

/-! ### the scheduling loop -/

section loop
variable {α : Type} (full : Nat → Bool) (pick : Nat → Nat)

theorem wait_spec (s : St α) (h : s.pending ≠ []) :
    ((wait pick s).pending ++ (wait pick s).done).Perm (s.pending ++ s.done) ∧
    (wait pick s).pending.length + 1 = s.pending.length ∧ (wait pick s).peak = s.peak := by
  have hlen : 0 < s.pending.length := List.length_pos_iff.mpr h
  have hi := Nat.mod_lt (pick s.waits) hlen
  unfold wait
  rw [List.getElem?_eq_getElem hi]
  simp only
  refine ⟨?_, ?_, trivial⟩
  · have hp := List.getElem_cons_eraseIdx_perm hi
    calc _ = (s.pending.eraseIdx (pick s.waits % s.pending.length) ++ s.done) ++
            [s.pending[pick s.waits % s.pending.length]] := by rw [List.append_assoc]
      _ |>.Perm (s.pending[pick s.waits % s.pending.length] ::
            (s.pending.eraseIdx (pick s.waits % s.pending.length) ++ s.done)) := List.perm_append_singleton _ _
      _ |>.Perm (s.pending ++ s.done) := by rw [← List.cons_append]; exact hp.append_right _
  · rw [List.length_eraseIdx_of_lt hi]; omega

theorem drain_spec (n : Nat) (s : St α) (h : s.pending.length ≤ n) :
    (drain pick n s).pending = [] ∧ (drain pick n s).done.Perm (s.pending ++ s.done) ∧
    (drain pick n s).peak = s.peak := by
  induction n generalizing s with
  | zero =>
    have : s.pending = [] := by simpa using h
    simp [drain, this]
  | succ n ih =>
    unfold drain
    by_cases hp : s.pending = []
    · simp [hp]
    · rw [if_neg (by simpa using hp)]
      obtain ⟨h1, h2, h3⟩ := wait_spec pick s hp
      obtain ⟨k1, k2, k3⟩ := ih (wait pick s) (by omega)
      exact ⟨k1, k2.trans h1, k3.trans h3⟩

theorem submit_spec (s : St α) (a : α) :
    ((submit full pick s a).pending ++ (submit full pick s a).done).Perm (a :: (s.pending ++ s.done)) ∧
    (submit full pick s a).peak = max s.peak (s.pending.length + 1) ∧
    (submit full pick s a).pending.length =
      (if full (s.pending.length + 1) then s.pending.length else s.pending.length + 1) := by
  unfold submit
  simp only [List.length_append, List.length_singleton]
  have hp : ((s.pending ++ [a]) ++ s.done).Perm (a :: (s.pending ++ s.done)) := by
    rw [List.append_assoc]
    exact List.perm_middle
  split
  · obtain ⟨h1, h2, h3⟩ := wait_spec pick
      (⟨s.pending ++ [a], s.done, s.waits, max s.peak (s.pending.length + 1)⟩ : St α) (by simp)
    refine ⟨h1.trans hp, h3, ?_⟩
    simp at h2
    exact h2
  · exact ⟨hp, rfl, by simp⟩

theorem foldl_perm (tasks : List α) (s : St α) :
    ((tasks.foldl (submit full pick) s).pending ++ (tasks.foldl (submit full pick) s).done).Perm
      (tasks ++ (s.pending ++ s.done)) := by
  induction tasks generalizing s with
  | nil => exact List.Perm.refl _
  | cons a l ih =>
    rw [List.foldl_cons]
    refine (ih (submit full pick s a)).trans ?_
    refine ((submit_spec full pick s a).1.append_left l).trans ?_
    exact List.perm_middle

theorem runAll_perm (tasks : List α) : (runAll full pick tasks).done.Perm tasks := by
  unfold runAll
  have h := foldl_perm full pick tasks ⟨[], [], 0, 0⟩
  simp only [List.append_nil] at h
  exact (drain_spec pick _ _ (le_refl _)).2.1.trans h

theorem runAll_pending (tasks : List α) : (runAll full pick tasks).pending = [] :=
  (drain_spec pick _ _ (le_refl _)).1

/-- If the queue is full from size `b + 1` on, at most `b + 1` tasks are outstanding at any time. -/
theorem runAll_peak (b : Nat) (hb : ∀ n, b < n → full n = true) (tasks : List α) :
    (runAll full pick tasks).peak ≤ b + 1 := by
  unfold runAll
  rw [(drain_spec pick _ _ (le_refl _)).2.2]
  have key : ∀ (l : List α) (s : St α), s.pending.length ≤ b → s.peak ≤ b + 1 →
      (l.foldl (submit full pick) s).pending.length ≤ b ∧ (l.foldl (submit full pick) s).peak ≤ b + 1 := by
    intro l
    induction l with
    | nil => intro s h1 h2; exact ⟨h1, h2⟩
    | cons a l ih =>
      intro s h1 h2
      rw [List.foldl_cons]
      obtain ⟨_, k2, k3⟩ := submit_spec full pick s a
      apply ih
      · rw [k3]
        split
        · exact h1
        · rename_i hf
          by_contra hc
          exact hf (hb _ (by omega))
      · rw [k2]; omega
  exact (key tasks ⟨[], [], 0, 0⟩ (by simp) (by simp)).2

end loop

/-! ### gathering results -/

section gather
variable {α β ε : Type} {work : α → Except ε β}

theorem gather_ok {l : List α} {g : α → β} (h : ∀ a ∈ l, work a = .ok (g a)) : gather work l = .ok (l.map g) := by
  induction l with
  | nil => rfl
  | cons a l ih =>
    unfold gather
    rw [h a (by simp)]
    simp only
    rw [ih (fun b hb => h b (List.mem_cons_of_mem _ hb))]
    rfl

theorem gather_error {l : List α} {a : α} (ha : a ∈ l) (h : ∃ e, work a = .error e) : ∃ e, gather work l = .error e := by
  induction l with
  | nil => simp at ha
  | cons b l ih =>
    unfold gather
    cases hb : work b with
    | error e => exact ⟨e, rfl⟩
    | ok x =>
      simp only
      rcases List.mem_cons.mp ha with rfl | ha
      · obtain ⟨e, he⟩ := h; rw [hb] at he; cases he
      · obtain ⟨e, he⟩ := ih ha
        rw [he]; exact ⟨e, rfl⟩

theorem gather_error_of {l : List α} {e : ε} (h : gather work l = .error e) : ∃ a ∈ l, work a = .error e := by
  induction l with
  | nil => cases h
  | cons b l ih =>
    unfold gather at h
    cases hb : work b with
    | error e' =>
      rw [hb] at h
      simp only [Except.error.injEq] at h
      exact ⟨b, by simp, by rw [hb, h]⟩
    | ok x =>
      rw [hb] at h
      simp only at h
      cases hg : gather work l with
      | error e' =>
        rw [hg] at h
        simp only [Except.error.injEq] at h
        obtain ⟨a, ha, hw⟩ := ih (by rw [hg, h])
        exact ⟨a, List.mem_cons_of_mem _ ha, hw⟩
      | ok y => rw [hg] at h; cases h

/-- On success the gathered list is, up to order, the list of results of the tasks. -/
theorem runTasks_ok (full : Nat → Bool) (pick : Nat → Nat) {tasks : List α} {g : α → β}
    (h : ∀ a ∈ tasks, work a = .ok (g a)) :
    runTasks full pick work tasks = .ok ((runAll full pick tasks).done.map g) :=
  gather_ok fun a ha => h a ((runAll_perm full pick tasks).mem_iff.mp ha)

theorem runTasks_error (full : Nat → Bool) (pick : Nat → Nat) {tasks : List α} {a : α} (ha : a ∈ tasks)
    (h : ∃ e, work a = .error e) : ∃ e, runTasks full pick work tasks = .error e :=
  gather_error ((runAll_perm full pick tasks).mem_iff.mpr ha) h

end gather

/-! ### sorting -/

section sort
variable {α K : Type} [LinearOrder K] (key : α → K)

theorem sortBy_perm (l : List α) : (sortBy key l).Perm l := List.perm_insertionSort _ l

theorem sortBy_sorted (l : List α) : (sortBy key l).Pairwise fun a b => key a ≤ key b := by
  unfold sortBy
  have : Std.Total (fun a b => key a ≤ key b) := ⟨fun a b => le_total _ _⟩
  have : IsTrans α (fun a b => key a ≤ key b) := ⟨fun a b c h1 h2 => le_trans h1 h2⟩
  exact List.pairwise_insertionSort _ l

theorem eq_of_sorted {l m : List α} (hp : l.Perm m) (hc : ∀ a ∈ l, ∀ b ∈ l, key a = key b → a = b)
    (hl : l.Pairwise fun a b => key a ≤ key b) (hm : m.Pairwise fun a b => key a ≤ key b) : l = m := by
  refine List.Perm.eq_of_pairwise (le := fun a b => key a ≤ key b) ?_ hl hm hp
  intro a b ha hb h1 h2
  exact hc a ha b (hp.mem_iff.mpr hb) (le_antisymm h1 h2)

/-- Sorting forgets the order of the input when rows with equal keys are equal. -/
theorem sortBy_congr {l m : List α} (hp : l.Perm m) (hc : ∀ a ∈ l, ∀ b ∈ l, key a = key b → a = b) :
    sortBy key l = sortBy key m := by
  refine eq_of_sorted key (((sortBy_perm key l).trans hp).trans (sortBy_perm key m).symm) ?_
    (sortBy_sorted key l) (sortBy_sorted key m)
  intro a ha b hb
  exact hc a ((sortBy_perm key l).mem_iff.mp ha) b ((sortBy_perm key l).mem_iff.mp hb)

theorem sortBy_of_sorted {l : List α} (h : l.Pairwise fun a b => key a ≤ key b) : sortBy key l = l := by
  unfold sortBy
  have : Std.Total (fun a b => key a ≤ key b) := ⟨fun a b => le_total _ _⟩
  have : IsTrans α (fun a b => key a ≤ key b) := ⟨fun a b c h1 h2 => le_trans h1 h2⟩
  exact List.Pairwise.insertionSort_eq h

end sort

/-! ### keys against the specification -/

theorem rowKey_le {I X C : Type} [LinearOrder I] (isVar : Bool) (a b : Row I X C) :
    rowKey isVar a ≤ rowKey isVar b ↔ RowLe isVar a b := by
  unfold rowKey RowLe
  rw [Prod.Lex.toLex_le_toLex, Prod.Lex.toLex_le_toLex]
  cases isVar
  · simp only [Bool.false_eq_true, if_false, lt_irrefl, false_or, true_and, false_and, IsEmpty.forall_iff]
    rw [Prod.Lex.le_iff]
  · simp only [if_true, true_and, forall_const]
    rw [Prod.Lex.le_iff]

theorem rowKey_eq {I X C : Type} [LinearOrder I] (isVar : Bool) (a b : Row I X C) :
    rowKey isVar a = rowKey isVar b ↔ RowSame isVar a b := by
  unfold rowKey RowSame
  rw [toLex_inj, Prod.mk.injEq, toLex_inj, Prod.mk.injEq]
  cases isVar <;> simp

theorem ephKey_le {I Z : Type} [LinearOrder I] (isVar : Bool) (a b : Eph I Z) :
    ephKey isVar a ≤ ephKey isVar b ↔ EphLe isVar a b := by
  unfold ephKey EphLe
  rw [Prod.Lex.toLex_le_toLex, Prod.Lex.toLex_le_toLex, Prod.Lex.toLex_le_toLex]
  cases isVar <;> simp

theorem ephKey_eq {I Z : Type} [LinearOrder I] (isVar : Bool) (a b : Eph I Z) :
    ephKey isVar a = ephKey isVar b ↔ EphSame isVar a b := by
  unfold ephKey EphSame
  rw [toLex_inj, Prod.mk.injEq, toLex_inj, Prod.mk.injEq, toLex_inj, Prod.mk.injEq]
  cases isVar <;> simp

/-! ### chunks of row numbers -/

theorem take_range' {α : Type} (l : List α) (i c : Nat) :
    take l ((List.range l.length).drop i |>.take c) = (l.drop i).take c := by
  unfold take
  have : (List.range l.length).filterMap (fun i => l[i]?) = l := by
    induction l with
    | nil => rfl
    | cons a l ih =>
      rw [List.length_cons, List.range_succ_eq_map, List.filterMap_cons]
      simp only [List.getElem?_cons_zero, List.filterMap_map]
      congr 1
  have hmap : ∀ m : List Nat, (∀ i ∈ m, i < l.length) → (m.filterMap fun i => l[i]?).map some = m.map fun i => l[i]? := by
    intro m
    induction m with
    | nil => intro _; rfl
    | cons j m ih =>
      intro h
      have hj := h j (by simp)
      rw [List.filterMap_cons, List.getElem?_eq_getElem hj]
      simp only [List.map_cons]
      rw [ih (fun i hi => h i (List.mem_cons_of_mem _ hi)), List.getElem?_eq_getElem hj]
  have hs : Function.Injective (List.map (some : α → Option α)) :=
    List.map_injective_iff.mpr (Option.some_injective _)
  apply hs
  rw [hmap _ (fun i hi => by
    have := List.mem_of_mem_drop (List.mem_of_mem_take hi)
    exact List.mem_range.mp this)]
  rw [List.map_take, List.map_drop, List.map_take, List.map_drop]
  congr 2
  rw [← hmap _ (fun i hi => List.mem_range.mp hi), this]

/-- The chunks of row numbers, and what `take` makes of them. -/
theorem chunks_range {α : Type} (l : List α) {c : Int} (hc : 0 < c) :
    Chunk.iterateChunks (List.range l.length) c =
      .ok ((Chunk.rangeFrom 0 l.length c.toNat).map fun i => ((List.range l.length).drop i).take c.toNat) := by
  unfold Chunk.iterateChunks
  rw [Chunk.range_pos (by omega)]
  simp [Chunk.slice_eq]

theorem chunks_take_flatten {α : Type} (l : List α) {c : Nat} (hc : 0 < c) :
    ((Chunk.rangeFrom 0 l.length c).map fun i => take l (((List.range l.length).drop i).take c)).flatten = l := by
  have := Chunk.chunks_flatten l hc 0
  rw [List.drop_zero] at this
  conv_rhs => rw [← this]
  congr 1
  apply List.map_congr_left
  intro i _
  rw [take_range', Chunk.slice_eq]

end Verif.Sched
