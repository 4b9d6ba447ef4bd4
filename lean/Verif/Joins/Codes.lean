import Verif.Joins.Lemmas
import Verif.Joins.Spec

/-! Lemmas on `from_codes`. -/

namespace Verif.Joins

open Verif Sched Spec

section
variable {C T S : Type} [DecidableEq C] (stateOf : C → List T → Except PyErr (List S))

/-- The times at the positions of a code are the times requested for it. -/
theorem take_positions (codes : List (Option C)) (times : List T) (h : codes.length = times.length) (c : C) :
    take times ((List.range codes.length).filter fun i => decide (codes[i]? = some (some c))) = timesOf codes times c := by
  unfold timesOf take
  induction codes generalizing times with
  | nil => simp
  | cons a codes ih =>
    cases times with
    | nil => simp at h
    | cons t times =>
      simp only [List.length_cons, Nat.add_right_cancel_iff] at h
      have ih := ih times h
      rw [List.length_cons, List.range_succ_eq_map, List.filter_cons, List.zip_cons_cons, List.filter_cons]
      have hm : ((List.range codes.length).map Nat.succ).filter
            (fun i => decide ((a :: codes)[i]? = some (some c))) =
          ((List.range codes.length).filter fun i => decide (codes[i]? = some (some c))).map Nat.succ := by
        rw [List.filter_map]
        rfl
      rw [hm]
      have hr : (((List.range codes.length).filter fun i => decide (codes[i]? = some (some c))).map Nat.succ).filterMap
          (fun i => (t :: times)[i]?) =
          ((List.range codes.length).filter fun i => decide (codes[i]? = some (some c))).filterMap fun i => times[i]? := by
        rw [List.filterMap_map]
        rfl
      by_cases hac : a = some c
      · simp only [List.getElem?_cons_zero, hac, decide_true, if_true]
        rw [List.filterMap_cons]
        simp only [List.getElem?_cons_zero]
        rw [hr, ih]
        simp
      · have : ¬ (decide ((a :: codes)[0]? = some (some c)) = true) := by simpa using hac
        rw [if_neg this, hr, ih]
        have : ¬ (decide (a = some c) = true) := by simpa using hac
        rw [if_neg this]

theorem codePart_ok (codes : List (Option C)) (times : List T) (g : C → T → S) (hg : RowsOf stateOf g)
    (hl : codes.length = times.length) (c : C) {ss : List S} (h : stateOf c (timesOf codes times c) = .ok ss) :
    codePart stateOf codes times (some c) =
      .ok (((List.range codes.length).filter fun i => decide (codes[i]? = some (some c))).zip
        ((timesOf codes times c).map fun t => (c, g c t))) := by
  unfold codePart
  simp only
  rw [take_positions codes times hl c, h]
  have he := hg _ _ _ h
  simp only
  have hlen : ss.length = ((List.range codes.length).filter fun i => decide (codes[i]? = some (some c))).length := by
    rw [he, List.length_map, ← take_positions codes times hl c]
    unfold take
    have : ∀ (l : List Nat), (∀ i ∈ l, i < times.length) → (l.filterMap fun i => times[i]?).length = l.length := by
      intro l hl
      induction l with
      | nil => rfl
      | cons i l ih =>
        rw [List.forall_mem_cons] at hl
        rw [List.filterMap_cons, List.getElem?_eq_getElem hl.1]
        simp only [List.length_cons, ih hl.2]
    apply this
    intro i hi
    rw [List.mem_filter, List.mem_range] at hi
    omega
  rw [if_neg (by simpa using hlen), he, List.map_map]
  rfl

/-- The table for one code: the rows at its positions. -/
theorem zip_positions (codes : List (Option C)) (times : List T) (hl : codes.length = times.length) (g : C → T → S) (c : C) :
    ((List.range codes.length).filter fun i => decide (codes[i]? = some (some c))).zip
        ((timesOf codes times c).map fun t => (c, g c t)) =
      (((List.zipWith (fun c t => (c, t)) codes times).zipIdx.filter fun p => decide (p.1.1 = some c)).map fun p =>
        (p.2, c, g c p.1.2)) := by
  unfold timesOf
  have key : ∀ (n : Nat) (codes : List (Option C)) (times : List T), codes.length = times.length →
      ((List.range' n codes.length).filter fun i => decide (codes[i - n]? = some (some c))).zip
        ((((codes.zip times).filter fun p => decide (p.1 = some c)).map Prod.snd).map fun t => (c, g c t)) =
      (((List.zipWith (fun c t => (c, t)) codes times).zipIdx n).filter fun p => decide (p.1.1 = some c)).map fun p =>
        (p.2, c, g c p.1.2) := by
    intro n codes
    induction codes generalizing n with
    | nil => intro times _; simp
    | cons a codes ih =>
      intro times hl
      cases times with
      | nil => simp at hl
      | cons t times =>
        simp only [List.length_cons, Nat.add_right_cancel_iff] at hl
        have ih := ih (n + 1) times hl
        rw [List.length_cons, List.range'_succ, List.filter_cons, List.zip_cons_cons, List.filter_cons,
          List.zipWith_cons_cons, List.zipIdx_cons, List.filter_cons]
        have hr : (List.range' (n + 1) codes.length).filter (fun i => decide ((a :: codes)[i - n]? = some (some c))) =
            (List.range' (n + 1) codes.length).filter fun i => decide (codes[i - (n + 1)]? = some (some c)) := by
          apply List.filter_congr
          intro i hi
          rw [List.mem_range'_1] at hi
          have : i - n = (i - (n + 1)) + 1 := by omega
          rw [this, List.getElem?_cons_succ]
        rw [hr]
        by_cases hac : a = some c
        · simp only [Nat.sub_self, List.getElem?_cons_zero, hac, decide_true, if_true, List.map_cons, List.zip_cons_cons]
          rw [ih]
        · simp only [Nat.sub_self, List.getElem?_cons_zero, Option.some.injEq, hac, decide_false, Bool.false_eq_true,
            if_false]
          exact ih
  have := key 0 codes times hl
  simpa [List.range_eq_range'] using this

/-- The rows of one code with their positions. -/
def rowsFor (cs : List C) (times : List T) (g : C → T → S) : Option C → List (Nat × C × S)
  | none => []
  | some c => ((List.zipWith (fun c t => (c, t)) (cs.map some) times).zipIdx.filter fun p => decide (p.1.1 = some c)).map
      fun p => (p.2, c, g c p.1.2)

/-- The parts of the table, in the order of the unique codes, are a rearrangement of all rows with their positions. -/
theorem parts_perm (cs : List C) (times : List T) (g : C → T → S) :
    ((uniq (cs.map some)).flatMap (rowsFor cs times g)).Perm
      ((List.zipWith (fun c t => (c, g c t)) cs times).zipIdx.map fun p => (p.2, p.1)) := by
  have h1 : ∀ o ∈ uniq (cs.map some), rowsFor cs times g o =
      ((List.zipWith (fun c t => (c, t)) cs times).zipIdx.filter fun p => decide (some p.1.1 = o)).map
        fun p => (p.2, p.1.1, g p.1.1 p.1.2) := by
    intro o ho
    rw [mem_uniq, List.mem_map] at ho
    obtain ⟨c, -, rfl⟩ := ho
    have hz : (List.zipWith (fun c t => (c, t)) (cs.map some) times).zipIdx =
        (List.zipWith (fun c t => (c, t)) cs times).zipIdx.map fun p => ((some p.1.1, p.1.2), p.2) := by
      rw [List.zipWith_map_left]
      have : List.zipWith (fun a b => (some a, b)) cs times =
          (List.zipWith (fun c t => (c, t)) cs times).map fun p => (some p.1, p.2) := by
        rw [List.map_zipWith]
      rw [this, List.zipIdx_map]
      rfl
    unfold rowsFor
    simp only
    rw [hz, List.filter_map, List.map_map]
    simp only [Function.comp_def]
    apply List.map_congr_left
    intro p hp
    rw [List.mem_filter] at hp
    have : p.1.1 = c := by simpa using hp.2
    rw [this]
  rw [List.flatMap_congr h1]
  refine (swap_perm (uniq (cs.map some)) (fun o (p : (C × T) × Nat) => decide (some p.1.1 = o))
    (fun _ p => (p.2, p.1.1, g p.1.1 p.1.2)) _).trans ?_
  apply List.Perm.of_eq
  have h2 : ∀ p ∈ (List.zipWith (fun c t => (c, t)) cs times).zipIdx,
      ((uniq (cs.map some)).filter fun o => decide (some p.1.1 = o)).map (fun _ => (p.2, p.1.1, g p.1.1 p.1.2)) =
        [(p.2, p.1.1, g p.1.1 p.1.2)] := by
    intro p hp
    have hm : some p.1.1 ∈ uniq (cs.map some) := by
      rw [mem_uniq]
      apply List.mem_map_of_mem
      have := List.fst_mem_of_mem_zipIdx hp
      exact (List.of_mem_zip this).1
    have : (uniq (cs.map some)).filter (fun o => decide (some p.1.1 = o)) = [some p.1.1] := by
      have hf : (fun o => decide (some p.1.1 = o)) = fun o => o == some p.1.1 := by
        funext o
        rw [Bool.eq_iff_iff, decide_eq_true_iff, beq_iff_eq]
        exact eq_comm
      rw [hf, List.filter_beq, List.count_eq_one_of_mem (nodup_uniq _) hm]
      rfl
    rw [this]
    rfl
  rw [List.flatMap_congr h2, ← List.map_eq_flatMap]
  have : List.zipWith (fun c t => (c, g c t)) cs times = (List.zipWith (fun c t => (c, t)) cs times).map
      fun p => (p.1, g p.1 p.2) := by rw [List.map_zipWith]
  rw [this, List.zipIdx_map, List.map_map]
  rfl

theorem sort_indexed {R : Type} (L : List R) {M : List (Nat × R)} (h : M.Perm (L.zipIdx.map fun p => (p.2, p.1))) :
    (sortBy Prod.fst M).map Prod.snd = L := by
  have hs : (L.zipIdx.map fun p => (p.2, p.1)).Pairwise fun a b => a.1 < b.1 := by
    have := List.pairwise_lt_range' (s := 0) (n := L.length) (step := 1)
    rw [← List.zipIdx_map_snd] at this
    rw [List.pairwise_map] at this ⊢
    exact this
  have hinj : ∀ a ∈ M, ∀ b ∈ M, a.1 = b.1 → a = b := by
    intro a ha b hb hab
    have ha := h.mem_iff.mp ha
    have hb := h.mem_iff.mp hb
    by_contra hne
    rw [List.mem_map] at ha hb
    obtain ⟨p, hp, rfl⟩ := ha
    obtain ⟨q, hq, rfl⟩ := hb
    rw [List.mem_zipIdx_iff_getElem?] at hp hq
    simp only at hab
    rw [hab, hq] at hp
    have : p.1 = q.1 := (Option.some.inj hp).symm
    exact hne (by rw [this, hab])
  rw [sortBy_congr Prod.fst h hinj, sortBy_of_sorted]
  · rw [List.map_map]
    exact List.zipIdx_map_fst 0 L
  · exact hs.imp fun h => h.le

end

end Verif.Joins
