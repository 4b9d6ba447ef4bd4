import Verif.Traj.Spec
import Verif.Sched.Lemmas
import Verif.Joins.Lemmas

/-! # Trajectories: the properties -/

set_option linter.unusedSectionVars false

namespace Verif.Traj.Props

open Verif Sched Spec

section
variable {I R : Type} [DecidableEq I]

/-- In windows sorted by start, neighbours that do not overlap mean that no two do. -/
theorem no_overlap (l : List (Seg I R)) (hs : l.Pairwise fun a b => a.start ≤ b.start) (hw : ∀ s ∈ l, s.start < s.stop) :
    anyOverlap l = false ↔ l.Pairwise fun a b => a.stop ≤ b.start := by
  induction l with
  | nil => simp [anyOverlap]
  | cons a l ih =>
    rw [List.pairwise_cons] at hs
    have ih' := ih hs.2 fun s hs' => hw s (by simp [hs'])
    cases l with
    | nil => simp [anyOverlap]
    | cons b l =>
      have hcons : anyOverlap (a :: b :: l) = (decide (b.start < a.stop) || anyOverlap (b :: l)) := by
        simp [anyOverlap]
      rw [hcons, Bool.or_eq_false_iff, ih', decide_eq_false_iff_not, not_lt, List.pairwise_cons (a := a)]
      constructor
      · rintro ⟨h1, h2⟩
        refine ⟨?_, h2⟩
        intro c hc
        rcases List.mem_cons.mp hc with rfl | hc
        · exact h1
        · have := (List.pairwise_cons.mp h2).1 c hc
          have := hw b (by simp)
          linarith
      · rintro ⟨h1, h2⟩
        exact ⟨h1 b (by simp), h2⟩

theorem apart_iff (a b : Seg I R) (ha : a.start < a.stop) (hb : b.start < b.stop) :
    (∀ time, ¬ (Covers a time ∧ Covers b time)) ↔ a.stop ≤ b.start ∨ b.stop ≤ a.start := by
  unfold Covers
  constructor
  · intro h
    by_contra hc
    push Not at hc
    rcases le_total a.start b.start with h1 | h1
    · exact h b.start ⟨⟨h1, hc.1⟩, ⟨le_refl _, hb⟩⟩
    · exact h a.start ⟨⟨le_refl _, ha⟩, ⟨h1, hc.2⟩⟩
  · rintro (h | h) time ⟨⟨h1, h2⟩, ⟨h3, h4⟩⟩ <;> linarith

theorem pairwise_filter_object (t : List (Seg I R)) (P : Seg I R → Seg I R → Prop) :
    (t.Pairwise fun a b => a.object = b.object → P a b) ↔
      ∀ o ∈ objectIds t, (t.filter fun s => decide (s.object = o)).Pairwise P := by
  constructor
  · intro h o _
    have := h.filter (fun s => decide (s.object = o))
    refine this.imp_of_mem ?_
    intro a b ha hb hp
    rw [List.mem_filter, decide_eq_true_eq] at ha hb
    exact hp (ha.2.trans hb.2.symm)
  · intro h
    have key : ∀ l : List (Seg I R), (∀ o, (l.filter fun s => decide (s.object = o)).Pairwise P) →
        l.Pairwise fun a b => a.object = b.object → P a b := by
      intro l
      induction l with
      | nil => intro _; exact List.Pairwise.nil
      | cons a l ih =>
        intro hl
        rw [List.pairwise_cons]
        constructor
        · intro b hb hab
          have := hl a.object
          rw [List.filter_cons_of_pos (by simp), List.pairwise_cons] at this
          exact this.1 b (List.mem_filter.mpr ⟨hb, by simpa using hab.symm⟩)
        · apply ih
          intro o
          have := hl o
          exact this.sublist (by
            rw [List.filter_cons]
            split
            · exact List.sublist_cons_self _ _
            · exact List.Sublist.refl _)
    apply key
    intro o
    by_cases ho : o ∈ objectIds t
    · exact h o ho
    · have : (t.filter fun s => decide (s.object = o)) = [] := by
        rw [List.filter_eq_nil_iff]
        intro s hs hc
        apply ho
        unfold objectIds
        rw [mem_uniq]
        exact List.mem_map.mpr ⟨s, hs, by simpa using hc⟩
      rw [this]
      exact List.Pairwise.nil

/-- Validation succeeds exactly for tables with non-empty windows, epochs inside, and no time covered twice for an
object. -/
theorem C62_valid (t : List (Seg I R)) : validate t = .ok t ↔ Valid t := by
  unfold validate
  by_cases h1 : (t.any fun s => decide (s.stop ≤ s.start)) = true
  · rw [if_pos h1]
    constructor
    · intro h; cases h
    · intro h
      rw [List.any_eq_true] at h1
      obtain ⟨s, hs, hd⟩ := h1
      have := h.window s hs
      rw [decide_eq_true_eq] at hd
      linarith
  · rw [if_neg h1]
    have hw : ∀ s ∈ t, s.start < s.stop := by
      intro s hs
      by_contra hc
      exact h1 (List.any_eq_true.mpr ⟨s, hs, by simpa using hc⟩)
    by_cases h2 : (t.any fun s => decide (s.epoch < s.start) || decide (s.stop < s.epoch)) = true
    · rw [if_pos h2]
      constructor
      · intro h; cases h
      · intro h
        rw [List.any_eq_true] at h2
        obtain ⟨s, hs, hd⟩ := h2
        have := h.epoch s hs
        rw [Bool.or_eq_true, decide_eq_true_eq, decide_eq_true_eq] at hd
        rcases hd with hd | hd <;> linarith
    · rw [if_neg h2]
      have he : ∀ s ∈ t, s.start ≤ s.epoch ∧ s.epoch ≤ s.stop := by
        intro s hs
        by_contra hc
        apply h2
        refine List.any_eq_true.mpr ⟨s, hs, ?_⟩
        rw [Bool.or_eq_true, decide_eq_true_eq, decide_eq_true_eq]
        by_contra hc'
        push Not at hc'
        exact hc ⟨hc'.1, hc'.2⟩
      have hiff : ((objectIds t).any fun o => anyOverlap (sortBy Seg.start (t.filter fun s => decide (s.object = o)))) = false ↔
          t.Pairwise fun a b => a.object = b.object → ∀ time, ¬ (Covers a time ∧ Covers b time) := by
        rw [pairwise_filter_object, List.any_eq_false]
        apply forall₂_congr
        intro o _
        have hp := sortBy_perm Seg.start (t.filter fun s => decide (s.object = o))
        have hso := sortBy_sorted Seg.start (t.filter fun s => decide (s.object = o))
        have hw' : ∀ s ∈ sortBy Seg.start (t.filter fun s => decide (s.object = o)), s.start < s.stop := by
          intro s hs
          exact hw s (List.mem_filter.mp (hp.mem_iff.mp hs)).1
        rw [Bool.not_eq_true, no_overlap _ hso hw']
        have hsym : (t.filter fun s => decide (s.object = o)).Pairwise (fun a b => ∀ time, ¬ (Covers a time ∧ Covers b time)) ↔
            (sortBy Seg.start (t.filter fun s => decide (s.object = o))).Pairwise
              (fun a b => ∀ time, ¬ (Covers a time ∧ Covers b time)) :=
          (hp.pairwise_iff (fun {a b} h time hc => h time ⟨hc.2, hc.1⟩)).symm
        rw [hsym]
        generalize sortBy Seg.start (t.filter fun s => decide (s.object = o)) = l at hso hw'
        constructor
        · intro h
          refine h.imp_of_mem ?_
          intro a b ha hb hab
          exact (apart_iff a b (hw' a ha) (hw' b hb)).mpr (Or.inl hab)
        · intro h
          refine (h.and hso).imp_of_mem ?_
          intro a b ha hb hab
          rcases (apart_iff a b (hw' a ha) (hw' b hb)).mp hab.1 with h | h
          · exact h
          · have := hw' b hb
            have := hab.2
            linarith
      by_cases h3 : ((objectIds t).any fun o => anyOverlap (sortBy Seg.start (t.filter fun s => decide (s.object = o)))) = true
      · rw [if_pos h3]
        constructor
        · intro h; cases h
        · intro h
          have := hiff.mpr h.apart
          rw [h3] at this
          cases this
      · rw [if_neg h3]
        exact ⟨fun _ => ⟨hw, he, hiff.mp (by simpa using h3)⟩, fun _ => rfl⟩

theorem pick_spec (l : List (Seg I R)) (time : ℚ)
    (hap : l.Pairwise fun a b => ∀ time, ¬ (Covers a time ∧ Covers b time)) :
    ∃ res, (match l.filter fun s => decide (s.start ≤ time) && decide (time < s.stop) with
      | [] => Except.ok none
      | [s] => .ok (some s)
      | _ => .error PyErr.valueError) = .ok res ∧ (∀ s, res = some s ↔ s ∈ l ∧ Covers s time) := by
  have hmem : ∀ s, s ∈ (l.filter fun s => decide (s.start ≤ time) && decide (time < s.stop)) ↔ s ∈ l ∧ Covers s time := by
    intro s
    rw [List.mem_filter, Bool.and_eq_true, decide_eq_true_eq, decide_eq_true_eq]
    rfl
  have hpw := hap.filter fun s => decide (s.start ≤ time) && decide (time < s.stop)
  generalize (l.filter fun s => decide (s.start ≤ time) && decide (time < s.stop)) = f at hmem hpw
  match f, hmem, hpw with
  | [], hmem, _ =>
    refine ⟨none, rfl, ?_⟩
    intro s
    constructor
    · intro h; cases h
    · intro h
      have := (hmem s).mpr h
      cases this
  | [a], hmem, _ =>
    refine ⟨some a, rfl, ?_⟩
    intro s
    rw [← hmem s, List.mem_singleton, Option.some.injEq]
    exact eq_comm
  | a :: b :: f, hmem, hpw =>
    exfalso
    rw [List.pairwise_cons] at hpw
    exact hpw.1 b (by simp) time ⟨((hmem a).mp (by simp)).2, ((hmem b).mp (by simp)).2⟩

/-- In a validated trajectory the lookup for an object never fails: it gives the segment of that object covering the time,
which is unique, or none exactly when there is none. -/
theorem C62_lookup (t : List (Seg I R)) (h : validate t = .ok t) (time : ℚ) (o : I) :
    ∃ res, segmentFor t time (some o) = .ok res ∧
      ∀ s, res = some s ↔ s ∈ t ∧ s.object = o ∧ Covers s time := by
  have hv := (C62_valid t).mp h
  have hap : (t.filter fun s => decide (s.object = o)).Pairwise fun a b => ∀ time, ¬ (Covers a time ∧ Covers b time) := by
    refine (hv.apart.filter fun s => decide (s.object = o)).imp_of_mem ?_
    intro a b ha hb hab
    rw [List.mem_filter, decide_eq_true_eq] at ha hb
    exact hab (ha.2.trans hb.2.symm)
  obtain ⟨res, hr, hs⟩ := pick_spec _ time hap
  refine ⟨res, hr, ?_⟩
  intro s
  rw [hs, List.mem_filter, decide_eq_true_eq, and_assoc]

/-- Without an object the lookup works on a trajectory of one object and raises on several. -/
theorem C62_lookup_one (t : List (Seg I R)) (h : validate t = .ok t) (time : ℚ) :
    ((∀ a ∈ t, ∀ b ∈ t, a.object = b.object) →
      ∃ res, segmentFor t time none = .ok res ∧ ∀ s, res = some s ↔ s ∈ t ∧ Covers s time) ∧
    ((∃ a ∈ t, ∃ b ∈ t, a.object ≠ b.object) → segmentFor t time none = .error .valueError) := by
  have hv := (C62_valid t).mp h
  constructor
  · intro hone
    have hlen : ¬ 1 < (objectIds t).length := by
      intro hc
      have hnd := nodup_uniq (t.map Seg.object)
      unfold objectIds at hc
      match hu : uniq (t.map Seg.object) with
      | [] => rw [hu] at hc; simp at hc
      | [_] => rw [hu] at hc; simp at hc
      | x :: y :: l =>
        have hx : x ∈ uniq (t.map Seg.object) := by rw [hu]; simp
        have hy : y ∈ uniq (t.map Seg.object) := by rw [hu]; simp
        obtain ⟨a, ha, rfl⟩ := List.mem_map.mp ((mem_uniq _ _).mp hx)
        obtain ⟨b, hb, rfl⟩ := List.mem_map.mp ((mem_uniq _ _).mp hy)
        rw [hu, List.nodup_cons] at hnd
        exact hnd.1 (by rw [hone a ha b hb]; simp)
    have hap : t.Pairwise fun a b => ∀ time, ¬ (Covers a time ∧ Covers b time) :=
      hv.apart.imp_of_mem fun ha hb hab => hab (hone _ ha _ hb)
    obtain ⟨res, hr, hs⟩ := pick_spec t time hap
    refine ⟨res, ?_, hs⟩
    unfold segmentFor
    simp only
    rw [if_neg hlen]
    exact hr
  · rintro ⟨a, ha, b, hb, hab⟩
    unfold segmentFor
    simp only
    rw [if_pos]
    have h1 : a.object ∈ objectIds t := (mem_uniq _ _).mpr (List.mem_map_of_mem ha)
    have h2 : b.object ∈ objectIds t := (mem_uniq _ _).mpr (List.mem_map_of_mem hb)
    match hu : objectIds t with
    | [] => rw [hu] at h1; cases h1
    | [x] =>
      rw [hu, List.mem_singleton] at h1 h2
      exact absurd (h1.trans h2.symm) hab
    | x :: y :: l => simp

/-- A segment is found at its own epoch exactly if the epoch is not the end of its window. -/
theorem C62_own_epoch (t : List (Seg I R)) (h : validate t = .ok t) (s : Seg I R) (hs : s ∈ t) :
    segmentFor t s.epoch (some s.object) = .ok (some s) ↔ s.epoch ≠ s.stop := by
  obtain ⟨res, hr, hiff⟩ := C62_lookup t h s.epoch s.object
  rw [hr]
  have hv := ((C62_valid t).mp h).epoch s hs
  constructor
  · intro he
    cases he
    exact ne_of_lt ((hiff s).mp rfl).2.2.2
  · intro he
    rw [(hiff s).mpr ⟨hs, rfl, hv.1, lt_of_le_of_ne hv.2 he⟩]

end

/-- A segment anchored at the end of its window passes validation and is not found at its own epoch. -/
theorem C62_own_epoch_false :
    ¬ ∀ (t : List (Seg Nat Nat)), validate t = .ok t → ∀ s ∈ t, segmentFor t s.epoch (some s.object) = .ok (some s) := by
  intro h
  have hv : validate ([⟨1, 0, 10, 10, 0⟩] : List (Seg Nat Nat)) = .ok [⟨1, 0, 10, 10, 0⟩] := by rfl
  have := h _ hv ⟨1, 0, 10, 10, 0⟩ (by simp)
  have hn : segmentFor ([⟨1, 0, 10, 10, 0⟩] : List (Seg Nat Nat)) 10 (some 1) = .ok none := by rfl
  rw [hn] at this
  cases this

/-- Two objects, two touching windows. -/
example : validate ([⟨1, 10, 20, 15, 0⟩, ⟨2, 0, 50, 5, 0⟩, ⟨1, 0, 10, 5, 0⟩] : List (Seg Nat Nat)) =
      .ok [⟨1, 10, 20, 15, 0⟩, ⟨2, 0, 50, 5, 0⟩, ⟨1, 0, 10, 5, 0⟩] ∧
    segmentFor ([⟨1, 10, 20, 15, 0⟩, ⟨2, 0, 50, 5, 0⟩, ⟨1, 0, 10, 5, 0⟩] : List (Seg Nat Nat)) 10 (some 1) =
      .ok (some ⟨1, 10, 20, 15, 0⟩) := by
  constructor <;> rfl

end Verif.Traj.Props
