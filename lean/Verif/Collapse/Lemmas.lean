import Verif.Collapse.Spec
import Verif.Joins.Lemmas
import Mathlib.Data.List.Basic
import Mathlib.Algebra.BigOperators.Group.List.Lemmas
import Mathlib.Tactic.Ring
import Mathlib.Tactic.FieldSimp

/-! Lemmas on collapsing variants. -/

namespace Verif.Collapse

open Verif Sched Spec

section
variable {K : Type} [Field K]

theorem weightedCov_some {α : Type} (m : Fin 6 → K) (w : α → K) (x : α → Fin 6 → K) (l : List α) :
    weightedCov (some m) (l.map fun v => (some (w v), some (x v))) =
      some fun i j => (l.map fun v => w v * ((x v i - m i) * (x v j - m j))).sum := by
  unfold weightedCov
  induction l with
  | nil => rfl
  | cons a l ih =>
    rw [List.map_cons, List.map_cons, List.foldr_cons, ih]
    simp only [term, addO, List.map_cons, List.sum_cons, mul_assoc]

theorem addO_none_left (a : Option (Mat K)) : addO none a = none := by cases a <;> rfl

theorem addO_none_right (a : Option (Mat K)) : addO a none = none := by cases a <;> rfl

theorem weightedCov_none {m : Option (Fin 6 → K)} {l : List (Option K × Option (Fin 6 → K))}
    (h : ∃ s ∈ l, m = none ∨ s.1 = none ∨ s.2 = none) : weightedCov m l = none := by
  unfold weightedCov
  induction l with
  | nil => obtain ⟨s, hs, _⟩ := h; simp at hs
  | cons a l ih =>
    rw [List.map_cons, List.foldr_cons]
    obtain ⟨s, hs, hn⟩ := h
    rcases List.mem_cons.mp hs with rfl | hs
    · have : term m s = none := by
        rcases s with ⟨s1, s2⟩
        rcases hn with rfl | h | h
        · rfl
        · simp only at h; subst h; cases m <;> rfl
        · simp only at h; subst h; cases m <;> cases s1 <;> rfl
      rw [this, addO_none_left]
    · rw [ih ⟨s, hs, hn⟩, addO_none_right]

theorem addO_left_comm (a b c : Option (Mat K)) : addO a (addO b c) = addO b (addO a c) := by
  rcases a with _ | a
  · rw [addO_none_left, addO_none_left, addO_none_right]
  · rcases b with _ | b
    · rw [addO_none_left, addO_none_left, addO_none_right]
    · rcases c with _ | c
      · rfl
      · simp only [addO]
        congr 1
        funext i j
        ring

theorem weightedCov_perm (m : Option (Fin 6 → K)) {l l' : List (Option K × Option (Fin 6 → K))} (h : l.Perm l') :
    weightedCov m l = weightedCov m l' := by
  unfold weightedCov
  have : LeftCommutative (addO (K := K)) := ⟨addO_left_comm⟩
  exact (h.map _).foldr_eq _

end

/-! ## Runs of a sorted list -/

theorem runs_sorted {α κ : Type} [LinearOrder κ] (key : α → κ) (l : List α) (h : l.Pairwise fun a b => key a ≤ key b) :
    runs key l = (uniq (l.map key)).map fun k => l.filter fun a => decide (key a = k) := by
  induction l with
  | nil => rfl
  | cons a l ih =>
    rw [List.pairwise_cons] at h
    have ih := ih h.2
    have hu : uniq ((a :: l).map key) = key a :: (uniq (l.map key)).filter fun b => b ≠ key a := rfl
    rw [hu, List.map_cons]
    unfold runs
    cases l with
    | nil => simp [runs, uniq]
    | cons b l =>
      have hu' : uniq ((b :: l).map key) = key b :: (uniq (l.map key)).filter fun c => c ≠ key b := rfl
      rw [hu'] at ih ⊢
      rw [ih, List.map_cons]
      have hb : (b :: l).filter (fun a => decide (key a = key b)) = b :: l.filter fun a => decide (key a = key b) := by
        rw [List.filter_cons, if_pos (by simp)]
      rw [hb]
      simp only
      by_cases hk : key a = key b
      · rw [if_pos hk]
        have h1 : (key b :: (uniq (l.map key)).filter fun c => c ≠ key b).filter (fun c => c ≠ key a) =
            (uniq (l.map key)).filter fun c => c ≠ key b := by
          rw [hk, List.filter_cons, if_neg (by simp), List.filter_filter]
          apply List.filter_congr
          simp
        rw [h1]
        congr 1
        · rw [List.filter_cons, if_pos (by simp), hk, hb]
        · apply List.map_congr_left
          intro k hkm
          rw [List.mem_filter] at hkm
          have : key a ≠ k := by
            rw [hk]
            intro hh
            subst hh
            simp at hkm
          rw [List.filter_cons (x := a), if_neg (by simpa using this)]
      · rw [if_neg hk]
        have hlt : ∀ c ∈ b :: l, key a < key c := by
          intro c hc
          have hab : key a < key b := lt_of_le_of_ne (h.1 b (by simp)) hk
          rcases List.mem_cons.mp hc with rfl | hc
          · exact hab
          · exact lt_of_lt_of_le hab ((List.pairwise_cons.mp h.2).1 c hc)
        have hne : ∀ k ∈ key b :: (uniq (l.map key)).filter (fun c => c ≠ key b), k ≠ key a := by
          intro k hkm
          rw [← hu', mem_uniq, List.mem_map] at hkm
          obtain ⟨c, hc, rfl⟩ := hkm
          exact (hlt c hc).ne'
        have h1 : (key b :: (uniq (l.map key)).filter fun c => c ≠ key b).filter (fun c => c ≠ key a) =
            key b :: (uniq (l.map key)).filter fun c => c ≠ key b := by
          rw [List.filter_eq_self]
          intro k hkm
          simpa using hne k hkm
        rw [h1, List.map_cons]
        congr 1
        · rw [List.filter_cons, if_pos (by simp)]
          have : (b :: l).filter (fun c => decide (key c = key a)) = [] := by
            rw [List.filter_eq_nil_iff]
            intro c hc
            simpa using (hlt c hc).ne'
          rw [this]
        · congr 1
          · rw [List.filter_cons (x := a), if_neg (by simpa using hk), hb]
          · apply List.map_congr_left
            intro k hkm
            have := hne k (List.mem_cons_of_mem _ hkm)
            rw [List.filter_cons (x := a), if_neg (by simpa using this.symm)]

theorem uniq_sorted {κ : Type} [LinearOrder κ] (l : List κ) (h : l.Pairwise (· ≤ ·)) : (uniq l).Pairwise (· < ·) := by
  induction l with
  | nil => exact .nil
  | cons a l ih =>
    rw [List.pairwise_cons] at h
    unfold uniq
    rw [List.pairwise_cons]
    refine ⟨fun b hb => ?_, (ih h.2).filter _⟩
    rw [List.mem_filter, mem_uniq] at hb
    exact lt_of_le_of_ne (h.1 b hb.1) (fun hh => by simp [hh] at hb)

/-! ## Weights -/

section
variable {K : Type} [Field K] {I J C : Type}

theorem all_isSome_iff {α β : Type} (f : α → Option β) (l : List α) : (l.all fun v => (f v).isSome) = true ↔ ∀ v ∈ l, f v ≠ none := by
  rw [List.all_eq_true]
  apply forall₂_congr
  intro v _
  rw [Option.isSome_iff_ne_none]

end

section
variable {K : Type} [Field K] [LinearOrder K] [IsStrictOrderedRing K] {I J C : Type}

theorem length_ne_zero {l : List (VRow I J C K)} (h : l ≠ []) : (l.length : K) ≠ 0 := by
  rw [Nat.cast_ne_zero]
  exact fun hh => h (List.length_eq_zero_iff.mp hh)

theorem sum_uniform {l : List (VRow I J C K)} (h : l ≠ []) : (l.map fun _ => uniform l).sum = 1 := by
  rw [List.map_const', List.sum_replicate, nsmul_eq_mul]
  unfold uniform
  field_simp [length_ne_zero h]

theorem uniform_mul {l : List (VRow I J C K)} (h : l ≠ []) : uniform l * (l.length : K) = 1 := by
  unfold uniform
  field_simp [length_ne_zero h]

theorem meanWeight_scaled {l : List (VRow I J C K)} (h : l ≠ []) : Scaled l VRow.w (meanWeight l) := by
  unfold Scaled meanWeight
  constructor
  · intro hall hs v hv
    have ha : (l.all fun v => v.w.isSome) = true := (all_isSome_iff VRow.w l).mpr hall
    have : rawMean l = fun v => v.w.getD 0 := by
      funext v
      unfold rawMean
      rw [if_pos ha]
    rw [this]
    unfold normalize
    rw [if_pos hs]
    field_simp
  · intro hh v hv
    by_cases ha : (l.all fun v => v.w.isSome) = true
    · have hall := (all_isSome_iff VRow.w l).mp ha
      have hs : (l.map fun v => v.w.getD 0).sum = 0 := by
        rcases hh with ⟨v, hv, hn⟩ | hs
        · exact absurd hn (hall v hv)
        · exact hs
      have : rawMean l = fun v => v.w.getD 0 := by
        funext v
        unfold rawMean
        rw [if_pos ha]
      rw [this]
      unfold normalize
      rw [if_neg (by simpa using hs)]
      exact uniform_mul h
    · have : rawMean l = fun _ => uniform l := by
        funext v
        unfold rawMean
        rw [if_neg ha]
      rw [this]
      unfold normalize
      rw [sum_uniform h, if_pos one_ne_zero, div_one]
      exact uniform_mul h

/-- The covariance weights sum to zero though all are there: the only case in which the two paths differ. -/
def Degenerate (l : List (VRow I J C K)) : Prop := (∀ v ∈ l, v.wc ≠ none) ∧ (l.map fun v => v.wc.getD 0).sum = 0

omit [IsStrictOrderedRing K] in
theorem covWeight_slow_eq {l : List (VRow I J C K)} (hd : ¬ Degenerate l) : covWeightFast l = covWeightSlow l := by
  funext v
  unfold covWeightFast covWeightSlow
  by_cases ha : (l.all fun v => v.wc.isSome) = true
  · simp only [ha, if_true]
    unfold normalize
    have hs : (l.map fun v => v.wc.getD 0).sum ≠ 0 := fun hs => hd ⟨(all_isSome_iff VRow.wc l).mp ha, hs⟩
    rw [if_pos hs, if_pos hs]
  · simp only [ha, Bool.false_eq_true, if_false]
    rfl

omit [IsStrictOrderedRing K] in
theorem covWeight_scaled {l : List (VRow I J C K)} (hd : ¬ Degenerate l) :
    ScaledOr l VRow.wc (meanWeight l) (covWeightSlow l) := by
  unfold ScaledOr covWeightSlow
  constructor
  · intro hall v hv
    have ha : (l.all fun v => v.wc.isSome) = true := (all_isSome_iff VRow.wc l).mpr hall
    have hs : (l.map fun v => v.wc.getD 0).sum ≠ 0 := fun hs => hd ⟨hall, hs⟩
    rw [if_pos ha, if_pos hs]
    field_simp
  · rintro ⟨u, hu, hn⟩ v hv
    have ha : ¬ (l.all fun v => v.wc.isSome) = true := fun h => (all_isSome_iff VRow.wc l).mp h u hu hn
    rw [if_neg ha]

omit [IsStrictOrderedRing K] in
theorem stat_moments (circ : List (K × K) → K) (wrap : K → K → K) (f c : VRow I J C K → K) (l : List (VRow I J C K)) :
    IsMoments circ wrap f c l (stat circ wrap f c l).mean (stat circ wrap f c l).cov ∧
      IsMag f l (stat circ wrap f c l).mag := by
  refine ⟨⟨rfl, ?_, ?_⟩, ?_⟩
  · intro i hi
    simp only [stat, if_neg hi]
  · intro i j
    simp only [stat, if_true, mul_assoc]
  · unfold IsMag stat
    simp only
    have hden : ((l.filter fun v => v.mag.isSome).map f).sum = (l.map fun v => if v.mag = none then 0 else f v).sum := by
      induction l with
      | nil => rfl
      | cons v l ih =>
        rw [List.filter_cons, List.map_cons, List.sum_cons, ← ih]
        cases hm : v.mag with
        | none => simp
        | some m => simp
    have hnum : ((l.filter fun v => v.mag.isSome).map fun v => f v * v.mag.getD 0).sum =
        (l.map fun v => f v * v.mag.getD 0).sum := by
      clear hden
      induction l with
      | nil => rfl
      | cons v l ih =>
        rw [List.filter_cons, List.map_cons, List.sum_cons, ← ih]
        cases hm : v.mag with
        | none => simp
        | some m => simp [hm]
    rw [hden, hnum]
    constructor
    · intro h
      refine ⟨_, if_pos h, ?_⟩
      rw [div_mul_cancel₀ _ h.ne']
    · intro h
      exact if_neg h

omit [IsStrictOrderedRing K] in
theorem meanWeight_perm {l m : List (VRow I J C K)} (h : l.Perm m) : meanWeight l = meanWeight m := by
  have hu : uniform l = uniform m := by unfold uniform; rw [h.length_eq]
  have hr : rawMean l = rawMean m := by
    funext v
    unfold rawMean
    rw [h.all_eq, hu]
  unfold meanWeight
  funext v
  unfold normalize
  rw [hr, (h.map _).sum_eq, hu]

omit [IsStrictOrderedRing K] in
theorem covWeightSlow_perm {l m : List (VRow I J C K)} (h : l.Perm m) : covWeightSlow l = covWeightSlow m := by
  funext v
  unfold covWeightSlow
  rw [h.all_eq, (h.map _).sum_eq, meanWeight_perm h]

omit [IsStrictOrderedRing K] in
theorem stat_perm {circ : List (K × K) → K} (hc : Symmetric circ) (wrap : K → K → K) (f c : VRow I J C K → K)
    {l m : List (VRow I J C K)} (h : l.Perm m) : stat circ wrap f c l = stat circ wrap f c m := by
  unfold stat
  simp only
  rw [hc _ _ (h.map fun v => (f v, v.state 1))]
  generalize circ (m.map fun v => (f v, v.state 1)) = lon
  have hm : (fun i : Fin 6 => if i = 1 then lon else (l.map fun v => f v * if i = 1 then wrap lon (v.state 1) else v.state i).sum) =
      fun i => if i = 1 then lon else (m.map fun v => f v * if i = 1 then wrap lon (v.state 1) else v.state i).sum := by
    funext i
    rw [(h.map _).sum_eq]
  congr 1
  · funext i j
    rw [(h.map fun v => c v * ((if i = 1 then wrap lon (v.state 1) else v.state i) -
      if i = 1 then lon else (l.map fun v => f v * if i = 1 then wrap lon (v.state 1) else v.state i).sum) *
      ((if j = 1 then wrap lon (v.state 1) else v.state j) -
      if j = 1 then lon else (l.map fun v => f v * if j = 1 then wrap lon (v.state 1) else v.state j).sum)).sum_eq]
    rw [(h.map fun v => f v * if i = 1 then wrap lon (v.state 1) else v.state i).sum_eq,
      (h.map fun v => f v * if j = 1 then wrap lon (v.state 1) else v.state j).sum_eq]
  · rw [((h.filter _).map f).sum_eq, ((h.filter _).map fun v => f v * v.mag.getD 0).sum_eq]

end

end Verif.Collapse
