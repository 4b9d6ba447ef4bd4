import Verif.Collapse.Props

/-! # Collapsing sigma points in orbit-major layout: the properties -/

namespace Verif.Collapse.Props

open Verif Sched Spec

section
variable {K : Type} [Field K] [LinearOrder K] [IsStrictOrderedRing K] {I J C : Type} [LinearOrder J] [LinearOrder C]

/-- The row without its magnitude. -/
def noMag (v : VRow I J C K) : VRow I J C K := { v with mag := none }

omit [IsStrictOrderedRing K] [LinearOrder J] [LinearOrder C] in
theorem meanWeight_noMag (S : List (VRow I J C K)) (v : VRow I J C K) : meanWeight (S.map noMag) (noMag v) = meanWeight S v := by
  have hu : uniform (S.map noMag) = uniform S := by unfold uniform; rw [List.length_map]
  have hr : ∀ v, rawMean (S.map noMag) (noMag v) = rawMean S v := by
    intro v
    unfold rawMean
    rw [List.all_map, hu]
    rfl
  unfold meanWeight normalize
  rw [List.map_map, hr, hu]
  have : (rawMean (S.map noMag) ∘ noMag) = rawMean S := funext hr
  rw [this]

omit [IsStrictOrderedRing K] [LinearOrder J] [LinearOrder C] in
theorem covWeightFast_noMag (S : List (VRow I J C K)) (v : VRow I J C K) :
    covWeightFast (S.map noMag) (noMag v) = covWeightFast S v := by
  have hu : uniform (S.map noMag) = uniform S := by unfold uniform; rw [List.length_map]
  have hr : ∀ v, rawMean (S.map noMag) (noMag v) = rawMean S v := by
    intro v
    unfold rawMean
    rw [List.all_map, hu]
    rfl
  unfold covWeightFast normalize
  rw [List.map_map, hu]
  have : ((fun v => if ((S.map noMag).all fun v => v.wc.isSome) = true then v.wc.getD 0 else rawMean (S.map noMag) v) ∘ noMag) =
      fun v => if (S.all fun v => v.wc.isSome) = true then v.wc.getD 0 else rawMean S v := by
    funext v
    simp only [Function.comp]
    rw [hr, List.all_map]
    rfl
  rw [this]
  have h2 := congrFun this v
  simp only [Function.comp] at h2 ⊢
  rw [h2]

omit [IsStrictOrderedRing K] [LinearOrder J] [LinearOrder C] in
theorem moments_noMag (circ : List (K × K) → K) (wrap : K → K → K) (S : List (VRow I J C K)) :
    IsMoments circ wrap (meanWeight S) (covWeightFast S) S
      (stat circ wrap (meanWeight (S.map noMag)) (covWeightFast (S.map noMag)) (S.map noMag)).mean
      (stat circ wrap (meanWeight (S.map noMag)) (covWeightFast (S.map noMag)) (S.map noMag)).cov ∧
    (stat circ wrap (meanWeight (S.map noMag)) (covWeightFast (S.map noMag)) (S.map noMag)).mag = none := by
  obtain ⟨⟨h1, h2, h3⟩, hm⟩ := stat_moments circ wrap (meanWeight (S.map noMag)) (covWeightFast (S.map noMag)) (S.map noMag)
  refine ⟨⟨?_, ?_, ?_⟩, ?_⟩
  · rw [h1, List.map_map]
    congr 1
    apply List.map_congr_left
    intro v _
    simp only [Function.comp, meanWeight_noMag]
    rfl
  · intro i hi
    rw [h2 i hi, List.map_map]
    congr 1
    apply List.map_congr_left
    intro v _
    simp only [Function.comp, meanWeight_noMag]
    rfl
  · intro i j
    rw [h3 i j, List.map_map]
    congr 1
    apply List.map_congr_left
    intro v _
    simp only [Function.comp, covWeightFast_noMag]
    rfl
  · refine hm.2 ?_
    rw [List.map_map]
    have : ((fun v : VRow I J C K => if v.mag = none then (0 : K) else meanWeight (S.map noMag) v) ∘ noMag) = fun _ => 0 := by
      funext v
      rfl
    rw [this]
    simp

/-- For a table in the documented layout (orbit by orbit, variant by variant, time by time, one time grid, weights of a
variant the same at all times) every output row carries the ids of its orbit, the time and observatory of its place in
the grid, and the mean and covariance of the variants of that orbit at that time; the magnitude is null. Not true, and
proved so, for tables whose orbits have different time grids (`C83_grid_false`), which are not rejected. -/
theorem C83_layout [DecidableEq I] (circ : List (K × K) → K) (wrap : K → K → K) (O V N : Nat) (hV : 0 < V) (hN : 0 < N)
    (vs : List (VRow I J C K)) (R : Nat → Nat → Nat → VRow I J C K) (hlen : vs.length = O * (N * V))
    (hR : ∀ o k t, o < O → k < V → t < N → vs[(o * V + k) * N + t]? = some (R o k t))
    (hid : ∀ o k t, o < O → k < V → t < N → (R o k t).orbit = (R o 0 0).orbit ∧ (R o k t).obj = (R o 0 0).obj)
    (hgrid : ∀ o k t, o < O → k < V → t < N →
      (R o k t).days = (R 0 0 t).days ∧ (R o k t).nanos = (R 0 0 t).nanos ∧ (R o k t).code = (R 0 0 t).code)
    (hw : ∀ o k t, o < O → k < V → t < N → (R o k t).w = (R o k 0).w ∧ (R o k t).wc = (R o k 0).wc) :
    ∃ E : Nat → Nat → ObjEph I J C K,
      collapseOrbitMajor circ wrap N V vs = .ok ((List.range O).flatMap fun o => (List.range N).map fun t => E o t) ∧
      ∀ o t, o < O → t < N → ∃ S, S = ((List.range V).map fun k => R o k t) ∧
        (∀ v ∈ S, (E o t).orbit = v.orbit ∧ (E o t).obj = v.obj ∧ (E o t).days = v.days ∧ (E o t).nanos = v.nanos ∧
          (E o t).code = v.code) ∧
        (E o t).stat.mag = none ∧
        ∃ f c, Scaled S VRow.w f ∧
          ((∀ v ∈ S, v.wc ≠ none) → (S.map fun v => v.wc.getD 0).sum ≠ 0 →
            ∀ v ∈ S, c v * (S.map fun v => v.wc.getD 0).sum = v.wc.getD 0) ∧
          ((∃ v ∈ S, v.wc = none) → ∀ v ∈ S, c v = f v) ∧
          IsMoments circ wrap f c S (E o t).stat.mean (E o t).stat.cov := by
  let G : Nat → Nat → List (VRow I J C K) := fun o t => (List.range V).map fun k => R o k t
  refine ⟨fun o t => ⟨(R o 0 0).orbit, (R o 0 0).obj, (R 0 0 t).days, (R 0 0 t).nanos, (R 0 0 t).code,
    stat circ wrap (meanWeight ((G o t).map noMag)) (covWeightFast ((G o t).map noMag)) ((G o t).map noMag)⟩, ?_, ?_⟩
  · unfold collapseOrbitMajor
    by_cases hO : O = 0
    · subst hO
      have : vs = [] := by
        apply List.length_eq_zero_iff.mp
        rw [hlen, Nat.zero_mul]
      subst this
      rfl
    have hOp : 0 < O := Nat.pos_of_ne_zero hO
    have hNV : 0 < N * V := Nat.mul_pos hN hV
    have hne : ¬ vs.isEmpty = true := by
      rw [List.isEmpty_iff]
      rintro rfl
      have : 0 < O * (N * V) := Nat.mul_pos hOp hNV
      simp at hlen
      omega
    rw [if_neg hne, if_neg (by omega), if_neg (by omega)]
    simp only [Int.toNat_natCast]
    have hbase : ∀ o k, o < O → k < V → vs[(o * V + k) * N]? = some (R o k 0) := fun o k ho hk => hR o k 0 ho hk hN
    rw [if_neg (by rw [not_not, hlen]; exact Nat.mul_mod_left _ _)]
    have hdiv : vs.length / (N * V) = O := by
      rw [hlen]
      exact Nat.mul_div_cancel _ hNV
    rw [hdiv, if_neg]
    · congr 1
      apply List.flatMap_congr
      intro o ho
      rw [List.mem_range] at ho
      rw [← List.filterMap_eq_map]
      apply List.filterMap_congr
      intro t ht
      rw [List.mem_range] at ht
      have h0 := hbase o 0 ho hV
      have ht0 : vs[t]? = some (R 0 0 t) := by
        have := hR 0 0 t hOp hV ht
        simpa using this
      rw [h0, ht0]
      simp only [Function.comp]
      have hgrp : ((List.range V).filterMap fun k => reweight vs[(o * V + k) * N]? vs[(o * V + k) * N + t]?) =
          (G o t).map noMag := by
        have : (G o t).map noMag = (List.range V).map fun k => noMag (R o k t) := by
          simp only [G, List.map_map]
          rfl
        rw [this, ← List.filterMap_eq_map]
        apply List.filterMap_congr
        intro k hk
        rw [List.mem_range] at hk
        rw [hbase o k ho hk, hR o k t ho hk ht]
        simp only [Function.comp, reweight]
        obtain ⟨e1, e2⟩ := hw o k t ho hk ht
        unfold noMag
        rw [← e1, ← e2]
      rw [hgrp]
    · rw [Bool.not_eq_true, List.any_eq_false]
      intro o ho
      rw [List.mem_range] at ho
      rw [Bool.not_eq_true, List.any_eq_false]
      intro k hk
      rw [List.mem_range] at hk
      rw [decide_eq_true_iff, hbase o k ho hk, hbase o 0 ho hV]
      obtain ⟨e1, e2⟩ := hid o k 0 ho hk hN
      simp [e1, e2]
  · intro o t ho ht
    refine ⟨G o t, rfl, ?_, ?_, meanWeight (G o t), covWeightFast (G o t), ?_, ?_, ?_, ?_⟩
    · intro v hv
      obtain ⟨k, hk, rfl⟩ := List.mem_map.mp hv
      rw [List.mem_range] at hk
      obtain ⟨a1, a2⟩ := hid o k t ho hk ht
      obtain ⟨b1, b2, b3⟩ := hgrid o k t ho hk ht
      exact ⟨a1.symm, a2.symm, b1.symm, b2.symm, b3.symm⟩
    · exact (moments_noMag circ wrap (G o t)).2
    · apply meanWeight_scaled
      intro h
      have : (G o t).length = V := by simp [G]
      rw [h] at this
      simp at this
      omega
    · intro hall hs
      have hd : ¬ Degenerate (G o t) := fun h => hs h.2
      rw [covWeight_slow_eq hd]
      exact (covWeight_scaled hd).1 hall
    · rintro ⟨u, hu, hn⟩
      have hd : ¬ Degenerate (G o t) := fun h => h.1 u hu hn
      rw [covWeight_slow_eq hd]
      exact (covWeight_scaled hd).2 ⟨u, hu, hn⟩
    · exact (moments_noMag circ wrap (G o t)).1

omit [IsStrictOrderedRing K] in
/-- The checks on the arguments. -/
theorem C83_edges [DecidableEq I] (circ : List (K × K) → K) (wrap : K → K → K) (n v : Int) (vs : List (VRow I J C K)) :
    collapseOrbitMajor circ wrap n v ([] : List (VRow I J C K)) = .ok [] ∧
    (vs ≠ [] → n ≤ 0 ∨ v ≤ 0 → collapseOrbitMajor circ wrap n v vs = .error .valueError) ∧
    (0 < n → 0 < v → ¬ (n * v ∣ (vs.length : Int)) → collapseOrbitMajor circ wrap n v vs = .error .valueError) := by
  refine ⟨rfl, fun hne h => ?_, fun hn hv hd => ?_⟩
  · unfold collapseOrbitMajor
    rw [if_neg (by simpa using hne)]
    by_cases hn : n ≤ 0
    · rw [if_pos hn]
    · rw [if_neg hn, if_pos (h.resolve_left hn)]
  · unfold collapseOrbitMajor
    have hne : vs ≠ [] := by
      rintro rfl
      exact hd (by simp)
    rw [if_neg (by simpa using hne), if_neg (by omega), if_neg (by omega)]
    simp only
    rw [if_pos]
    intro hm
    apply hd
    have h1 := Nat.dvd_of_mod_eq_zero hm
    have h2 : ((n.toNat * v.toNat : Nat) : Int) ∣ (vs.length : Int) := Int.natCast_dvd_natCast.mpr h1
    rwa [Nat.cast_mul, Int.toNat_of_nonneg hn.le, Int.toNat_of_nonneg hv.le] at h2

end

/-- Two orbits observed at different times: the second orbit's row is reported at the first orbit's time. -/
theorem C83_grid_false :
    ¬ ∀ (n v : Nat) (vs : List (VRow Nat Nat Nat ℚ)) (out : List (ObjEph Nat Nat Nat ℚ)),
      collapseOrbitMajor (fun _ => 0) (fun _ x => x) n v vs = .ok out →
        ∀ e ∈ out, ∃ u ∈ vs, e.obj = u.obj ∧ e.days = u.days := by
  intro h
  let v1 : VRow Nat Nat Nat ℚ := ⟨1, 1, 60000, 0, 0, fun _ => 0, some 1, some 1, none, none⟩
  let v2 : VRow Nat Nat Nat ℚ := ⟨2, 2, 60009, 0, 0, fun _ => 4, some 1, some 1, none, none⟩
  have a : (match collapseOrbitMajor (fun _ => (0 : ℚ)) (fun _ x => x) (1 : Nat) (1 : Nat) [v1, v2] with
      | .ok out => out.map fun e => (e.obj, e.days)
      | .error _ => []) = [(1, 60000), (2, 60000)] := by decide +kernel
  cases ha : collapseOrbitMajor (fun _ => (0 : ℚ)) (fun _ x => x) (1 : Nat) (1 : Nat) [v1, v2] with
  | error e => rw [ha] at a; cases a
  | ok out =>
    rw [ha] at a
    simp only at a
    have hm : (2, 60000) ∈ out.map fun e => (e.obj, e.days) := by rw [a]; simp
    obtain ⟨e, he, hh⟩ := List.mem_map.mp hm
    obtain ⟨u, hu, h1, h2⟩ := h 1 1 _ _ ha e he
    simp only [Prod.mk.injEq] at hh
    rw [hh.1] at h1
    rw [hh.2] at h2
    simp at hu
    rcases hu with rfl | rfl
    · exact absurd h1 (by decide)
    · exact absurd h2 (by decide)

/-- A table in the layout: two orbits, two variants, two times. -/
example : (match collapseOrbitMajor (fun _ => (0 : ℚ)) (fun _ x => x) 2 2
    [(⟨1, 1, 0, 0, 0, fun _ => 0, some (1/2), some (1/2), none, none⟩ : VRow Nat Nat Nat ℚ),
     ⟨1, 1, 1, 0, 0, fun _ => 1, some (1/2), some (1/2), none, none⟩,
     ⟨1, 1, 0, 0, 0, fun _ => 2, some (1/2), some (1/2), none, none⟩,
     ⟨1, 1, 1, 0, 0, fun _ => 5, some (1/2), some (1/2), none, none⟩,
     ⟨2, 2, 0, 0, 0, fun _ => 0, some 1, some 1, none, none⟩,
     ⟨2, 2, 1, 0, 0, fun _ => 1, some 1, some 1, none, none⟩,
     ⟨2, 2, 0, 0, 0, fun _ => 6, some 2, some 2, none, none⟩,
     ⟨2, 2, 1, 0, 0, fun _ => 7, some 2, some 2, none, none⟩] with
    | .ok out => out.map fun e => (e.obj, e.days, e.stat.mean 0, e.stat.cov 0 2)
    | .error _ => []) = [(1, 0, 1, 1), (1, 1, 3, 4), (2, 0, 4, 8), (2, 1, 5, 8)] := by decide +kernel

end Verif.Collapse.Props
