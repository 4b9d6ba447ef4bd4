import Verif.Iod.Lemmas

/-! # Initial orbit determination: the properties -/

namespace Verif.Iod.Props

open Verif Sched Spec

set_option linter.unusedSectionVars false

section
variable {S N : Type} [DecidableEq N]

/-- Unfolding a successful run. -/
theorem iod_some {fl : ℚ → ℚ} {minObs : ℤ} {pct : ℚ} {triples : List (List N)} {x : Ctx S N} {r : Result S N}
    (hT : ∀ t ∈ triples, t.Nodup ∧ t.length = 3 ∧ ∀ i ∈ t, i ∈ x.obs.map Prod.fst)
    (h : iod fl minObs pct triples x = .ok (some r)) :
    ∃ m s, Od.maxOutliers fl x.obs.length minObs pct = .ok m ∧
      tripleLoop { x with maxOut := m.toNat } (triples.take (3 * (m.toNat + 1))) ⟨none, none, x.obs.length, false, true⟩ = .ok s ∧
      finish x s = some r ∧ 3 ≤ x.obs.length := by
  unfold iod at h
  cases hm : Od.maxOutliers fl x.obs.length minObs pct with
  | error e => rw [hm] at h; cases h
  | ok m =>
    rw [hm] at h
    simp only at h
    split at h
    · cases h
    · rename_i hne
      cases hl : tripleLoop { x with maxOut := m.toNat } (triples.take (3 * (m.toNat + 1)))
          ⟨none, none, x.obs.length, false, true⟩ with
      | error e => rw [hl] at h; cases h
      | ok s =>
        rw [hl] at h
        simp only [Except.ok.injEq] at h
        refine ⟨m, s, rfl, hl, h, ?_⟩
        simp only [Bool.or_eq_true, not_or] at hne
        obtain ⟨t, ht⟩ := List.exists_mem_of_ne_nil (triples.take (3 * (m.toNat + 1))) (by
          intro hc
          rw [hc] at hne
          exact hne.2 rfl)
        obtain ⟨h1, h2, h3⟩ := hT t ((List.take_sublist _ _).subset ht)
        have := (h1.subperm h3).length_le
        rw [List.length_map] at this
        omega

/-- Every orbit returned has a reduced chi2 within the threshold, at most the allowed number of outliers, which are the
worst observations outside the triple, and the chi2 of the remaining ones. -/
theorem C57_accepted (fl : ℚ → ℚ) (minObs : ℤ) (pct : ℚ) (triples : List (List N)) (x : Ctx S N) (r : Result S N)
    (hids : (x.obs.map Prod.fst).Nodup) (hsort : Sorts x.argsort)
    (hT : ∀ t ∈ triples, t.Nodup ∧ t.length = 3 ∧ ∀ i ∈ t, i ∈ x.obs.map Prod.fst)
    (budget : ℤ) (hb : Od.maxOutliers fl x.obs.length minObs pct = .ok budget) (hb0 : 0 ≤ budget)
    (h : iod fl minObs pct triples x = .ok (some r)) : Accepted x.obs triples budget x.thr r := by
  obtain ⟨m, s, hm, hl, hf, h3⟩ := iod_some hT h
  rw [hb] at hm
  cases hm
  have hI := tripleLoop_inv { x with maxOut := budget.toNat } hids hsort triples hT _
    (fun t ht => (List.take_sublist _ _).subset ht) _ s
    ⟨fun sol hs => by simp at hs, h3, le_refl _, rfl⟩ hl
  unfold finish at hf
  split at hf
  · cases hs : s.sol with
    | none => rw [hs] at hf; cases hf
    | some sol =>
      rw [hs] at hf
      simp only [Option.map_some, Option.some.injEq] at hf
      have hG := hI.sol sol hs
      obtain ⟨k, hk, hout⟩ := hG.outliers
      obtain ⟨p1, p2, p3, p4⟩ := proposed_spec { x with maxOut := budget.toNat } hids hsort sol.cand sol.triple k
      rw [← hout] at p1 p2 p3 p4
      have hw := hG.within
      unfold within at hw
      rw [Bool.and_eq_true, decide_eq_true_eq, decide_eq_true_eq] at hw
      have hcount : (x.obs.filter fun o => decide (o.1 ∈ sol.outliers)).length = sol.outliers.length := by
        rw [← Od.count_removed (x.obs.map Prod.fst) sol.outliers hids p1 fun i hi => (p2 i hi).1, List.filter_map,
          List.length_map]
        rfl
      subst hf
      refine ⟨?_, ?_, ?_, ?_, ?_, ?_, ?_, ?_⟩
      · simp [Function.comp_def]
      · show sol.rchi2 ≤ x.thr
        rw [hG.rchi2]
        exact hw.2
      · show sol.chi2 = _
        rw [hG.chi2, total_split sol.cand _ _ hids p1 fun i hi => (p2 i hi).1]
        unfold total
        rw [List.filter_map, List.filter_map, List.map_map, List.map_map]
        rfl
      · have hd : ((dof s.numObs : ℤ) : ℚ) = 2 * (s.numObs : ℚ) - 6 := by unfold dof; push_cast; ring
        have hne : (2 * (s.numObs : ℚ) - 6) ≠ 0 := by rw [← hd]; exact_mod_cast hw.1
        constructor
        · show (2 * (s.numObs : ℚ) - 6) * sol.rchi2 = sol.chi2
          rw [hG.rchi2, hd]
          field_simp
        · show 3 < s.numObs
          rcases Nat.lt_or_eq_of_le hI.three with h | h
          · exact h
          · exfalso
            apply hw.1
            unfold dof
            rw [← h]
            norm_num
      · show (((x.obs.map _).filter _).length : ℤ) ≤ budget
        rw [List.filter_map, List.length_map]
        have : (x.obs.filter ((fun m : Row N => m.outlier) ∘ fun o : N × ℚ =>
            (⟨o.1, sol.cand.chi2 o.1, decide (o.1 ∈ sol.triple), decide (o.1 ∈ sol.outliers)⟩ : Row N))).length =
            sol.outliers.length := hcount
        rw [this]
        have hk' : k ≤ budget.toNat := hk
        omega
      · refine ⟨sol.triple, hG.triple, ?_⟩
        intro m hm
        obtain ⟨o, _, rfl⟩ := List.mem_map.mp hm
        simp
      · intro m hm
        obtain ⟨o, _, rfl⟩ := List.mem_map.mp hm
        simp only [decide_eq_true_eq]
        rintro ⟨h1, h2⟩
        exact (p2 _ h2).2 h1
      · intro m hm m' hm'
        obtain ⟨o, ho, rfl⟩ := List.mem_map.mp hm
        obtain ⟨o', ho', rfl⟩ := List.mem_map.mp hm'
        simp only [decide_eq_true_eq, decide_eq_false_iff_not]
        intro h1 h2 h3
        exact p4 o.1 h1 o'.1 (List.mem_map_of_mem ho') h3 h2
  · cases hf

/-- With no outliers allowed, or when the Gauss solver gives at most one orbit per triple, the number of observations and
the arc length are those of the members that are not outliers. -/
theorem C57_consistent (fl : ℚ → ℚ) (minObs : ℤ) (pct : ℚ) (triples : List (List N)) (x : Ctx S N) (r : Result S N)
    (hids : (x.obs.map Prod.fst).Nodup) (hsort : Sorts x.argsort)
    (hT : ∀ t ∈ triples, t.Nodup ∧ t.length = 3 ∧ ∀ i ∈ t, i ∈ x.obs.map Prod.fst)
    (hone : Od.maxOutliers fl x.obs.length minObs pct = .ok 0 ∨ ∀ t cands, x.gauss t = .ok cands → cands.length ≤ 1)
    (h : iod fl minObs pct triples x = .ok (some r)) : Consistent x.obs r := by
  obtain ⟨m, s, hm, hl, hf, h3⟩ := iod_some hT h
  have hstart : Inv { x with maxOut := m.toNat } triples (⟨none, none, x.obs.length, false, true⟩ : St S N) :=
    ⟨fun sol hs => by simp at hs, h3, le_refl _, rfl⟩
  have hI := tripleLoop_inv { x with maxOut := m.toNat } hids hsort triples hT _
    (fun t ht => (List.take_sublist _ _).subset ht) _ s hstart hl
  have hE := tripleLoop_exact { x with maxOut := m.toNat } hids hsort triples hT
    (by
      rcases hone with h | h
      · left
        rw [hm] at h
        cases h
        rfl
      · exact Or.inr h) _
    (fun t ht => (List.take_sublist _ _).subset ht) _ s rfl ⟨fun sol hs => by simp at hs, fun _ => rfl⟩ hstart hl
  unfold finish at hf
  split at hf
  · cases hs : s.sol with
    | none => rw [hs] at hf; cases hf
    | some sol =>
      rw [hs] at hf
      simp only [Option.map_some, Option.some.injEq] at hf
      obtain ⟨k, hk, hout⟩ := (hI.sol sol hs).outliers
      obtain ⟨p1, p2, p3, p4⟩ := proposed_spec { x with maxOut := m.toNat } hids hsort sol.cand sol.triple k
      rw [← hout] at p1 p2 p3 p4
      obtain ⟨e1, e2⟩ := hE.some sol hs
      have hcount : (x.obs.filter fun o => decide (o.1 ∈ sol.outliers)).length = sol.outliers.length := by
        rw [← Od.count_removed (x.obs.map Prod.fst) sol.outliers hids p1 fun i hi => (p2 i hi).1, List.filter_map,
          List.length_map]
        rfl
      have hadd := Od.filter_length_add x.obs fun o => decide (o.1 ∈ sol.outliers)
      subst hf
      constructor
      · show s.numObs = ((x.obs.map _).filter _).length
        rw [List.filter_map, List.length_map]
        have : (x.obs.filter ((fun m : Row N => !m.outlier) ∘ fun o : N × ℚ =>
            (⟨o.1, sol.cand.chi2 o.1, decide (o.1 ∈ sol.triple), decide (o.1 ∈ sol.outliers)⟩ : Row N))).length =
            (x.obs.filter fun o => !decide (o.1 ∈ sol.outliers)).length := rfl
        rw [this]
        have e1' : s.numObs + sol.outliers.length = x.obs.length := e1
        omega
      · have hset : (x.obs.filter fun o : N × ℚ => !decide (∃ m ∈ x.obs.map (fun o : N × ℚ => (⟨o.1, sol.cand.chi2 o.1,
            decide (o.1 ∈ sol.triple), decide (o.1 ∈ sol.outliers)⟩ : Row N)), m.obs = o.1 ∧ m.outlier = true)) =
            x.obs.filter fun o : N × ℚ => !decide (o.1 ∈ sol.outliers) := by
          apply List.filter_congr
          intro o ho
          congr 1
          apply decide_eq_decide.mpr
          constructor
          · rintro ⟨m, hm, h1, h2⟩
            obtain ⟨o', _, rfl⟩ := List.mem_map.mp hm
            simp only [decide_eq_true_eq] at h1 h2
            rw [← h1]
            exact h2
          · intro h
            exact ⟨_, List.mem_map_of_mem ho, rfl, by simpa using h⟩
        have hne : (x.obs.filter fun o => !decide (o.1 ∈ sol.outliers)) ≠ [] := by
          intro hc
          have e1' : s.numObs + sol.outliers.length = x.obs.length := e1
          have h3' := hI.three
          rw [hc, hcount] at hadd
          simp only [List.length_nil] at hadd
          omega
        obtain ⟨a, ha⟩ := Od.extent_isSome (l := (x.obs.filter fun o : N × ℚ => !decide (o.1 ∈ sol.outliers)).map Prod.snd)
          (by simpa using hne)
        refine ⟨a, ?_, ?_⟩
        · show s.arc = some a
          rw [e2]
          exact ha
        · show IsArc ((x.obs.filter fun o => !decide (∃ m ∈ _, _)).map Prod.snd) a
          rw [hset]
          exact Od.extent_some ha
  · cases hf

/-- Too few observations raise instead of giving empty tables. -/
theorem C57_too_few (fl : ℚ → ℚ) (minObs : ℤ) (pct : ℚ) (triples : List (List N)) (x : Ctx S N)
    (h : (x.obs.length : ℤ) < minObs) : iod fl minObs pct triples x = .error .assertionError := by
  unfold iod Od.maxOutliers
  rw [if_pos h]

/-- An exception of the Gauss solver or the propagator is not hidden; otherwise only the outlier budget raises. -/
theorem C57_errors (fl : ℚ → ℚ) (minObs : ℤ) (pct : ℚ) (triples : List (List N)) (x : Ctx S N) (e : PyErr)
    (h : iod fl minObs pct triples x = .error e) :
    Od.maxOutliers fl x.obs.length minObs pct = .error e ∨ ∃ t ∈ triples, x.gauss t = .error e := by
  unfold iod at h
  cases hm : Od.maxOutliers fl x.obs.length minObs pct with
  | error e' => rw [hm] at h; cases h; exact Or.inl rfl
  | ok m =>
    rw [hm] at h
    simp only at h
    split at h
    · cases h
    · right
      have key : ∀ (todo : List (List N)) (s : St S N), tripleLoop { x with maxOut := m.toNat } todo s = .error e →
          ∃ t ∈ todo, x.gauss t = .error e := by
        intro todo
        induction todo with
        | nil => intro s h; unfold tripleLoop at h; cases h
        | cons ids rest ih =>
          intro s h
          unfold tripleLoop at h
          cases hg : x.gauss ids with
          | error e' =>
            rw [hg] at h
            cases h
            exact ⟨ids, by simp, hg⟩
          | ok cands =>
            rw [hg] at h
            simp only at h
            split at h
            · cases h
            · obtain ⟨t, ht, he⟩ := ih _ h
              exact ⟨t, by simp [ht], he⟩
      cases hl : tripleLoop { x with maxOut := m.toNat } (triples.take (3 * (m.toNat + 1)))
          ⟨none, none, x.obs.length, false, true⟩ with
      | error e' =>
        rw [hl] at h
        cases h
        obtain ⟨t, ht, he⟩ := key _ _ hl
        exact ⟨t, (List.take_sublist _ _).subset ht, he⟩
      | ok s => rw [hl] at h; cases h

end

/-! Witnesses: five observations, one allowed outlier. -/

/-- Observations 1 to 5 on days 0, 1, 2, 3 and 20. -/
def exObs : List (Nat × ℚ) := [(1, 0), (2, 1), (3, 2), (4, 3), (5, 20)]

/-- A sort of ids by chi2. -/
def exSort (c : Nat → ℚ) (l : List Nat) : List Nat := sortBy c l

theorem exSort_sorts : Sorts exSort := fun c l => ⟨sortBy_perm c l, sortBy_sorted c l⟩

/-- A candidate with a bad observation 5. -/
def cand5 : Cand Nat Nat := ⟨55, fun i => if i = 5 then 1000 else 1⟩

/-- A candidate with a bad observation 4. -/
def cand4 : Cand Nat Nat := ⟨44, fun i => if i = 4 then 1000 else 1⟩

/-- A candidate that fits everything. -/
def candAll : Cand Nat Nat := ⟨77, fun _ => 1 / 10⟩

/-- A candidate that fits nothing. -/
def candBad : Cand Nat Nat := ⟨99, fun i => 1000 + i⟩

/-- The context with the candidates of the only triple. -/
def exCtx (cands : List (Cand Nat Nat)) : Ctx Nat Nat := ⟨exObs, 1, 10, 0, exSort, fun _ => .ok cands⟩

theorem exTriples : ∀ t ∈ [[1, 2, 3]], t.Nodup ∧ t.length = 3 ∧ ∀ i ∈ t, i ∈ exObs.map Prod.fst := by decide

/-- The summary of a result. -/
def view (r : Except PyErr (Option (Result Nat Nat))) : Option ((Nat × Option ℚ × Nat) × List (Nat × Bool)) :=
  match r with
  | .ok (some r) => some ((r.orbit, r.arc, r.numObs), r.members.map fun m => (m.obs, m.outlier))
  | _ => none

/-- A later candidate without outliers replaces the solution but not the number of observations. -/
theorem C57_num_obs_false :
    ¬ ∀ (triples : List (List Nat)) (x : Ctx Nat Nat) (r : Result Nat Nat), (x.obs.map Prod.fst).Nodup → Sorts x.argsort →
      (∀ t ∈ triples, t.Nodup ∧ t.length = 3 ∧ ∀ i ∈ t, i ∈ x.obs.map Prod.fst) →
      iod id 4 20 triples x = .ok (some r) → r.numObs = (r.members.filter fun m => !m.outlier).length := by
  intro h
  have hv : view (iod id 4 20 [[1, 2, 3]] (exCtx [cand5, candAll])) = some ((77, some 20, 4),
      [(1, false), (2, false), (3, false), (4, false), (5, false)]) := by decide +kernel
  cases hr : iod id 4 20 [[1, 2, 3]] (exCtx [cand5, candAll]) with
  | error e => rw [hr] at hv; simp [view] at hv
  | ok o =>
    cases o with
    | none => rw [hr] at hv; simp [view] at hv
    | some r =>
      rw [hr] at hv
      simp only [view, Option.some.injEq, Prod.mk.injEq] at hv
      have := h [[1, 2, 3]] (exCtx [cand5, candAll]) r (by decide) exSort_sorts exTriples hr
      rw [hv.1.2.2] at this
      have hl : (r.members.filter fun m => !m.outlier).length =
          ((r.members.map fun m => (m.obs, m.outlier)).filter fun p => !p.2).length := by
        rw [List.filter_map, List.length_map]; rfl
      rw [hl, hv.2] at this
      exact absurd this (by decide)

/-- A later candidate that is rejected overwrites the arc length of the accepted one. -/
theorem C57_arc_false :
    ¬ ∀ (triples : List (List Nat)) (x : Ctx Nat Nat) (r : Result Nat Nat), (x.obs.map Prod.fst).Nodup → Sorts x.argsort →
      (∀ t ∈ triples, t.Nodup ∧ t.length = 3 ∧ ∀ i ∈ t, i ∈ x.obs.map Prod.fst) →
      iod id 4 20 triples x = .ok (some r) → ∀ a, r.arc = some a →
      IsArc ((x.obs.filter fun o => !decide (∃ m ∈ r.members, m.obs = o.1 ∧ m.outlier = true)).map Prod.snd) a := by
  intro h
  have hv : view (iod id 4 20 [[1, 2, 3]] (exCtx [cand4, candBad])) = some ((44, some 3, 4),
      [(1, false), (2, false), (3, false), (4, true), (5, false)]) := by decide +kernel
  cases hr : iod id 4 20 [[1, 2, 3]] (exCtx [cand4, candBad]) with
  | error e => rw [hr] at hv; simp [view] at hv
  | ok o =>
    cases o with
    | none => rw [hr] at hv; simp [view] at hv
    | some r =>
      rw [hr] at hv
      simp only [view, Option.some.injEq, Prod.mk.injEq] at hv
      obtain ⟨lo, hlo, hi, hhi, he, hall⟩ := h [[1, 2, 3]] (exCtx [cand4, candBad]) r (by decide) exSort_sorts exTriples hr 3
        hv.1.2.1
      have h5 : (5, (20 : ℚ)) ∈ (exObs.filter fun o => !decide (∃ m ∈ r.members, m.obs = o.1 ∧ m.outlier = true)) := by
        rw [List.mem_filter]
        refine ⟨by decide, ?_⟩
        simp only [Bool.not_eq_true', decide_eq_false_iff_not]
        rintro ⟨m, hm, h1, h2⟩
        have : (m.obs, m.outlier) ∈ r.members.map fun m => (m.obs, m.outlier) := List.mem_map_of_mem hm
        rw [hv.2, h1, h2] at this
        exact absurd this (by decide)
      have h1 : (1, (0 : ℚ)) ∈ (exObs.filter fun o => !decide (∃ m ∈ r.members, m.obs = o.1 ∧ m.outlier = true)) := by
        rw [List.mem_filter]
        refine ⟨by decide, ?_⟩
        simp only [Bool.not_eq_true', decide_eq_false_iff_not]
        rintro ⟨m, hm, h1, h2⟩
        have : (m.obs, m.outlier) ∈ r.members.map fun m => (m.obs, m.outlier) := List.mem_map_of_mem hm
        rw [hv.2, h1, h2] at this
        exact absurd this (by decide)
      have := (hall 20 (List.mem_map_of_mem (f := Prod.snd) h5)).2
      have := (hall 0 (List.mem_map_of_mem (f := Prod.snd) h1)).1
      linarith

/-- An orbit accepted without outliers may have an arc below the minimum. -/
theorem C57_min_arc_false :
    ¬ ∀ (triples : List (List Nat)) (x : Ctx Nat Nat) (r : Result Nat Nat),
      iod id 4 20 triples x = .ok (some r) → ∀ a, r.arc = some a → x.minArc ≤ a := by
  intro h
  have hv : view (iod id 4 20 [[1, 2, 3]] { exCtx [candAll] with minArc := 30 }) = some ((77, some 20, 5),
      [(1, false), (2, false), (3, false), (4, false), (5, false)]) := by decide +kernel
  cases hr : iod id 4 20 [[1, 2, 3]] { exCtx [candAll] with minArc := 30 } with
  | error e => rw [hr] at hv; simp [view] at hv
  | ok o =>
    cases o with
    | none => rw [hr] at hv; simp [view] at hv
    | some r =>
      rw [hr] at hv
      simp only [view, Option.some.injEq, Prod.mk.injEq] at hv
      have := h [[1, 2, 3]] { exCtx [candAll] with minArc := 30 } r hr 20 hv.1.2.1
      revert this
      show ¬ (30 : ℚ) ≤ 20
      norm_num

/-- One candidate, accepted after dropping observation 5. -/
example : (exObs.map Prod.fst).Nodup ∧ (∀ t cands, (exCtx [cand5]).gauss t = .ok cands → cands.length ≤ 1) ∧
    view (iod id 4 20 [[1, 2, 3]] (exCtx [cand5])) = some ((55, some 3, 4),
      [(1, false), (2, false), (3, false), (4, false), (5, true)]) := by
  refine ⟨by decide, ?_, by decide +kernel⟩
  intro t cands h
  cases h
  rfl

end Verif.Iod.Props
