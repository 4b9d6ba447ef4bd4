import Verif.Iod.Spec
import Verif.Od.Lemmas
import Verif.Joins.Lemmas
import Mathlib.Algebra.BigOperators.Group.List.Basic
import Mathlib.Tactic.Linarith
import Mathlib.Tactic.FieldSimp
import Mathlib.Tactic.Ring

/-! # Lemmas for initial orbit determination -/

namespace Verif.Iod

open Verif Sched Spec

set_option linter.unusedSectionVars false

variable {S N : Type} [DecidableEq N]

/-- A contract of the argsort oracle: a rearrangement in ascending order of chi2. -/
def Sorts (f : (N → ℚ) → List N → List N) : Prop :=
  ∀ c l, (f c l).Perm l ∧ (f c l).Pairwise fun a b => c a ≤ c b

theorem total_split (c : Cand S N) (ids sub : List N) (hi : ids.Nodup) (hs : sub.Nodup) (hsub : ∀ x ∈ sub, x ∈ ids) :
    total c ids - total c sub = total c (ids.filter fun x => !decide (x ∈ sub)) := by
  have hp : (ids.filter fun x => decide (x ∈ sub)).Perm sub := by
    rw [List.perm_ext_iff_of_nodup (hi.filter _) hs]
    intro a
    rw [List.mem_filter, decide_eq_true_eq]
    exact ⟨fun h => h.2, fun h => ⟨hsub a h, h⟩⟩
  have hq := List.filter_append_perm (fun x => decide (x ∈ sub)) ids
  unfold total
  have h1 := ((hq.map c.chi2).sum_eq)
  have h2 := ((hp.map c.chi2).sum_eq)
  rw [List.map_append, List.sum_append] at h1
  linarith

section
variable (x : Ctx S N) (hids : (x.obs.map Prod.fst).Nodup) (hsort : Sorts x.argsort)
include hids hsort

theorem proposed_spec (c : Cand S N) (ids : List N) (k : Nat) :
    (proposed x c ids k).Nodup ∧ (∀ i ∈ proposed x c ids k, i ∈ x.obs.map Prod.fst ∧ i ∉ ids) ∧
    (proposed x c ids k).length ≤ k ∧
    (∀ i ∈ proposed x c ids k, ∀ j ∈ x.obs.map Prod.fst, j ∉ ids → j ∉ proposed x c ids k → c.chi2 j ≤ c.chi2 i) := by
  unfold proposed
  simp only
  obtain ⟨hp, ho⟩ := hsort c.chi2 ((x.obs.map Prod.fst).filter fun i => !decide (i ∈ ids))
  generalize x.argsort c.chi2 ((x.obs.map Prod.fst).filter fun i => !decide (i ∈ ids)) = sorted at *
  have hnd : sorted.Nodup := hp.nodup_iff.mpr (hids.filter _)
  refine ⟨hnd.sublist (List.drop_sublist _ _), ?_, ?_, ?_⟩
  · intro i hi
    have := hp.mem_iff.mp ((List.drop_sublist _ _).subset hi)
    rw [List.mem_filter] at this
    exact ⟨this.1, by simpa using this.2⟩
  · rw [List.length_drop]; omega
  · intro i hi j hj hjt hjn
    have hjs : j ∈ sorted := hp.mem_iff.mpr (List.mem_filter.mpr ⟨hj, by simpa using hjt⟩)
    rw [← List.take_append_drop (sorted.length - k) sorted] at hjs ho
    rw [List.mem_append] at hjs
    rw [List.pairwise_append] at ho
    rcases hjs with h | h
    · exact ho.2.2 j h i hi
    · exact absurd h hjn

/-- The number of observations left after removing some outside a triple. -/
theorem left_three (ids : List N) (hnd : ids.Nodup) (hlen : ids.length = 3) (hsub : ∀ i ∈ ids, i ∈ x.obs.map Prod.fst)
    (c : Cand S N) (k : Nat) : 3 + (proposed x c ids k).length ≤ x.obs.length := by
  obtain ⟨h1, h2, _⟩ := proposed_spec x hids hsort c ids k
  have hnd' : (ids ++ proposed x c ids k).Nodup := by
    rw [List.nodup_append]
    refine ⟨hnd, h1, ?_⟩
    intro a ha b hb hab
    subst hab
    exact (h2 a hb).2 ha
  have hs : ∀ i ∈ ids ++ proposed x c ids k, i ∈ x.obs.map Prod.fst := by
    intro i hi
    rcases List.mem_append.mp hi with h | h
    · exact hsub i h
    · exact (h2 i h).1
  have := (hnd'.subperm hs).length_le
  rw [List.length_append, List.length_map, hlen] at this
  exact this

/-- What is recorded of an accepted solution. -/
structure Good (triples : List (List N)) (sol : Sol S N) (numObs : Nat) : Prop where
  triple : sol.triple ∈ triples
  outliers : ∃ k, k ≤ x.maxOut ∧ sol.outliers = proposed x sol.cand sol.triple k
  chi2 : sol.chi2 = total sol.cand (x.obs.map Prod.fst) - total sol.cand sol.outliers
  rchi2 : sol.rchi2 = sol.chi2 / dof numObs
  within : within x.thr sol.chi2 (dof numObs) = true
  num : numObs + sol.outliers.length ≤ x.obs.length

/-- The loop invariant. -/
structure Inv (triples : List (List N)) (s : St S N) : Prop where
  sol : ∀ sol, s.sol = some sol → Good x triples sol s.numObs
  three : 3 ≤ s.numObs
  le : s.numObs ≤ x.obs.length
  some : s.converged = s.sol.isSome

theorem tryOutliers_inv (triples : List (List N)) (c : Cand S N) (ids : List N) (hin : ids ∈ triples) (hnd : ids.Nodup)
    (hlen : ids.length = 3) (hsub : ∀ i ∈ ids, i ∈ x.obs.map Prod.fst) (fuel k : Nat) (hk : fuel + k ≤ x.maxOut) (s : St S N)
    (hI : Inv x triples s) : Inv x triples (tryOutliers x c ids fuel k s) ∧
      (tryOutliers x c ids fuel k s).processable = s.processable := by
  induction fuel generalizing k s with
  | zero => exact ⟨hI, rfl⟩
  | succ fuel ih =>
    unfold tryOutliers
    simp only
    have h3 := left_three x hids hsort ids hnd hlen hsub c (k + 1)
    split
    · rename_i h
      rw [Bool.and_eq_true] at h
      refine ⟨⟨?_, ?_, ?_, rfl⟩, rfl⟩
      · intro sol hs
        simp only [Option.some.injEq] at hs
        subst hs
        refine ⟨hin, ⟨k + 1, by omega, rfl⟩, rfl, rfl, h.1, ?_⟩
        simp only
        omega
      · simp only; omega
      · simp only; omega
    · obtain ⟨h1, h2⟩ := ih (k + 1) (by omega) { s with arc := Od.extent ((x.obs.filter fun o =>
        !decide (o.1 ∈ proposed x c ids (k + 1))).map Prod.snd) } ⟨hI.sol, hI.three, hI.le, hI.some⟩
      exact ⟨h1, h2⟩

theorem proposed_zero (c : Cand S N) (ids : List N) : proposed x c ids 0 = [] := by
  unfold proposed
  simp

theorem candLoop_inv (triples : List (List N)) (ids : List N) (hin : ids ∈ triples) (hnd : ids.Nodup)
    (hlen : ids.length = 3) (hsub : ∀ i ∈ ids, i ∈ x.obs.map Prod.fst) (cands : List (Cand S N)) (s : St S N)
    (hI : Inv x triples s) : Inv x triples (candLoop x ids cands s) := by
  induction cands generalizing s with
  | nil => exact hI
  | cons c rest ih =>
    unfold candLoop
    simp only
    split
    · split
      · exact ⟨hI.sol, hI.three, hI.le, hI.some⟩
      · exact ih s hI
    · split
      · rename_i h
        refine ⟨?_, hI.three, hI.le, rfl⟩
        intro sol hs
        simp only [Option.some.injEq] at hs
        subst hs
        refine ⟨hin, ⟨0, by omega, by rw [proposed_zero x hids hsort]⟩, ?_, rfl, h, ?_⟩
        · simp [total]
        · simpa using hI.le
      · split
        · exact ih _ (tryOutliers_inv x hids hsort triples c ids hin hnd hlen hsub x.maxOut 0 (by omega) s hI).1
        · exact ih s hI

theorem tripleLoop_inv (triples : List (List N)) (hT : ∀ t ∈ triples, t.Nodup ∧ t.length = 3 ∧ ∀ i ∈ t, i ∈ x.obs.map Prod.fst)
    (todo : List (List N)) (htodo : ∀ t ∈ todo, t ∈ triples) (s s' : St S N) (hI : Inv x triples s)
    (h : tripleLoop x todo s = .ok s') : Inv x triples s' := by
  induction todo generalizing s with
  | nil => unfold tripleLoop at h; cases h; exact hI
  | cons ids rest ih =>
    unfold tripleLoop at h
    cases hg : x.gauss ids with
    | error e => rw [hg] at h; cases h
    | ok cands =>
      rw [hg] at h
      simp only at h
      obtain ⟨h1, h2, h3⟩ := hT ids (htodo ids (by simp))
      have hI' := candLoop_inv x hids hsort triples ids (htodo ids (by simp)) h1 h2 h3 cands s hI
      split at h
      · cases h; exact hI'
      · exact ih (fun t ht => htodo t (by simp [ht])) _ hI' h

/-- The exact invariant: the number of observations and the arc are those of the accepted solution. -/
structure Exact (s : St S N) : Prop where
  some : ∀ sol, s.sol = some sol → s.numObs + sol.outliers.length = x.obs.length ∧
    s.arc = Od.extent ((x.obs.filter fun o => !decide (o.1 ∈ sol.outliers)).map Prod.snd)
  none : s.sol = none → s.numObs = x.obs.length

theorem tryOutliers_exact (c : Cand S N) (ids : List N) (hnd : ids.Nodup)
    (hlen : ids.length = 3) (hsub : ∀ i ∈ ids, i ∈ x.obs.map Prod.fst) (fuel k : Nat) (s : St S N)
    (hn : s.sol = none) (hI : Exact x s) : Exact x (tryOutliers x c ids fuel k s) := by
  induction fuel generalizing k s with
  | zero => exact hI
  | succ fuel ih =>
    unfold tryOutliers
    simp only
    have h3 := left_three x hids hsort ids hnd hlen hsub c (k + 1)
    split
    · refine ⟨?_, by intro h; cases h⟩
      intro sol hs
      simp only [Option.some.injEq] at hs
      subst hs
      refine ⟨?_, rfl⟩
      simp only
      omega
    · apply ih
      · exact hn
      · exact ⟨fun sol hs => absurd (hs.symm.trans hn) (by simp), hI.none⟩

/-- In the loop over the candidates of one triple, with none accepted before. -/
theorem candLoop_exact (ids : List N) (hnd : ids.Nodup)
    (hlen : ids.length = 3) (hsub : ∀ i ∈ ids, i ∈ x.obs.map Prod.fst) (cands : List (Cand S N)) (s : St S N)
    (hone : x.maxOut = 0 ∨ cands.length ≤ 1) (hn : s.sol = none) (hI : Exact x s) :
    Exact x (candLoop x ids cands s) := by
  induction cands generalizing s with
  | nil => exact hI
  | cons c rest ih =>
    have hone' : x.maxOut = 0 ∨ rest.length ≤ 1 := by
      rcases hone with h | h
      · exact Or.inl h
      · right; simp only [List.length_cons] at h; omega
    unfold candLoop
    simp only
    split
    · split
      · exact ⟨hI.some, hI.none⟩
      · exact ih s hone' hn hI
    · split
      · refine ⟨?_, by intro h; cases h⟩
        intro sol hs
        simp only [Option.some.injEq] at hs
        subst hs
        refine ⟨by simpa using hI.none hn, ?_⟩
        simp only
        congr 2
        symm
        rw [List.filter_eq_self]
        simp
      · split
        · rename_i hm
          have hr : rest = [] := by
            rcases hone with h | h
            · omega
            · simp only [List.length_cons] at h
              exact List.length_eq_zero_iff.mp (by omega)
          rw [hr]
          exact tryOutliers_exact x hids hsort c ids hnd hlen hsub x.maxOut 0 s hn hI
        · exact ih s hone' hn hI

theorem tripleLoop_exact (triples : List (List N)) (hT : ∀ t ∈ triples, t.Nodup ∧ t.length = 3 ∧ ∀ i ∈ t, i ∈ x.obs.map Prod.fst)
    (hone : x.maxOut = 0 ∨ ∀ t cands, x.gauss t = .ok cands → cands.length ≤ 1)
    (todo : List (List N)) (htodo : ∀ t ∈ todo, t ∈ triples) (s s' : St S N) (hn : s.sol = none) (hI : Exact x s)
    (hinv : Inv x triples s) (h : tripleLoop x todo s = .ok s') : Exact x s' := by
  induction todo generalizing s with
  | nil => unfold tripleLoop at h; cases h; exact hI
  | cons ids rest ih =>
    unfold tripleLoop at h
    cases hg : x.gauss ids with
    | error e => rw [hg] at h; cases h
    | ok cands =>
      rw [hg] at h
      simp only at h
      obtain ⟨h1, h2, h3⟩ := hT ids (htodo ids (by simp))
      have hI' := candLoop_exact x hids hsort ids h1 h2 h3 cands s (hone.imp_right fun f => f ids cands hg) hn hI
      have hinv' := candLoop_inv x hids hsort triples ids (htodo ids (by simp)) h1 h2 h3 cands s hinv
      split at h
      · cases h; exact hI'
      · rename_i hc
        rw [Bool.or_eq_true] at hc
        push Not at hc
        refine ih (fun t ht => htodo t (by simp [ht])) _ ?_ hI' hinv' h
        have := hinv'.some
        cases hs : (candLoop x ids cands s).sol with
        | none => rfl
        | some sol => rw [hs] at this; exact absurd this hc.1

end

end Verif.Iod
