import Verif.Iod.Props

/-! # C182: what it means that no orbit was found -/

namespace Verif.Iod.CompleteProps

open Verif Sched Spec Verif.Iod.Props

set_option linter.unusedSectionVars false

section
variable {S N : Type} [DecidableEq N]

/-- The `out` are observations outside the triple `t`, each with a larger chi2 than every other observation outside it. -/
structure Worst (obs : List (N × ℚ)) (c : Cand S N) (t out : List N) : Prop where
  nodup : out.Nodup
  outside : ∀ i ∈ out, i ∈ obs.map Prod.fst ∧ i ∉ t
  worse : ∀ i ∈ out, ∀ j ∈ obs.map Prod.fst, j ∉ t → j ∉ out → c.chi2 j < c.chi2 i

/-- Without the observations `out`, a candidate has a reduced chi2 within `thr`. -/
def Fits (obs : List (N × ℚ)) (thr : ℚ) (c : Cand S N) (out : List N) : Prop :=
  let kept := (obs.map Prod.fst).filter fun i => !decide (i ∈ out)
  3 < kept.length ∧ (kept.map c.chi2).sum ≤ thr * (2 * (kept.length : ℚ) - 6)

/-- The observations other than `out` span at least `minArc`. -/
def Spans (obs : List (N × ℚ)) (minArc : ℚ) (out : List N) : Prop :=
  ∃ a, IsArc ((obs.filter fun o => !decide (o.1 ∈ out)).map Prod.snd) a ∧ minArc ≤ a

variable (x : Ctx S N) (hids : (x.obs.map Prod.fst).Nodup) (hsort : Sorts x.argsort)
include hids hsort

/-- The observations proposed as outliers are the strictly worst ones, whenever that determines them. -/
theorem proposed_worst (c : Cand S N) (t out : List N) (h : Worst x.obs c t out) : (proposed x c t out.length).Perm out := by
  obtain ⟨p1, p2, p3, p4⟩ := proposed_spec x hids hsort c t out.length
  have hlen : (proposed x c t out.length).length = out.length := by
    have hle : out.length ≤ ((x.obs.map Prod.fst).filter fun i => !decide (i ∈ t)).length := by
      refine (h.nodup.subperm fun i hi => ?_).length_le
      rw [List.mem_filter]
      exact ⟨(h.outside i hi).1, by simpa using (h.outside i hi).2⟩
    unfold proposed
    simp only
    rw [List.length_drop, (hsort c.chi2 _).1.length_eq]
    omega
  have hsub : ∀ i ∈ proposed x c t out.length, i ∈ out := by
    intro i hi
    by_contra hni
    have : ∃ o ∈ out, o ∉ proposed x c t out.length := by
      by_contra hc
      push Not at hc
      have hp : (out).Perm (proposed x c t out.length) := (h.nodup.subperm hc).perm_of_length_le (by rw [hlen])
      exact hni (hp.mem_iff.mpr hi)
    obtain ⟨o, ho, hno⟩ := this
    have a := p4 i hi o (h.outside o ho).1 (h.outside o ho).2 hno
    have b := h.worse o ho i (p2 i hi).1 (p2 i hi).2 hni
    exact absurd a (not_le.mpr b)
  exact (p1.subperm hsub).perm_of_length_le (by rw [hlen])

theorem arc_unique {times : List ℚ} {a b : ℚ} (ha : IsArc times a) (hb : IsArc times b) : a = b := by
  obtain ⟨lo, hlo, hi, hhi, rfl, h1⟩ := ha
  obtain ⟨lo', hlo', hi', hhi', rfl, h2⟩ := hb
  have a1 := h1 lo' hlo'
  have a2 := h1 hi' hhi'
  have b1 := h2 lo hlo
  have b2 := h2 hi hhi
  linarith

/-- The test of the outlier loop. -/
theorem test_iff (c : Cand S N) (remove out : List N) (hp : remove.Perm out) (hn : out.Nodup)
    (hout : ∀ i ∈ out, i ∈ x.obs.map Prod.fst) (h3 : 3 + out.length ≤ x.obs.length) :
    (within x.thr (total c (x.obs.map Prod.fst) - total c remove) (dof (x.obs.length - remove.length)) &&
      longEnough x.minArc (Od.extent ((x.obs.filter fun o => !decide (o.1 ∈ remove)).map Prod.snd))) = true ↔
    Fits x.obs x.thr c out ∧ Spans x.obs x.minArc out := by
  have hn' : remove.Nodup := hp.nodup_iff.mpr hn
  have hmem : ∀ i, i ∈ remove ↔ i ∈ out := fun i => hp.mem_iff
  have hfilter : (fun o : N × ℚ => !decide (o.1 ∈ remove)) = fun o => !decide (o.1 ∈ out) := by
    funext o
    simp only [hmem]
  have hfilter' : (fun i : N => !decide (i ∈ remove)) = fun i => !decide (i ∈ out) := by
    funext o
    simp only [hmem]
  have hkept : ((x.obs.map Prod.fst).filter fun i => !decide (i ∈ out)).length = x.obs.length - remove.length := by
    have hc := Od.count_removed (x.obs.map Prod.fst) out hids hn hout
    have hs := List.length_eq_length_filter_add (l := x.obs.map Prod.fst) (fun i => decide (i ∈ out))
    rw [List.length_map] at hs
    rw [hp.length_eq]
    omega
  have hk3 : 3 ≤ x.obs.length - remove.length := by
    rw [hp.length_eq]
    omega
  rw [Bool.and_eq_true, hfilter]
  refine and_congr ?_ ?_
  · rw [total_split c _ _ hids hn' fun i hi => hout i ((hmem i).mp hi), hfilter']
    unfold within Fits total
    simp only
    rw [hkept, Bool.and_eq_true, decide_eq_true_eq, decide_eq_true_eq]
    have hd : ((dof (x.obs.length - remove.length) : ℤ) : ℚ) = 2 * ((x.obs.length - remove.length : ℕ) : ℚ) - 6 := by
      unfold dof
      push_cast
      ring
    rcases Nat.lt_or_eq_of_le hk3 with h | h
    · have hpos : (0 : ℚ) < 2 * ((x.obs.length - remove.length : ℕ) : ℚ) - 6 := by
        have : (4 : ℚ) ≤ ((x.obs.length - remove.length : ℕ) : ℚ) := by exact_mod_cast h
        linarith
      rw [hd, div_le_iff₀ hpos]
      refine and_congr_left fun _ => ?_
      refine iff_of_true ?_ h
      intro h0
      rw [h0] at hd
      rw [← hd] at hpos
      simp at hpos
    · rw [← h]
      refine iff_of_false (fun hc => hc.1 ?_) fun hc => absurd hc.1 (lt_irrefl _)
      rfl
  · unfold Spans
    cases he : Od.extent ((x.obs.filter fun o => !decide (o.1 ∈ out)).map Prod.snd) with
    | none =>
      refine iff_of_false (by simp [longEnough]) ?_
      rintro ⟨a, ⟨lo, hlo, -⟩, -⟩
      obtain ⟨b, hb⟩ := Od.extent_isSome (List.ne_nil_of_mem hlo)
      rw [he] at hb
      cases hb
    | some a =>
      have ha : IsArc ((x.obs.filter fun o => !decide (o.1 ∈ out)).map Prod.snd) a := Od.extent_some he
      simp only [longEnough, decide_eq_true_eq]
      constructor
      · intro h
        exact ⟨a, ha, h⟩
      · rintro ⟨b, hb, h⟩
        rw [arc_unique x hids hsort ha hb]
        exact h

omit hids hsort in
theorem tryOutliers_converged (c : Cand S N) (t : List N) (fuel k : Nat) (s : St S N) (hs : s.converged = true) :
    (tryOutliers x c t fuel k s).converged = true := by
  induction fuel generalizing k s with
  | zero => exact hs
  | succ fuel ih =>
    unfold tryOutliers
    simp only
    split
    · rfl
    · exact ih _ _ hs

omit hids hsort in
theorem candLoop_converged (t : List N) (cands : List (Cand S N)) (s : St S N) (hs : s.converged = true) :
    (candLoop x t cands s).converged = true := by
  induction cands generalizing s with
  | nil => exact hs
  | cons c rest ih =>
    unfold candLoop
    simp only
    split
    · split
      · exact hs
      · exact ih _ hs
    · split
      · rfl
      · split
        · exact ih _ (tryOutliers_converged x c t _ _ _ hs)
        · exact ih _ hs

omit hids hsort in
/-- The loop over the outliers ends unconverged only if every number of outliers failed the test. -/
theorem tryOutliers_none (c : Cand S N) (t : List N) (fuel k : Nat) (s : St S N)
    (h : (tryOutliers x c t fuel k s).converged = false) :
    (∀ j, k < j → j ≤ k + fuel → (within x.thr (total c (x.obs.map Prod.fst) - total c (proposed x c t j))
        (dof (x.obs.length - (proposed x c t j).length)) &&
      longEnough x.minArc (Od.extent ((x.obs.filter fun o => !decide (o.1 ∈ proposed x c t j)).map Prod.snd))) = false) ∧
    (tryOutliers x c t fuel k s).numObs = s.numObs ∧ (tryOutliers x c t fuel k s).processable = s.processable := by
  induction fuel generalizing k s with
  | zero => exact ⟨fun j h1 h2 => absurd h1 (by omega), rfl, rfl⟩
  | succ fuel ih =>
    unfold tryOutliers at h ⊢
    simp only at h ⊢
    split at h
    · cases h
    · rename_i hne
      rw [if_neg hne]
      obtain ⟨h1, h2, h3⟩ := ih _ _ h
      refine ⟨fun j hj1 hj2 => ?_, h2, h3⟩
      rcases Nat.lt_or_eq_of_le (Nat.succ_le_of_lt hj1) with hj | hj
      · exact h1 j hj (by omega)
      · subst hj
        simpa using hne

omit hids hsort in
theorem candLoop_none (hout : 0 < x.maxOut) (t : List N) (cands : List (Cand S N)) (s : St S N) (hp : s.processable = true)
    (h : (candLoop x t cands s).converged = false) :
    (∀ c ∈ cands, within x.thr (total c (x.obs.map Prod.fst)) (dof s.numObs) = false ∧
      ∀ j, 0 < j → j ≤ x.maxOut → (within x.thr (total c (x.obs.map Prod.fst) - total c (proposed x c t j))
        (dof (x.obs.length - (proposed x c t j).length)) &&
      longEnough x.minArc (Od.extent ((x.obs.filter fun o => !decide (o.1 ∈ proposed x c t j)).map Prod.snd))) = false) ∧
    (candLoop x t cands s).numObs = s.numObs ∧ (candLoop x t cands s).processable = true := by
  induction cands generalizing s with
  | nil => exact ⟨(fun c hc => by cases hc), rfl, hp⟩
  | cons c rest ih =>
    unfold candLoop at h ⊢
    simp only at h ⊢
    have h0 : (above x.thr (total c (x.obs.map Prod.fst)) (dof s.numObs) && decide (x.maxOut = 0)) = false := by
      rw [decide_eq_false (by omega), Bool.and_false]
    rw [h0] at h ⊢
    simp only [Bool.false_eq_true, if_false] at h ⊢
    split at h
    · cases h
    · rename_i hw
      rw [if_neg hw]
      rw [if_pos hout]
      have hc : (tryOutliers x c t x.maxOut 0 s).converged = false := by
        by_contra hne
        rw [candLoop_converged x t rest _ (by simpa using hne)] at h
        cases h
      obtain ⟨h1, h2, h3⟩ := tryOutliers_none x c t _ _ _ hc
      obtain ⟨i1, i2, i3⟩ := ih _ (h3.trans hp) h
      refine ⟨?_, i2.trans h2, i3⟩
      intro c' hc'
      rcases List.mem_cons.mp hc' with rfl | hm
      · exact ⟨by simpa using hw, fun j hj1 hj2 => h1 j hj1 (by omega)⟩
      · have := i1 c' hm
        rw [h2] at this
        exact this

omit hids hsort in
theorem tryOutliers_processable (c : Cand S N) (t : List N) (fuel k : Nat) (s : St S N) :
    (tryOutliers x c t fuel k s).processable = s.processable := by
  induction fuel generalizing k s with
  | zero => rfl
  | succ fuel ih =>
    unfold tryOutliers
    simp only
    split
    · rfl
    · exact ih _ _

omit hids hsort in
theorem candLoop_processable (hout : 0 < x.maxOut) (t : List N) (cands : List (Cand S N)) (s : St S N) :
    (candLoop x t cands s).processable = s.processable := by
  induction cands generalizing s with
  | nil => rfl
  | cons c rest ih =>
    unfold candLoop
    simp only
    have h0 : (above x.thr (total c (x.obs.map Prod.fst)) (dof s.numObs) && decide (x.maxOut = 0)) = false := by
      rw [decide_eq_false (by omega), Bool.and_false]
    rw [h0]
    simp only [Bool.false_eq_true, if_false]
    split
    · rfl
    · rw [ih]
      exact tryOutliers_processable x c t _ _ _

/-- What the outlier loop tests with the `j` worst observations removed. -/
def Passes (c : Cand S N) (t : List N) (j : Nat) : Bool :=
  within x.thr (total c (x.obs.map Prod.fst) - total c (proposed x c t j)) (dof (x.obs.length - (proposed x c t j).length)) &&
    longEnough x.minArc (Od.extent ((x.obs.filter fun o => !decide (o.1 ∈ proposed x c t j)).map Prod.snd))

omit hids hsort in
theorem tripleLoop_none (hout : 0 < x.maxOut) (todo : List (List N)) (s s' : St S N) (hp : s.processable = true)
    (h : tripleLoop x todo s = .ok s') :
    s'.processable = true ∧ (s'.converged = false → ∀ t ∈ todo, ∃ cands, x.gauss t = .ok cands ∧
      ∀ c ∈ cands, within x.thr (total c (x.obs.map Prod.fst)) (dof s.numObs) = false ∧
        ∀ j, 0 < j → j ≤ x.maxOut → Passes x c t j = false) := by
  induction todo generalizing s with
  | nil =>
    unfold tripleLoop at h
    cases h
    exact ⟨hp, fun _ t ht => by cases ht⟩
  | cons t rest ih =>
    unfold tripleLoop at h
    cases hg : x.gauss t with
    | error e => rw [hg] at h; cases h
    | ok cands =>
      rw [hg] at h
      simp only at h
      have hpc := (candLoop_processable x hout t cands s).trans hp
      rw [hpc] at h
      simp only [Bool.not_true, Bool.or_false] at h
      split at h
      · rename_i hc
        cases h
        exact ⟨hpc, fun hf => by rw [hc] at hf; cases hf⟩
      · rename_i hc
        obtain ⟨h1, h2⟩ := ih _ hpc h
        refine ⟨h1, fun hf t' ht' => ?_⟩
        obtain ⟨n1, n2, -⟩ := candLoop_none x hout t cands s hp (by simpa using hc)
        rcases List.mem_cons.mp ht' with rfl | hm
        · exact ⟨cands, hg, n1⟩
        · have := h2 hf t' hm
          rw [n2] at this
          exact this

end

section
variable {S N : Type} [DecidableEq N]

/-- C182. If outliers are allowed and no orbit is returned for enough observations, then no candidate of any triple that was tried fits all
observations, and none fits the others after leaving out up to the allowed number of strictly worst observations outside the triple
while these still span the minimum arc. -/
theorem C182_nothing (fl : ℚ → ℚ) (minObs : ℤ) (pct : ℚ) (triples : List (List N)) (x : Ctx S N)
    (hids : (x.obs.map Prod.fst).Nodup) (hsort : Sorts x.argsort)
    (hT : ∀ t ∈ triples, t.Nodup ∧ t.length = 3 ∧ ∀ i ∈ t, i ∈ x.obs.map Prod.fst)
    (budget : ℕ) (hb : Od.maxOutliers fl x.obs.length minObs pct = .ok (budget : ℤ)) (hpos : 0 < budget)
    (henough : minObs ≤ x.obs.length) (h : iod fl minObs pct triples x = .ok none) :
    ∀ t ∈ triples.take (3 * (budget + 1)), ∃ cands, x.gauss t = .ok cands ∧ ∀ c ∈ cands, ¬ Fits x.obs x.thr c [] ∧
      ∀ out, 0 < out.length → out.length ≤ budget → Worst x.obs c t out → ¬ (Fits x.obs x.thr c out ∧ Spans x.obs x.minArc out) := by
  intro t ht
  obtain ⟨t1, t2, t3⟩ := hT t ((List.take_sublist _ _).subset ht)
  have hobs : 3 ≤ x.obs.length := by
    have := (t1.subperm t3).length_le
    rw [List.length_map] at this
    omega
  unfold iod at h
  rw [hb] at h
  simp only [Int.toNat_natCast] at h
  rw [if_neg] at h
  swap
  · simp only [Bool.or_eq_true, not_or, decide_eq_true_eq, List.isEmpty_iff]
    refine ⟨⟨fun h0 => by rw [h0] at hobs; simp at hobs, by omega⟩, fun h0 => by rw [h0] at ht; cases ht⟩
  cases hl : tripleLoop { x with maxOut := budget } (triples.take (3 * (budget + 1))) ⟨none, none, x.obs.length, false, true⟩ with
  | error e => rw [hl] at h; cases h
  | ok s =>
    rw [hl] at h
    simp only [Except.ok.injEq] at h
    obtain ⟨h1, h2⟩ := tripleLoop_none { x with maxOut := budget } hpos _ _ s rfl hl
    have hI := tripleLoop_inv { x with maxOut := budget } hids hsort triples hT _
      (fun t ht => (List.take_sublist _ _).subset ht) _ s ⟨fun sol hs => by simp at hs, hobs, le_refl _, rfl⟩ hl
    have hc : s.converged = false := by
      unfold finish at h
      rw [h1, Bool.and_true] at h
      split at h
      · rename_i hc
        have := hI.some
        rw [hc] at this
        cases hs : s.sol with
        | none => rw [hs] at this; cases this
        | some sol => rw [hs] at h; cases h
      · rename_i hc
        simpa using hc
    obtain ⟨cands, hg, hall⟩ := h2 hc t ht
    refine ⟨cands, hg, fun c hcm => ?_⟩
    obtain ⟨f1, f2⟩ := hall c hcm
    constructor
    · rintro ⟨g1, g2⟩
      simp only [List.not_mem_nil, decide_false, Bool.not_false, List.filter_true, List.length_map] at g1 g2
      have hd : ((dof x.obs.length : ℤ) : ℚ) = 2 * (x.obs.length : ℚ) - 6 := by
        unfold dof
        push_cast
        ring
      have hpos : (0 : ℚ) < 2 * (x.obs.length : ℚ) - 6 := by
        have : (4 : ℚ) ≤ (x.obs.length : ℚ) := by exact_mod_cast g1
        linarith
      have f1' : within x.thr (total c (x.obs.map Prod.fst)) (dof x.obs.length) = false := f1
      unfold within total at f1'
      rw [hd] at f1'
      have hne : dof x.obs.length ≠ 0 := by
        intro h0
        rw [h0] at hd
        rw [← hd] at hpos
        simp at hpos
      have hle : (List.map c.chi2 (List.map Prod.fst x.obs)).sum / (2 * (x.obs.length : ℚ) - 6) ≤ x.thr := by
        rwa [div_le_iff₀ hpos]
      rw [decide_eq_true hne, decide_eq_true hle] at f1'
      cases f1'
    · intro out o1 o2 hw ho
      have hp := proposed_worst { x with maxOut := budget } hids hsort c t out hw
      have h3 : 3 + out.length ≤ x.obs.length := by
        have := left_three { x with maxOut := budget } hids hsort t t1 t2 t3 c out.length
        rw [hp.length_eq] at this
        exact this
      have := (test_iff { x with maxOut := budget } hids hsort c _ out hp hw.nodup (fun i hi => (hw.outside i hi).1) h3).mpr ho
      have hf := f2 out.length o1 o2
      unfold Passes at hf
      rw [this] at hf
      cases hf

end

/-! ## No outliers allowed -/

/-- Two triples: the first gives a candidate that fits nothing, the second one that fits everything. -/
def exTwo : Ctx Nat Nat := { exCtx [] with gauss := fun t => .ok (if t = [1, 2, 3] then [candBad] else [candAll]) }

/-- C182. Not so when no outliers are allowed: the triples after the first that gives candidates are not tried, even if one of them gives an
orbit that fits all observations. -/
theorem C182_nothing_false :
    ¬ ∀ (triples : List (List Nat)) (x : Ctx Nat Nat), (x.obs.map Prod.fst).Nodup → Sorts x.argsort →
      (∀ t ∈ triples, t.Nodup ∧ t.length = 3 ∧ ∀ i ∈ t, i ∈ x.obs.map Prod.fst) → iod id 4 0 triples x = .ok none → 4 ≤ x.obs.length →
      ∀ t ∈ triples.take 3, ∀ cands, x.gauss t = .ok cands → ∀ c ∈ cands, ¬ Fits x.obs x.thr c [] := by
  intro h
  have h1 : ((iod id 4 0 [[1, 2, 3], [1, 2, 4]] exTwo).toOption.map Option.isNone) = some true := by decide +kernel
  have h2 : iod id 4 0 [[1, 2, 3], [1, 2, 4]] exTwo = .ok none := by
    cases hr : iod id 4 0 [[1, 2, 3], [1, 2, 4]] exTwo with
    | error e => rw [hr] at h1; simp [Except.toOption] at h1
    | ok o =>
      cases o with
      | none => rfl
      | some r => rw [hr] at h1; simp [Except.toOption] at h1
  refine h [[1, 2, 3], [1, 2, 4]] exTwo (by decide) exSort_sorts (by decide) h2 (by decide) [1, 2, 4] (by decide) [candAll] rfl candAll
    (by simp) ?_
  unfold Fits
  decide +kernel

/-- The hypotheses of `C182_nothing` are met: one outlier allowed, one candidate that fits nothing, no orbit. -/
example : Od.maxOutliers id exObs.length 4 20 = .ok ((1 : ℕ) : ℤ) ∧
    (iod id 4 20 [[1, 2, 3]] (exCtx [candBad])).toOption.map Option.isNone = some true := by
  constructor <;> decide +kernel

/-- An orbit is found when the observations left span exactly the minimum arc. -/
example : view (iod id 4 20 [[1, 2, 3]] { exCtx [cand4] with minArc := 20 }) =
    some ((44, some 20, 4), [(1, false), (2, false), (3, false), (4, true), (5, false)]) := by decide +kernel

end Verif.Iod.CompleteProps
