import Verif.Iod.Lemmas
import Mathlib.Data.List.Sort
import Mathlib.Data.List.Dedup

/-! # Selection of triples, pairing with observers, and order of the results -/

namespace Verif.Iod.Props

open Verif Sched Spec

set_option linter.unusedSectionVars false

section
variable {N K X Y : Type}

theorem take_mem {α : Type} (l : List α) (idx : List Nat) {a : α} (h : a ∈ take l idx) : a ∈ l := by
  unfold take at h
  obtain ⟨i, _, hi⟩ := List.mem_filterMap.mp h
  exact List.mem_of_getElem? hi

theorem uniq_of_nodup {α : Type} [DecidableEq α] {l : List α} (h : l.Nodup) : uniq l = l := by
  induction l with
  | nil => rfl
  | cons a l ih =>
    rw [List.nodup_cons] at h
    unfold uniq
    rw [ih h.2]
    congr 1
    rw [List.filter_eq_self]
    intro b hb
    have : b ≠ a := fun e => h.1 (e ▸ hb)
    simpa using this

theorem mem_pairs {α : Type} (l : List α) (a b : α) : (a, b) ∈ pairs l ↔ [a, b].Sublist l := by
  induction l with
  | nil => simp [pairs]
  | cons c l ih =>
    unfold pairs
    rw [List.mem_append, List.mem_map, ih, List.cons_sublist_cons']
    constructor
    · rintro (⟨b', hb', he⟩ | h)
      · cases he
        exact Or.inr ⟨rfl, List.singleton_sublist.mpr hb'⟩
      · exact Or.inl h
    · rintro (h | ⟨rfl, h⟩)
      · exact Or.inr h
      · exact Or.inl ⟨b, List.singleton_sublist.mp h, rfl⟩

theorem mem_triples {α : Type} (l : List α) (a b c : α) : (a, b, c) ∈ triples l ↔ [a, b, c].Sublist l := by
  induction l with
  | nil => simp [triples]
  | cons d l ih =>
    unfold triples
    rw [List.mem_append, List.mem_map, ih, List.cons_sublist_cons']
    constructor
    · rintro (⟨p, hp, he⟩ | h)
      · cases he
        exact Or.inr ⟨rfl, (mem_pairs l b c).mp hp⟩
      · exact Or.inl h
    · rintro (h | ⟨rfl, h⟩)
      · exact Or.inr h
      · exact Or.inl ⟨(b, c), (mem_pairs l b c).mpr h, rfl⟩

theorem nodup_pairs {α : Type} (l : List α) (h : l.Nodup) : (pairs l).Nodup := by
  induction l with
  | nil => simp [pairs]
  | cons a l ih =>
    rw [List.nodup_cons] at h
    unfold pairs
    rw [List.nodup_append]
    refine ⟨h.2.map fun x y hxy => (Prod.mk.inj hxy).2, ih h.2, ?_⟩
    intro p hp q hq hpq
    subst hpq
    obtain ⟨b, _, rfl⟩ := List.mem_map.mp hp
    have := ((mem_pairs l a b).mp hq).subset (List.mem_cons_self)
    exact h.1 this

theorem nodup_triples {α : Type} (l : List α) (h : l.Nodup) : (triples l).Nodup := by
  induction l with
  | nil => simp [triples]
  | cons a l ih =>
    rw [List.nodup_cons] at h
    unfold triples
    rw [List.nodup_append]
    refine ⟨(nodup_pairs l h.2).map fun x y hxy => (Prod.mk.inj hxy).2, ih h.2, ?_⟩
    intro p hp q hq hpq
    subst hpq
    obtain ⟨b, _, rfl⟩ := List.mem_map.mp hp
    have := ((mem_triples l a b.1 b.2).mp hq).subset (List.mem_cons_self)
    exact h.1 this

theorem uniq_three (a b c : ℚ) : (uniq [a, b, c]).length = 3 ↔ a ≠ b ∧ a ≠ c ∧ b ≠ c := by
  rw [show (3 : ℕ) = [a, b, c].length from rfl, Joins.uniq_length_iff]
  simp [and_assoc]

/-- The combinations are the triples of observations, in row order, with three different times: each exactly once, the
longest arcs first and among equal arcs those with the middle observation nearest to the centre first. -/
theorem C88_combinations (l : List (Obs N K X Y)) (hl : l.Nodup) :
    (∀ a b c, (a, b, c) ∈ combinations l ↔ [a, b, c].Sublist l ∧ a.mjd ≠ b.mjd ∧ a.mjd ≠ c.mjd ∧ b.mjd ≠ c.mjd) ∧
    (combinations l).Nodup ∧
    (combinations l).Pairwise fun s t => t.2.2.mjd - t.1.mjd < s.2.2.mjd - s.1.mjd ∨
      t.2.2.mjd - t.1.mjd = s.2.2.mjd - s.1.mjd ∧
      |(s.2.2.mjd + s.1.mjd) / 2 - s.2.1.mjd| ≤ |(t.2.2.mjd + t.1.mjd) / 2 - t.2.1.mjd| := by
  have hmem : ∀ a b c, (a, b, c) ∈ (sortBy tripleKey (triples l)).filter threeTimes ↔
      [a, b, c].Sublist l ∧ a.mjd ≠ b.mjd ∧ a.mjd ≠ c.mjd ∧ b.mjd ≠ c.mjd := by
    intro a b c
    rw [List.mem_filter, (sortBy_perm tripleKey (triples l)).mem_iff, mem_triples]
    apply and_congr_right
    intro _
    unfold threeTimes
    rw [decide_eq_true_eq]
    exact uniq_three a.mjd b.mjd c.mjd
  unfold combinations
  split
  · rename_i h
    refine ⟨?_, List.nodup_nil, List.Pairwise.nil⟩
    intro a b c
    constructor
    · intro h; cases h
    · rintro ⟨hs, _⟩
      have := hs.length_le
      simp only [List.length_cons, List.length_nil] at this
      omega
  · refine ⟨hmem, ?_, ?_⟩
    · exact ((sortBy_perm tripleKey (triples l)).nodup_iff.mpr (nodup_triples l hl)).filter _
    · refine List.Pairwise.filter _ ((sortBy_sorted tripleKey (triples l)).imp ?_)
      intro s t hst
      unfold tripleKey at hst
      rw [Prod.Lex.le_iff] at hst
      simp only [ofLex_toLex] at hst
      rcases hst with h | ⟨h1, h2⟩
      · left; linarith
      · right; exact ⟨by linarith, h2⟩

/-- In rows sorted by time every selected triple is in increasing time. -/
theorem C88_increasing (l : List (Obs N K X Y)) (hl : l.Nodup) (hs : l.Pairwise fun a b => a.mjd ≤ b.mjd)
    (a b c : Obs N K X Y) (h : (a, b, c) ∈ combinations l) : a.mjd < b.mjd ∧ b.mjd < c.mjd := by
  obtain ⟨h1, h2, h3, h4⟩ := ((C88_combinations l hl).1 a b c).mp h
  have := hs.sublist h1
  simp only [List.pairwise_cons, List.mem_cons, List.not_mem_nil, or_false, forall_eq_or_imp, forall_eq] at this
  exact ⟨lt_of_le_of_ne this.1.1 h2, lt_of_le_of_ne this.2.1 h4⟩

/-- Selection by percentiles gives nothing or one triple of rows in increasing time, at three of the selected times. -/
theorem C88_ranks (ranks : List Nat) (l : List (Obs N K X Y)) (rows : List (Obs N K X Y)) (h : rows ∈ byRank ranks l) :
    byRank ranks l = [rows] ∧ (∀ o ∈ rows, o ∈ l) ∧ rows.length = 3 ∧ (rows.Pairwise fun a b => a.mjd < b.mjd) := by
  unfold byRank at h ⊢
  split at h
  · cases h
  · rename_i hlen
    rw [if_neg hlen]
    simp only at h ⊢
    generalize hsel : sortBy id (uniq (take (sortBy id (l.map Obs.mjd)) ranks)) = sel at h ⊢
    have hsorted : sel.Pairwise fun a b => a < b := by
      have h1 := sortBy_sorted id (uniq (take (sortBy id (l.map Obs.mjd)) ranks))
      have h2 : (sortBy id (uniq (take (sortBy id (l.map Obs.mjd)) ranks))).Nodup :=
        (sortBy_perm id _).nodup_iff.mpr (nodup_uniq _)
      rw [hsel] at h1 h2
      exact (h1.and h2).imp fun h => lt_of_le_of_ne h.1 h.2
    have hinl : ∀ t ∈ sel, ∃ o, (l.find? fun o => decide (o.mjd = t)) = some o ∧ o ∈ l ∧ o.mjd = t := by
      intro t ht
      rw [← hsel, (sortBy_perm id _).mem_iff, mem_uniq] at ht
      have ht' := take_mem _ _ ht
      rw [(sortBy_perm id _).mem_iff] at ht'
      obtain ⟨o, ho, hot⟩ := List.mem_map.mp ht'
      cases hf : l.find? fun o => decide (o.mjd = t) with
      | none => exact absurd (List.find?_eq_none.mp hf o ho) (by simpa using hot)
      | some o' => exact ⟨o', rfl, List.mem_of_find?_eq_some hf, by simpa using List.find?_some hf⟩
    have hrows : ∃ rs, (sel.filterMap fun t => l.find? fun o => decide (o.mjd = t)) = rs ∧ rs.map Obs.mjd = sel ∧
        ∀ o ∈ rs, o ∈ l := by
      refine ⟨_, rfl, ?_, ?_⟩
      · clear hsel hsorted h
        induction sel with
        | nil => rfl
        | cons t sel ih =>
          obtain ⟨o, ho, _, hot⟩ := hinl t (by simp)
          rw [List.filterMap_cons_some (f := fun t => l.find? fun o => decide (o.mjd = t)) ho, List.map_cons, hot, ih fun t' ht' => hinl t' (by simp [ht'])]
      · intro o ho
        obtain ⟨t, _, hf⟩ := List.mem_filterMap.mp ho
        exact List.mem_of_find?_eq_some hf
    obtain ⟨rs, hrs, hmap, hin⟩ := hrows
    rw [hrs] at h ⊢
    split at h
    · rename_i h3
      rw [List.mem_singleton] at h
      subst h
      rw [if_pos h3]
      refine ⟨rfl, hin, ?_, ?_⟩
      · have hu : (uniq (rows.map Obs.mjd)).length = (rows.map Obs.mjd).length := by
          rw [Joins.uniq_length_iff, hmap]
          exact hsorted.imp fun h => ne_of_lt h
        rw [hu, List.length_map] at h3
        exact h3
      · rw [← List.pairwise_map, hmap]
        exact hsorted
    · cases h

end

/-- Four observations, two at the same time. -/
example : (combinations ([⟨1, 0, 0, 0, 0⟩, ⟨2, 0, 1, 0, 0⟩, ⟨3, 0, 1, 0, 0⟩, ⟨4, 0, 5, 0, 0⟩] :
      List (Obs Nat Nat Nat Nat))).map (fun t => (t.1.id, t.2.1.id, t.2.2.id)) = [(1, 2, 4), (1, 3, 4)] ∧
    (byRank [0, 2, 3] ([⟨1, 0, 0, 0, 0⟩, ⟨2, 0, 1, 0, 0⟩, ⟨3, 0, 1, 0, 0⟩, ⟨4, 0, 5, 0, 0⟩] :
      List (Obs Nat Nat Nat Nat))).map (fun t => t.map Obs.id) = [[1, 2, 4]] := by
  decide +kernel

/-! ## Observations and their observers -/

section
variable {N K X Y : Type} [DecidableEq N] [LinearOrder K]

/-- With rows sorted by time (and origin) the Gauss solver receives each observation of the triple with its own time and
observer. -/
theorem C87_paired (obs : List (Obs N K X Y)) (ids : List N) (h : obs.Pairwise fun a b => a.key ≤ b.key) :
    gaussInput obs ids = ((obs.filter fun o => decide (o.id ∈ ids)).map Obs.coord,
      (obs.filter fun o => decide (o.id ∈ ids)).map Obs.mjd, (obs.filter fun o => decide (o.id ∈ ids)).map Obs.observer) := by
  have key : ∀ {α : Type} (f : Obs N K X Y → α), ((((obs.map fun o => decide (o.id ∈ ids)).zip (obs.map f)).filter
      fun p => p.1).map Prod.snd) = (obs.filter fun o => decide (o.id ∈ ids)).map f := by
    intro α f
    clear h
    induction obs with
    | nil => rfl
    | cons o obs ih =>
      simp only [List.map_cons, List.zip_cons_cons, List.filter_cons]
      by_cases ho : o.id ∈ ids
      · simp only [ho, decide_true, if_true, List.map_cons]
        rw [ih]
      · simp only [ho, decide_false, Bool.false_eq_true, if_false]
        rw [ih]
  unfold gaussInput
  simp only
  rw [sortBy_of_sorted Obs.key h, key, key, key]

end

/-- With rows in another order, observers of other observations are used. -/
theorem C87_unsorted_false :
    ¬ ∀ (obs : List (Obs Nat Nat Nat Nat)) (ids : List Nat),
      (gaussInput obs ids).2.2 = (obs.filter fun o => decide (o.id ∈ ids)).map Obs.observer := by
  intro h
  have := h [⟨1, 9, 9, 1, 101⟩, ⟨2, 8, 8, 2, 102⟩] [1]
  revert this
  decide +kernel

/-! ## Order of the results -/

section
variable {I N R S : Type} [LinearOrder I] [DecidableEq S]

theorem worker_ok (fit : I → Except PyErr (Option (Fit.Orbit I S × List (Fit.Member I N R))))
    (g : I → Option (Fit.Orbit I S × List (Fit.Member I N R))) (ids : List I) (h : ∀ l ∈ ids, fit l = .ok (g l)) :
    worker fit ids = .ok
      (ids.flatMap fun l => (g l).toList.map fun r => { r.1 with id := l },
       ids.flatMap fun l => (g l).toList.flatMap fun r => r.2.map fun m => { m with orbit := l }) := by
  unfold worker
  rw [gather_ok h]
  simp only
  congr 1
  clear h
  induction ids with
  | nil => rfl
  | cons l ids ih =>
    simp only [List.map_cons, List.zip_cons_cons, List.flatMap_cons]
    cases hg : g l with
    | none =>
      rw [List.filterMap_cons_none (by simp)]
      simpa using ih
    | some r =>
      rw [List.filterMap_cons_some (by simp; rfl)]
      simp only [List.map_cons, List.flatMap_cons, Option.toList_some, List.map_nil, List.flatMap_nil,
        List.append_nil, List.singleton_append]
      rw [Prod.mk.injEq] at ih ⊢
      exact ⟨by rw [ih.1], by rw [ih.2]⟩

/-- When different linkages give different orbits, the result is the orbits found, sorted by id, with their members sorted
by orbit and time, whatever the schedule and chunk size. -/
theorem C57_found (full : Nat → Bool) (pick : Nat → Nat)
    (fit : I → Except PyErr (Option (Fit.Orbit I S × List (Fit.Member I N R)))) (time : N → ℤ ×ₗ ℤ) (numObs : Nat)
    (hn : 0 < numObs) (linkages : List I) (chunk : Int) (hc : 0 < chunk)
    (g : I → Option (Fit.Orbit I S × List (Fit.Member I N R))) (hfit : ∀ l ∈ linkages, fit l = .ok (g l))
    (hdiff : ∀ l ∈ linkages, ∀ l' ∈ linkages, ∀ r r', g l = some r → g l' = some r' → r.1.state = r'.1.state → l = l') :
    ∃ out, determine full pick fit time numObs linkages chunk = .ok out ∧ Found linkages fit time out := by
  unfold determine
  by_cases hl : linkages = []
  · rw [if_pos (Or.inr hl)]
    refine ⟨_, rfl, ?_, List.Pairwise.nil, ?_, List.Pairwise.nil⟩ <;> simp [hl]
  · rw [if_neg (by push Not; exact ⟨by omega, hl⟩)]
    obtain ⟨tasks, htasks, hflat⟩ : ∃ tasks, Chunk.iterateChunks (uniq linkages) chunk = .ok tasks ∧
        tasks.flatten = uniq linkages := by
      unfold Chunk.iterateChunks
      rw [Chunk.range_pos hc]
      refine ⟨_, rfl, ?_⟩
      have := Chunk.chunks_flatten (uniq linkages) (c := chunk.toNat) (by omega) 0
      rwa [List.drop_zero] at this
    rw [htasks]
    simp only
    have hmemT : ∀ t ∈ tasks, ∀ l ∈ t, l ∈ linkages := by
      intro t ht l hl
      rw [← mem_uniq, ← hflat]
      exact List.mem_flatten.mpr ⟨t, ht, hl⟩
    rw [runTasks_ok full pick fun t ht => worker_ok fit g t fun l hl => hfit l (hmemT t ht l hl)]
    simp only
    have hperm := runAll_perm full pick tasks
    generalize (runAll full pick tasks).done = done at hperm ⊢
    -- the rows of one linkage
    set O : I → List (Fit.Orbit I S) := fun l => (g l).toList.map fun r => { r.1 with id := l } with hO
    set M : I → List (Fit.Member I N R) := fun l => (g l).toList.flatMap fun r => r.2.map fun m => { m with orbit := l } with hM
    rw [List.flatMap_map, List.flatMap_map]
    have hOd : ∀ d : List (List I), (d.flatMap fun t => t.flatMap O) = d.flatten.flatMap O := by
      intro d
      rw [List.flatMap_def, List.flatMap_def, List.map_flatten, List.flatten_flatten, List.map_map]
      rfl
    have hMd : ∀ d : List (List I), (d.flatMap fun t => t.flatMap M) = d.flatten.flatMap M := by
      intro d
      rw [List.flatMap_def, List.flatMap_def, List.map_flatten, List.flatten_flatten, List.map_map]
      rfl
    simp only
    rw [hOd, hMd]
    have hdp : done.flatten.Perm (uniq linkages) := by
      rw [← hflat]
      exact hperm.flatten
    generalize done.flatten = order at hdp ⊢
    have hnd : order.Nodup := hdp.nodup_iff.mpr (nodup_uniq _)
    have hin : ∀ l, l ∈ order ↔ l ∈ linkages := fun l => by rw [hdp.mem_iff, mem_uniq]
    have hOm : ∀ o, o ∈ order.flatMap O ↔ ∃ l ∈ linkages, ∃ r, g l = some r ∧ o = { r.1 with id := l } := by
      intro o
      rw [List.mem_flatMap]
      constructor
      · rintro ⟨l, hl, ho⟩
        rw [hO, List.mem_map] at ho
        obtain ⟨r, hr, rfl⟩ := ho
        rw [Option.mem_toList] at hr
        exact ⟨l, (hin l).mp hl, r, hr, rfl⟩
      · rintro ⟨l, hl, r, hr, rfl⟩
        refine ⟨l, (hin l).mpr hl, ?_⟩
        rw [hO, List.mem_map]
        exact ⟨r, by rw [Option.mem_toList]; exact hr, rfl⟩
    have hidnd : ((order.flatMap O).map Fit.Orbit.id).Nodup := by
      have : (order.flatMap O).map Fit.Orbit.id = order.filter fun l => (g l).isSome := by
        clear hdp hnd hin hOm
        induction order with
        | nil => rfl
        | cons l order ih =>
          rw [List.flatMap_cons, List.map_append, ih, List.filter_cons]
          cases hg : g l with
          | none => simp [hO, hg]
          | some r => simp [hO, hg]
      rw [this]
      exact hnd.filter _
    have hstates : ((order.flatMap O).map Fit.Orbit.state).Nodup := by
      rw [List.nodup_map_iff_inj_on (List.Nodup.of_map _ hidnd)]
      intro a ha b hb hab
      obtain ⟨l, hl, r, hr, rfl⟩ := (hOm a).mp ha
      obtain ⟨l', hl', r', hr', rfl⟩ := (hOm b).mp hb
      have := hdiff l hl l' hl' r r' hr hr' hab
      subst this
      rw [hr] at hr'
      cases hr'
      rfl
    have hdrop : Fit.dropDuplicates Fit.Orbit.state false (order.flatMap O) = order.flatMap O := by
      unfold Fit.dropDuplicates
      have huniq : uniq ((order.flatMap O).map Fit.Orbit.state) = (order.flatMap O).map Fit.Orbit.state :=
        uniq_of_nodup hstates
      rw [huniq, List.filterMap_map]
      generalize order.flatMap O = os at hstates ⊢
      have hself : ∀ a ∈ os, os.filter (fun b => b.state = a.state) = [a] := by
        intro a ha
        have hnd' := List.Nodup.of_map _ hstates
        have h1 : (os.filter fun b => b.state = a.state).Perm [a] := by
          rw [List.perm_ext_iff_of_nodup (hnd'.filter _) (List.nodup_singleton a)]
          intro b
          rw [List.mem_filter, decide_eq_true_eq, List.mem_singleton]
          constructor
          · rintro ⟨hb, he⟩
            exact List.inj_on_of_nodup_map hstates hb ha he
          · rintro rfl
            exact ⟨ha, rfl⟩
        exact List.perm_singleton.mp h1
      have : os.filterMap (fun a => some a) = os := by simp
      conv_rhs => rw [← this]
      apply List.filterMap_congr
      intro a ha
      simp only [Function.comp, Bool.false_eq_true, if_false]
      rw [hself a ha]
      rfl
    unfold Fit.dropDuplicateOrbits
    simp only
    rw [hdrop]
    refine ⟨_, rfl, ?_, ?_, ?_, ?_⟩
    · intro o
      simp only
      rw [(sortBy_perm Fit.Orbit.id _).mem_iff, hOm]
      constructor
      · rintro ⟨l, hl, r, hr, rfl⟩
        exact ⟨l, hl, r.1, r.2, by rw [hfit l hl, hr], rfl⟩
      · rintro ⟨l, hl, o', ms, hf, rfl⟩
        rw [hfit l hl] at hf
        injection hf with hf
        exact ⟨l, hl, (o', ms), hf, rfl⟩
    · simp only
      have h1 := sortBy_sorted Fit.Orbit.id (order.flatMap O)
      have h2 : ((sortBy Fit.Orbit.id (order.flatMap O)).map Fit.Orbit.id).Nodup :=
        ((sortBy_perm Fit.Orbit.id (order.flatMap O)).map _).nodup_iff.mpr hidnd
      have h3 : (sortBy Fit.Orbit.id (order.flatMap O)).Pairwise fun a b => a.id ≠ b.id := by
        rw [List.Nodup, List.pairwise_map] at h2
        exact h2
      exact (h1.and h3).imp fun h => lt_of_le_of_ne h.1 h.2
    · intro m
      simp only
      rw [(sortBy_perm (fun m : Fit.Member I N R => toLex (m.orbit, time m.obs)) _).mem_iff, List.mem_filter,
        decide_eq_true_eq, List.mem_flatMap]
      constructor
      · rintro ⟨⟨l, hl, hm⟩, _⟩
        rw [hM, List.mem_flatMap] at hm
        obtain ⟨r, hr, hm⟩ := hm
        rw [Option.mem_toList] at hr
        obtain ⟨m', hm', rfl⟩ := List.mem_map.mp hm
        have hl' := (hin l).mp hl
        exact ⟨l, hl', r.1, r.2, by rw [hfit l hl', hr], m', hm', rfl⟩
      · rintro ⟨l, hl, o', ms, hf, m', hm', rfl⟩
        rw [hfit l hl] at hf
        injection hf with hf
        refine ⟨⟨l, (hin l).mpr hl, ?_⟩, ?_⟩
        · rw [hM, List.mem_flatMap]
          exact ⟨(o', ms), by rw [Option.mem_toList]; exact hf, List.mem_map.mpr ⟨m', hm', rfl⟩⟩
        · exact List.mem_map.mpr ⟨_, (hOm _).mpr ⟨l, hl, _, hf, rfl⟩, rfl⟩
    · simp only
      refine (sortBy_sorted (fun m : Fit.Member I N R => toLex (m.orbit, time m.obs)) _).imp ?_
      intro a b h
      rw [Prod.Lex.le_iff] at h
      exact h

/-- A linkage that raises makes the call raise, under every schedule. -/
theorem C57_failure (full : Nat → Bool) (pick : Nat → Nat)
    (fit : I → Except PyErr (Option (Fit.Orbit I S × List (Fit.Member I N R)))) (time : N → ℤ ×ₗ ℤ) (numObs : Nat)
    (hn : 0 < numObs) (linkages : List I) (chunk : Int) (hc : 0 < chunk) (l : I) (hl : l ∈ linkages)
    (he : ∃ e, fit l = .error e) : ∃ e, determine full pick fit time numObs linkages chunk = .error e := by
  unfold determine
  rw [if_neg (by push Not; exact ⟨by omega, List.ne_nil_of_mem hl⟩)]
  obtain ⟨tasks, htasks, hflat⟩ : ∃ tasks, Chunk.iterateChunks (uniq linkages) chunk = .ok tasks ∧
      tasks.flatten = uniq linkages := by
    unfold Chunk.iterateChunks
    rw [Chunk.range_pos hc]
    refine ⟨_, rfl, ?_⟩
    have := Chunk.chunks_flatten (uniq linkages) (c := chunk.toNat) (by omega) 0
    rwa [List.drop_zero] at this
  rw [htasks]
  simp only
  have hlu : l ∈ uniq linkages := (mem_uniq _ _).mpr hl
  rw [← hflat] at hlu
  obtain ⟨t, ht, hlt⟩ := List.mem_flatten.mp hlu
  have hw : ∃ e, worker fit t = .error e := by
    obtain ⟨e, he'⟩ := gather_error hlt he
    unfold worker
    rw [he']
    exact ⟨e, rfl⟩
  obtain ⟨e, h⟩ := runTasks_error full pick ht hw
  rw [h]
  exact ⟨e, rfl⟩

end

/-- Two linkages with the same orbit: which one survives depends on which worker finishes first. -/
theorem C57_order_false :
    ¬ ∀ (pick : Nat → Nat) (fit : Nat → Except PyErr (Option (Fit.Orbit Nat Nat × List (Fit.Member Nat Nat Nat))))
        (linkages : List Nat), (determine (atLeast 2) pick fit (fun _ => toLex (0, 0)) 9 linkages 1).toOption =
          (determine (atLeast 2) (fun _ => 0) fit (fun _ => toLex (0, 0)) 9 linkages 1).toOption := by
  intro h
  have := h (fun _ => 1) (fun l => .ok (some (⟨l, 5, 1, 1, 7⟩, [⟨l, l, l⟩]))) [1, 2]
  revert this
  decide +kernel

/-- Three linkages, one without orbit, found in another order than given. -/
example : (determine (atLeast 2) (fun _ => 1)
      (fun l : Nat => if l = 2 then .ok none else .ok (some (⟨0, 5, 1, 1, l⟩, [⟨0, 10 * l + 1, 0⟩, ⟨0, 10 * l, 0⟩])))
      (fun n : Nat => toLex ((n : ℤ), 0)) 9 [3, 1, 2] 1).toOption =
    some (([⟨1, 5, 1, 1, 1⟩, ⟨3, 5, 1, 1, 3⟩] : List (Fit.Orbit Nat Nat)),
      ([⟨1, 10, 0⟩, ⟨1, 11, 0⟩, ⟨3, 30, 0⟩, ⟨3, 31, 0⟩] : List (Fit.Member Nat Nat Nat))) := by
  decide +kernel

end Verif.Iod.Props
