import Verif.Collapse.Lemmas

/-! # Collapsing variants: the properties -/

set_option linter.unusedSectionVars false

namespace Verif.Collapse.Props

open Verif Sched Spec

/-! ## C59: variants of a row -/

section
variable {K : Type} [Field K] {I J C : Type} [DecidableEq I]

theorem wc_map (sel : List (VRow I J C K)) (h : ∀ v ∈ sel, v.wc ≠ none) (x : VRow I J C K → Fin 6 → K) :
    (sel.map fun v => (v.wc, some (x v))) = sel.map fun v => (some (v.wc.getD 0), some (x v)) := by
  apply List.map_congr_left
  intro v hv
  cases hw : v.wc with
  | none => exact absurd hw (h v hv)
  | some w => rfl

/-- Times of one orbit that agree to the millisecond agree to the nanosecond. -/
def Separated (orbits : List (ORow I C K)) (vs : List (VRow I J C K)) : Prop :=
  ∀ r ∈ orbits, ∀ v ∈ vs, v.orbit = r.orbit → v.days = r.days → v.nanos / 1000000 = r.nanos / 1000000 → v.nanos = r.nanos

theorem linked_filter {orbits : List (ORow I C K)} {vs : List (VRow I J C K)} (hs : Separated orbits vs) {r : ORow I C K}
    (hr : r ∈ orbits) : vs.filter (linked r) = variantsAt vs r.orbit r.days r.nanos := by
  unfold variantsAt
  apply List.filter_congr
  intro v hv
  unfold linked millis
  rw [Bool.eq_iff_iff]
  simp only [decide_eq_true_eq, Bool.and_eq_true]
  constructor
  · rintro ⟨h1, h2, h3⟩
    exact ⟨⟨h1, h2⟩, hs r hr v hv h1 h2 h3⟩
  · rintro ⟨⟨h1, h2⟩, h3⟩
    exact ⟨h1, h2, by rw [h3]⟩

/-- Collapsing onto orbits: every row keeps its state and gets the covariance, about that state and with the given weights,
of exactly the variants of its orbit at its time. Not true, and proved so, for epochs of one orbit less than a
millisecond apart (see `C59_orbits_false`). -/
theorem C59_orbits (orbits : List (ORow I C K)) (vs : List (VRow I J C K)) (hne : orbits ≠ [])
    (hw : ∀ v ∈ vs, v.wc ≠ none) (hs : Separated orbits vs) :
    ∃ out, collapseOrbits true orbits vs = .ok out ∧ out.length = orbits.length ∧
      ∀ (j : Nat) (r : ORow I C K), orbits[j]? = some r → ∃ M, out[j]? = some (r, some M) ∧
        IsCov (variantsAt vs r.orbit r.days r.nanos) (fun v => v.wc.getD 0) r.state VRow.state M := by
  unfold collapseOrbits
  rw [if_neg (by simp), if_neg (by simpa using hne)]
  refine ⟨_, rfl, by simp, fun j r hj => ?_⟩
  rw [List.getElem?_map, hj]
  rw [Option.map_some, linked_filter hs (List.mem_of_getElem? hj),
    wc_map (variantsAt vs r.orbit r.days r.nanos) (fun v hv => hw v (List.mem_of_mem_filter hv)) VRow.state,
    weightedCov_some]
  exact ⟨_, rfl, fun i j => rfl⟩

/-- Without any assumption on the times: the variants used for a row are exactly those of its orbit, on its day and in the
same whole millisecond of it. -/
theorem C59_orbits_general (orbits : List (ORow I C K)) (vs : List (VRow I J C K)) (hne : orbits ≠ [])
    (hw : ∀ v ∈ vs, v.wc ≠ none) :
    ∃ out, collapseOrbits true orbits vs = .ok out ∧ out.length = orbits.length ∧
      ∀ (j : Nat) (r : ORow I C K), orbits[j]? = some r → ∃ M, out[j]? = some (r, some M) ∧
        IsCov (vs.filter fun v => decide (v.orbit = r.orbit ∧ v.days = r.days ∧ v.nanos / 1000000 = r.nanos / 1000000))
          (fun v => v.wc.getD 0) r.state VRow.state M := by
  unfold collapseOrbits
  rw [if_neg (by simp), if_neg (by simpa using hne)]
  refine ⟨_, rfl, by simp, fun j r hj => ?_⟩
  have hl : vs.filter (linked r) =
      vs.filter fun v => decide (v.orbit = r.orbit ∧ v.days = r.days ∧ v.nanos / 1000000 = r.nanos / 1000000) := rfl
  rw [List.getElem?_map, hj, Option.map_some, hl, wc_map _ (fun v hv => hw v (List.mem_of_mem_filter hv)) VRow.state,
    weightedCov_some]
  exact ⟨_, rfl, fun i j => rfl⟩

/-- One orbit with two epochs a microsecond apart: the covariance at each epoch is computed from the variants of both. -/
theorem C59_orbits_false :
    ¬ ∀ (orbits : List (ORow Nat Nat ℚ)) (vs : List (VRow Nat Nat Nat ℚ)), orbits ≠ [] → (∀ v ∈ vs, v.wc ≠ none) →
      ∃ out, collapseOrbits true orbits vs = .ok out ∧
        ∀ (j : Nat) (r : ORow Nat Nat ℚ), orbits[j]? = some r → ∃ M, out[j]? = some (r, some M) ∧
          IsCov (variantsAt vs r.orbit r.days r.nanos) (fun v => v.wc.getD 0) r.state VRow.state M := by
  intro h
  let r1 : ORow Nat Nat ℚ := ⟨1, 60000, 0, 0, fun _ => 0, none⟩
  let r2 : ORow Nat Nat ℚ := ⟨1, 60000, 1000, 0, fun _ => 10, none⟩
  let v1 : VRow Nat Nat Nat ℚ := ⟨1, 1, 60000, 0, 0, fun _ => 0, some 1, some 1, none, none⟩
  let v2 : VRow Nat Nat Nat ℚ := ⟨1, 1, 60000, 1000, 0, fun _ => 10, some 1, some 1, none, none⟩
  obtain ⟨out, ho, hj⟩ := h [r1, r2] [v1, v2] (by simp) (by intro v hv; simp at hv; rcases hv with rfl | rfl <;> simp [v1, v2])
  obtain ⟨M, hM, hc⟩ := hj 0 r1 rfl
  have : out = [r1, r2].map fun r => (r, weightedCov (some r.state) (([v1, v2].filter (linked r)).map fun v => (v.wc, some v.state))) := by
    cases ho
    rfl
  subst this
  have h1 : weightedCov (some r1.state) (([v1, v2].filter (linked r1)).map fun v => (v.wc, some v.state)) = some M := by
    simpa using hM
  have h2 : (weightedCov (some r1.state) (([v1, v2].filter (linked r1)).map fun v => (v.wc, some v.state))).map (fun M => M 0 0)
      = some 100 := by decide +kernel
  have h3 : ((variantsAt [v1, v2] r1.orbit r1.days r1.nanos).map fun v => v.wc.getD 0 *
      ((v.state 0 - r1.state 0) * (v.state 0 - r1.state 0))).sum = 0 := by decide +kernel
  rw [h1, Option.map_some, hc 0 0, h3] at h2
  exact absurd h2 (by decide +kernel)

example : (match collapseOrbits true [(⟨1, 60000, 0, 0, fun _ => 1, none⟩ : ORow Nat Nat ℚ), ⟨1, 60001, 0, 0, fun _ => 2, none⟩]
      [(⟨1, 1, 60001, 0, 0, fun _ => 5, some 1, some (1/3), none, none⟩ : VRow Nat Nat Nat ℚ),
       ⟨1, 1, 60000, 0, 0, fun _ => 3, some 1, some (1/2), none, none⟩,
       ⟨2, 1, 60000, 0, 0, fun _ => 9, some 1, some (1/2), none, none⟩] with
    | .ok out => out.map fun p => p.2.map fun M => M 0 5
    | .error _ => []) = [some 2, some 3] := by decide +kernel

/-- A missing covariance weight among the linked variants makes the covariance null, never a wrong number. -/
theorem C59_null_weight (orbits : List (ORow I C K)) (vs : List (VRow I J C K)) (out)
    (hok : collapseOrbits true orbits vs = .ok out) (j : Nat) (r : ORow I C K) (hj : orbits[j]? = some r)
    (v : VRow I J C K) (hv : v ∈ variantsAt vs r.orbit r.days r.nanos) (hn : v.wc = none) :
    out[j]? = some (r, none) := by
  unfold collapseOrbits at hok
  rw [if_neg (by simp)] at hok
  split at hok
  · cases hok
  cases hok
  rw [List.getElem?_map, hj, Option.map_some]
  rw [weightedCov_none]
  refine ⟨(v.wc, some v.state), List.mem_map_of_mem (f := fun v : VRow I J C K => (v.wc, some v.state)) ?_, .inr (.inl hn)⟩
  unfold variantsAt at hv
  rw [List.mem_filter] at hv ⊢
  refine ⟨hv.1, ?_⟩
  have := hv.2
  simp only [Bool.and_eq_true, decide_eq_true_eq] at this
  unfold linked
  rw [decide_eq_true_eq]
  exact ⟨this.1.1, this.1.2, by rw [this.2]⟩

/-- Row order of the variants is irrelevant. -/
theorem C59_order (same : Bool) (orbits : List (ORow I C K)) {vs vs' : List (VRow I J C K)} (h : vs.Perm vs') :
    collapseOrbits same orbits vs = collapseOrbits same orbits vs' ∧
    collapseEphemeris same orbits vs = collapseEphemeris same orbits vs' := by
  constructor
  · unfold collapseOrbits
    congr 2
    congr 1
    apply List.map_congr_left
    intro r _
    rw [weightedCov_perm _ ((h.filter _).map _)]
  · unfold collapseEphemeris
    congr 2
    congr 1
    apply List.map_congr_left
    intro r _
    unfold collapseRow
    simp only
    rw [weightedCov_perm _ ((h.filter (linked r)).map fun v => (v.wc, some v.state)),
      weightedCov_perm _ ((h.filter (linked r)).map fun v => (v.wc, v.aber)), (h.filter (linked r)).all_eq]
    have : (vs.filter (linked r)).isEmpty = (vs'.filter (linked r)).isEmpty := by
      rw [Bool.eq_iff_iff, List.isEmpty_iff, List.isEmpty_iff]
      constructor
      · intro he
        have := h.filter (linked r)
        rw [he] at this
        exact this.symm.eq_nil
      · intro he
        have := h.filter (linked r)
        rw [he] at this
        exact this.eq_nil
    rw [this]

/-- A row without variants gets the zero matrix, and the calls fail on different time scales and on empty tables. -/
theorem C59_edges (orbits : List (ORow I C K)) (vs : List (VRow I J C K)) :
    collapseOrbits false orbits vs = .error .assertionError ∧
    collapseEphemeris false orbits vs = .error .assertionError ∧
    collapseOrbits true ([] : List (ORow I C K)) vs = .error .valueError ∧
    collapseEphemeris true ([] : List (ORow I C K)) vs = .error .valueError ∧
    ∀ out, collapseOrbits true orbits vs = .ok out → ∀ (j : Nat) (r : ORow I C K), orbits[j]? = some r →
      (∀ v ∈ vs, v.orbit ≠ r.orbit) → out[j]? = some (r, some fun _ _ => 0) := by
  refine ⟨rfl, rfl, rfl, rfl, ?_⟩
  intro out hok j r hj hno
  unfold collapseOrbits at hok
  rw [if_neg (by simp)] at hok
  split at hok
  · cases hok
  cases hok
  rw [List.getElem?_map, hj, Option.map_some]
  have : vs.filter (linked r) = [] := by
    rw [List.filter_eq_nil_iff]
    intro v hv
    unfold linked
    rw [decide_eq_true_eq]
    exact fun h => hno v hv h.1
  rw [this]
  rfl

/-- Collapsing onto ephemerides: every row gets the covariance of exactly the variants of its orbit at its time seen from
its observatory, for the sky position and for the light-time corrected state. Not true, and proved so, for several
observatories at one time (see `C59_ephemeris_observers_false`) and times less than a millisecond apart. -/
theorem C59_ephemeris [DecidableEq C] (eph : List (ORow I C K)) (vs : List (VRow I J C K)) (hne : eph ≠ [])
    (hw : ∀ v ∈ vs, v.wc ≠ none) (hs : Separated eph vs)
    (hc : ∀ r ∈ eph, ∀ v ∈ vs, v.orbit = r.orbit → v.days = r.days → v.nanos = r.nanos → v.code = r.code) :
    ∃ out, collapseEphemeris true eph vs = .ok out ∧ out.length = eph.length ∧
      ∀ (j : Nat) (r : ORow I C K), eph[j]? = some r → ∃ M A, out[j]? = some (r, some M, A) ∧
        IsCov (variantsSeen vs r.orbit r.days r.nanos r.code) (fun v => v.wc.getD 0) r.state VRow.state M ∧
        (∀ m, r.aber = some m → (∀ v ∈ vs, v.aber ≠ none) → ∃ M', A = some (some M') ∧
          IsCov (variantsSeen vs r.orbit r.days r.nanos r.code) (fun v => v.wc.getD 0) m (fun v => v.aber.getD 0) M') ∧
        (variantsSeen vs r.orbit r.days r.nanos r.code ≠ [] → (∀ v ∈ vs, v.aber = none) → A = none) := by
  unfold collapseEphemeris
  rw [if_neg (by simp), if_neg (by simpa using hne)]
  refine ⟨_, rfl, by simp, fun j r hj => ?_⟩
  have hr := List.mem_of_getElem? hj
  have hsel : vs.filter (linked r) = variantsSeen vs r.orbit r.days r.nanos r.code := by
    rw [linked_filter hs hr]
    unfold variantsAt variantsSeen
    apply List.filter_congr
    intro v hv
    rw [Bool.eq_iff_iff]
    simp only [Bool.and_eq_true, decide_eq_true_eq]
    constructor
    · rintro ⟨⟨h1, h2⟩, h3⟩
      exact ⟨⟨⟨h1, h2⟩, h3⟩, hc r hr v hv h1 h2 h3⟩
    · exact fun h => h.1
  rw [List.getElem?_map, hj, Option.map_some]
  unfold collapseRow
  simp only
  rw [hsel]
  generalize hS : variantsSeen vs r.orbit r.days r.nanos r.code = S
  have hSm : ∀ v ∈ S, v ∈ vs := by
    intro v hv
    rw [← hS] at hv
    exact List.mem_of_mem_filter hv
  rw [wc_map S (fun v hv => hw v (hSm v hv)), weightedCov_some]
  refine ⟨_, _, rfl, fun i j => rfl, ?_, ?_⟩
  · intro m hm hall
    rw [if_neg]
    · have : (S.map fun v => (v.wc, v.aber)) = S.map fun v => (some (v.wc.getD 0), some (v.aber.getD 0)) := by
        apply List.map_congr_left
        intro v hv
        cases h1 : v.wc with
        | none => exact absurd h1 (hw v (hSm v hv))
        | some w =>
          cases h2 : v.aber with
          | none => exact absurd h2 (hall v (hSm v hv))
          | some a => rfl
      rw [hm, this, weightedCov_some]
      exact ⟨_, rfl, fun i j => rfl⟩
    · intro h
      rw [Bool.and_eq_true, Bool.not_eq_true', List.all_eq_true] at h
      obtain ⟨h1, h2⟩ := h
      cases S with
      | nil => simp at h1
      | cons v S =>
        have := h2 v (by simp)
        rw [Option.isNone_iff_eq_none] at this
        exact hall v (hSm v (by simp)) this
  · intro hSne hall
    rw [if_pos]
    rw [Bool.and_eq_true, Bool.not_eq_true', List.all_eq_true]
    refine ⟨by rw [Bool.eq_false_iff]; simpa using hSne, fun v hv => ?_⟩
    rw [hall v (hSm v hv)]
    rfl

/-- Two observatories at the same time: each row's covariance mixes in the variants seen from the other one. -/
theorem C59_ephemeris_observers_false :
    ¬ ∀ (eph : List (ORow Nat Nat ℚ)) (vs : List (VRow Nat Nat Nat ℚ)), eph ≠ [] → (∀ v ∈ vs, v.wc ≠ none) →
      Separated eph vs → ∃ out, collapseEphemeris true eph vs = .ok out ∧
        ∀ (j : Nat) (r : ORow Nat Nat ℚ), eph[j]? = some r → ∃ M A, out[j]? = some (r, some M, A) ∧
          IsCov (variantsSeen vs r.orbit r.days r.nanos r.code) (fun v => v.wc.getD 0) r.state VRow.state M := by
  intro h
  let r1 : ORow Nat Nat ℚ := ⟨1, 60000, 0, 500, fun _ => 0, none⟩
  let r2 : ORow Nat Nat ℚ := ⟨1, 60000, 0, 600, fun _ => 10, none⟩
  let v1 : VRow Nat Nat Nat ℚ := ⟨1, 1, 60000, 0, 500, fun _ => 0, some 1, some 1, none, none⟩
  let v2 : VRow Nat Nat Nat ℚ := ⟨1, 1, 60000, 0, 600, fun _ => 10, some 1, some 1, none, none⟩
  obtain ⟨out, ho, hj⟩ := h [r1, r2] [v1, v2] (by simp) (by intro v hv; simp at hv; rcases hv with rfl | rfl <;> simp [v1, v2])
    (by
      intro r hr v hv _ _ _
      simp at hr hv
      rcases hr with rfl | rfl <;> rcases hv with rfl | rfl <;> rfl)
  obtain ⟨M, A, hM, hc⟩ := hj 0 r1 rfl
  have : out = [r1, r2].map (collapseRow [v1, v2]) := by
    cases ho
    rfl
  subst this
  have h1 : collapseRow [v1, v2] r1 = (r1, some M, A) := by simpa using hM
  have h2 : (collapseRow [v1, v2] r1).2.1.map (fun M => M 0 0) = some 100 := by decide +kernel
  have h3 : ((variantsSeen [v1, v2] r1.orbit r1.days r1.nanos r1.code).map fun v => v.wc.getD 0 *
      ((v.state 0 - r1.state 0) * (v.state 0 - r1.state 0))).sum = 0 := by decide +kernel
  rw [h1] at h2
  simp only [Option.map_some] at h2
  rw [hc 0 0, h3] at h2
  exact absurd h2 (by decide +kernel)

/-! ## C59: variants of an object -/

theorem uniq_length_one {α : Type} [DecidableEq α] (l : List α) :
    (uniq l).length = 1 ↔ l ≠ [] ∧ ∀ a ∈ l, ∀ b ∈ l, a = b := by
  constructor
  · intro h
    obtain ⟨c, hc⟩ := List.length_eq_one_iff.mp h
    have hm : ∀ a ∈ l, a = c := by
      intro a ha
      have := (mem_uniq l a).mpr ha
      rw [hc] at this
      simpa using this
    refine ⟨?_, fun a ha b hb => (hm a ha).trans (hm b hb).symm⟩
    rintro rfl
    simp [uniq] at h
  · rintro ⟨hne, h⟩
    cases l with
    | nil => exact absurd rfl hne
    | cons a l =>
      unfold uniq
      have : (uniq l).filter (fun b => b ≠ a) = [] := by
        rw [List.filter_eq_nil_iff]
        intro b hb
        rw [mem_uniq] at hb
        simpa using h b (List.mem_cons_of_mem _ hb) a (by simp)
      rw [this]
      rfl

/-- All variants of one object share epoch and origin. -/
def OneEpoch (vs : List (VRow I (Option J) C K)) : Prop :=
  ∀ u ∈ vs, ∀ v ∈ vs, u.obj = v.obj → u.days = v.days ∧ u.nanos = v.nanos ∧ u.code = v.code

omit [DecidableEq I] in
theorem objectOrbit_ok [DecidableEq J] [DecidableEq C] (vs : List (VRow I (Option J) C K)) (hone : OneEpoch vs) (j : J)
    (hj : ∃ v ∈ vs, v.obj = some j) :
    ∃ v ∈ vs, v.obj = some j ∧ objectOrbit vs (some j) =
      .ok ⟨j, v.days, v.nanos, v.code,
        fun i => ((vs.filter fun v => decide (v.obj = some j)).map fun v => v.state i).sum /
          ((vs.filter fun v => decide (v.obj = some j)).length : K),
        weightedCov (some fun i => ((vs.filter fun v => decide (v.obj = some j)).map fun v => v.state i).sum /
          ((vs.filter fun v => decide (v.obj = some j)).length : K))
          ((vs.filter fun v => decide (v.obj = some j)).map fun v =>
            (some (1 / ((vs.filter fun v => decide (v.obj = some j)).length : K)), some v.state))⟩ := by
  unfold objectOrbit
  simp only
  have hmem : ∀ v ∈ vs.filter (fun v => decide (v.obj = some j)), v ∈ vs ∧ v.obj = some j := by
    intro v hv
    rw [List.mem_filter, decide_eq_true_eq] at hv
    exact hv
  have hne : vs.filter (fun v => decide (v.obj = some j)) ≠ [] := by
    obtain ⟨v, hv, ho⟩ := hj
    exact List.ne_nil_of_mem (List.mem_filter.mpr ⟨hv, by simpa using ho⟩)
  generalize hsel : vs.filter (fun v => decide (v.obj = some j)) = sel at *
  rw [if_neg, if_neg]
  · cases sel with
    | nil => exact absurd rfl hne
    | cons v l =>
      exact ⟨v, (hmem v (by simp)).1, (hmem v (by simp)).2, rfl⟩
  · rw [not_not, uniq_length_one]
    refine ⟨by simpa using hne, ?_⟩
    intro a ha b hb
    obtain ⟨u, hu, rfl⟩ := List.mem_map.mp ha
    obtain ⟨v, hv, rfl⟩ := List.mem_map.mp hb
    exact (hone u (hmem u hu).1 v (hmem v hv).1 ((hmem u hu).2.trans (hmem v hv).2.symm)).2.2
  · rw [not_not, uniq_length_one]
    refine ⟨by simpa using hne, ?_⟩
    intro a ha b hb
    obtain ⟨u, hu, rfl⟩ := List.mem_map.mp ha
    obtain ⟨v, hv, rfl⟩ := List.mem_map.mp hb
    have := hone u (hmem u hu).1 v (hmem v hv).1 ((hmem u hu).2.trans (hmem v hv).2.symm)
    rw [this.1, this.2.1]

omit [DecidableEq I] in
theorem objectOrbit_bad [DecidableEq J] [DecidableEq C] (vs : List (VRow I (Option J) C K)) (u v : VRow I (Option J) C K)
    (hu : u ∈ vs) (hv : v ∈ vs) (ho : u.obj = v.obj) (hd : ¬ (u.days = v.days ∧ u.nanos = v.nanos ∧ u.code = v.code)) :
    ∃ e, objectOrbit vs u.obj = .error e := by
  unfold objectOrbit
  cases hj : u.obj with
  | none => exact ⟨_, rfl⟩
  | some j =>
    simp only
    have mu : u ∈ vs.filter fun v => decide (v.obj = some j) := List.mem_filter.mpr ⟨hu, by simpa using hj⟩
    have mv : v ∈ vs.filter fun v => decide (v.obj = some j) := List.mem_filter.mpr ⟨hv, by simpa using ho ▸ hj⟩
    generalize vs.filter (fun v => decide (v.obj = some j)) = sel at *
    split
    · exact ⟨_, rfl⟩
    rename_i h1
    split
    · exact ⟨_, rfl⟩
    rename_i h2
    rw [not_not, uniq_length_one] at h1 h2
    have e1 := h1.2 _ (List.mem_map_of_mem mu) _ (List.mem_map_of_mem mv)
    have e2 := h2.2 _ (List.mem_map_of_mem mu) _ (List.mem_map_of_mem mv)
    simp only [Prod.mk.injEq] at e1
    exact absurd ⟨e1.1, e1.2, e2⟩ hd

omit [DecidableEq I] in
/-- `VariantOrbits.collapse_by_object_id`: one orbit per object, with the unweighted mean and covariance of exactly its
variants, at their epoch and origin; it fails exactly when an object id is null or an object's variants differ in epoch
or origin. The claim's weights are missing: see `C59_object_weights_false`. -/
theorem C59_object [DecidableEq J] [DecidableEq C] (vs : List (VRow I (Option J) C K)) :
    ((∃ out, collapseOrbitsByObject vs = .ok out) ↔ (∀ v ∈ vs, v.obj ≠ none) ∧ OneEpoch vs) ∧
    ∀ out, collapseOrbitsByObject vs = .ok out → (out.map ObjOrbit.obj).Nodup ∧
      (∀ j, j ∈ out.map ObjOrbit.obj ↔ ∃ v ∈ vs, v.obj = some j) ∧
      ∀ e ∈ out, ∃ S, S = (vs.filter fun v => decide (v.obj = some e.obj)) ∧
        (∃ v ∈ S, e.days = v.days ∧ e.nanos = v.nanos ∧ e.code = v.code) ∧
        (∀ i, e.mean i = (S.map fun v => v.state i).sum / (S.length : K)) ∧
        ∃ M, e.cov = some M ∧ IsCov S (fun _ => 1 / (S.length : K)) e.mean VRow.state M := by
  have good : (∀ v ∈ vs, v.obj ≠ none) → OneEpoch vs → ∃ out, collapseOrbitsByObject vs = .ok out ∧
      (out.map fun e => some e.obj) = uniq (vs.map VRow.obj) ∧
      ∀ e ∈ out, ∃ S, S = (vs.filter fun v => decide (v.obj = some e.obj)) ∧
        (∃ v ∈ S, e.days = v.days ∧ e.nanos = v.nanos ∧ e.code = v.code) ∧
        (∀ i, e.mean i = (S.map fun v => v.state i).sum / (S.length : K)) ∧
        ∃ M, e.cov = some M ∧ IsCov S (fun _ => 1 / (S.length : K)) e.mean VRow.state M := by
    intro hnn hone
    unfold collapseOrbitsByObject
    have hall : ∀ o ∈ uniq (vs.map VRow.obj), ∃ j, o = some j ∧ ∃ v ∈ vs, v.obj = some j := by
      intro o ho
      rw [mem_uniq, List.mem_map] at ho
      obtain ⟨v, hv, rfl⟩ := ho
      cases hj : v.obj with
      | none => exact absurd hj (hnn v hv)
      | some j => exact ⟨j, rfl, v, hv, hj⟩
    generalize uniq (vs.map VRow.obj) = U at *
    induction U with
    | nil => exact ⟨[], rfl, rfl, by simp⟩
    | cons o U ih =>
      rw [List.forall_mem_cons] at hall
      obtain ⟨⟨j, rfl, hj⟩, hall⟩ := hall
      obtain ⟨out, ho1, ho2, ho3⟩ := ih hall
      obtain ⟨v, hv, hvj, he⟩ := objectOrbit_ok vs hone j hj
      unfold gather
      rw [he, ho1]
      refine ⟨_, rfl, ?_, ?_⟩
      · rw [List.map_cons, ho2]
      · rw [List.forall_mem_cons]
        refine ⟨⟨_, rfl, ⟨v, List.mem_filter.mpr ⟨hv, by simpa using hvj⟩, rfl, rfl, rfl⟩, fun i => rfl, ?_⟩, ho3⟩
        simp only
        rw [weightedCov_some]
        exact ⟨_, rfl, fun i j => rfl⟩
  have iff : (∃ out, collapseOrbitsByObject vs = .ok out) ↔ (∀ v ∈ vs, v.obj ≠ none) ∧ OneEpoch vs := by
    constructor
    · rintro ⟨out, h⟩
      constructor
      · intro v hv hn
        obtain ⟨e, he⟩ := gather_error (work := objectOrbit vs) ((mem_uniq _ _).mpr (List.mem_map_of_mem (f := VRow.obj) hv))
          ⟨.assertionError, by rw [hn]; rfl⟩
        unfold collapseOrbitsByObject at h
        rw [he] at h
        cases h
      · intro u hu v hv ho
        by_contra hd
        obtain ⟨e, he⟩ := gather_error (work := objectOrbit vs) ((mem_uniq _ _).mpr (List.mem_map_of_mem (f := VRow.obj) hu))
          (objectOrbit_bad vs u v hu hv ho hd)
        unfold collapseOrbitsByObject at h
        rw [he] at h
        cases h
    · rintro ⟨h1, h2⟩
      obtain ⟨out, ho, _⟩ := good h1 h2
      exact ⟨out, ho⟩
  refine ⟨iff, fun out hout => ?_⟩
  obtain ⟨h1, h2⟩ := iff.mp ⟨out, hout⟩
  obtain ⟨out', ho, hu, he⟩ := good h1 h2
  rw [hout] at ho
  cases ho
  have hu' : (out.map ObjOrbit.obj).map some = uniq (vs.map VRow.obj) := by rw [← hu, List.map_map]; rfl
  refine ⟨?_, ?_, he⟩
  · exact List.Nodup.of_map some (hu' ▸ nodup_uniq _)
  · intro j
    have : j ∈ out.map ObjOrbit.obj ↔ some j ∈ (out.map ObjOrbit.obj).map some := by simp
    rw [this, hu', mem_uniq, List.mem_map]

/-- The weights of the variants are ignored. -/
theorem C59_object_weights_false :
    ¬ ∀ (vs : List (VRow Nat (Option Nat) Nat ℚ)) (out : List (ObjOrbit Nat Nat ℚ)), collapseOrbitsByObject vs = .ok out →
      (∀ v ∈ vs, v.w ≠ none) → ∀ e ∈ out, ∀ i,
        e.mean i * ((vs.filter fun v => decide (v.obj = some e.obj)).map fun v => v.w.getD 0).sum =
          ((vs.filter fun v => decide (v.obj = some e.obj)).map fun v => v.w.getD 0 * v.state i).sum := by
  intro h
  let v1 : VRow Nat (Option Nat) Nat ℚ := ⟨1, some 1, 60000, 0, 0, fun _ => 0, some (1/4), some 1, none, none⟩
  let v2 : VRow Nat (Option Nat) Nat ℚ := ⟨1, some 1, 60000, 0, 0, fun _ => 4, some (3/4), some 1, none, none⟩
  have := h [v1, v2] _ rfl (by intro v hv; simp at hv; rcases hv with rfl | rfl <;> simp [v1, v2]) _ (List.mem_cons_self ..) 0
  revert this
  decide +kernel

end

/-! ## C81, C82: ephemerides by object, time and observatory -/

section
variable {K : Type} [Field K] [LinearOrder K] [IsStrictOrderedRing K] {I J C : Type} [LinearOrder J] [LinearOrder C]

/-- No group of the table has covariance weights that are all there and sum to zero. -/
def NoDegenerate (vs : List (VRow I J C K)) : Prop :=
  ∀ v ∈ vs, ¬ Degenerate (objectSeen vs v.obj v.days v.nanos v.code)

omit [Field K] [LinearOrder K] [IsStrictOrderedRing K] in
theorem veKey_eq (u v : VRow I J C K) :
    veKey u = veKey v ↔ u.obj = v.obj ∧ u.days = v.days ∧ u.nanos = v.nanos ∧ u.code = v.code := by
  unfold veKey
  constructor
  · intro h
    have h1 := Prod.mk.inj (toLex.injective h)
    have h2 := Prod.mk.inj (toLex.injective h1.2)
    have h3 := Prod.mk.inj (toLex.injective h2.2)
    exact ⟨h1.1, h2.1, h3.1, h3.2⟩
  · rintro ⟨h1, h2, h3, h4⟩
    rw [h1, h2, h3, h4]

omit [LinearOrder K] [IsStrictOrderedRing K] in
theorem filter_key (vs : List (VRow I J C K)) (u : VRow I J C K) :
    vs.filter (fun v => decide (veKey v = veKey u)) = objectSeen vs u.obj u.days u.nanos u.code := by
  unfold objectSeen
  apply List.filter_congr
  intro v _
  rw [Bool.eq_iff_iff]
  simp only [decide_eq_true_eq, Bool.and_eq_true, veKey_eq, and_assoc]

/-- The statistics of one group by the path for groups of different size. -/
def groupStat (circ : List (K × K) → K) (wrap : K → K → K) (g : List (VRow I J C K)) : Stat K :=
  stat circ wrap (meanWeight g) (covWeightSlow g) g

theorem collapseByObject_eq {circ : List (K × K) → K} (hc : Symmetric circ) (wrap : K → K → K) (chunk : Int)
    (hch : 0 < chunk) (vs : List (VRow I J C K)) (hz : NoDegenerate vs) :
    ∃ out, collapseByObject circ wrap chunk vs = .ok out ∧
      (out.map fun e : ObjEph I J C K => (toLex (e.obj, toLex (e.days, toLex (e.nanos, e.code))) : J ×ₗ Int ×ₗ Int ×ₗ C)) =
        uniq ((sortBy veKey vs).map veKey) ∧
      ∀ e ∈ out, (∃ v ∈ objectSeen vs e.obj e.days e.nanos e.code, e.orbit = v.orbit) ∧
        e.stat = groupStat circ wrap (objectSeen vs e.obj e.days e.nanos e.code) := by
  unfold collapseByObject
  by_cases he : vs.isEmpty = true
  · rw [if_pos he]
    rw [List.isEmpty_iff] at he
    subst he
    exact ⟨[], rfl, rfl, by simp⟩
  rw [if_neg he, if_neg (by omega)]
  simp only
  rw [runs_sorted veKey _ (sortBy_sorted veKey vs)]
  generalize (((uniq ((sortBy veKey vs).map veKey)).map fun k => (sortBy veKey vs).filter fun a => decide (veKey a = k)).all
    fun g => decide (some g.length = Option.map List.length ((uniq ((sortBy veKey vs).map veKey)).map
      fun k => (sortBy veKey vs).filter fun a => decide (veKey a = k)).head?)) = U
  have hmemU : ∀ k ∈ uniq ((sortBy veKey vs).map veKey), ∃ v ∈ vs, veKey v = k := by
    intro k hk
    rw [mem_uniq, List.mem_map] at hk
    obtain ⟨v, hv, rfl⟩ := hk
    exact ⟨v, (sortBy_perm veKey vs).mem_iff.mp hv, rfl⟩
  refine ⟨_, rfl, ?_⟩
  generalize uniq ((sortBy veKey vs).map veKey) = ks at *
  induction ks with
  | nil => exact ⟨rfl, by simp⟩
  | cons k ks ih =>
    rw [List.forall_mem_cons] at hmemU
    obtain ⟨⟨u, hu, huk⟩, hks⟩ := hmemU
    obtain ⟨ih1, ih2⟩ := ih hks
    rw [List.map_cons]
    have hperm : ((sortBy veKey vs).filter fun a => decide (veKey a = k)).Perm (objectSeen vs u.obj u.days u.nanos u.code) := by
      rw [← filter_key, huk]
      exact (sortBy_perm veKey vs).filter _
    cases hg : (sortBy veKey vs).filter fun a => decide (veKey a = k) with
    | nil =>
      rw [hg] at hperm
      have := hperm.symm.eq_nil
      rw [← filter_key, List.filter_eq_nil_iff] at this
      exact absurd (this u hu) (by simp)
    | cons v g =>
      have hvk : v ∈ (sortBy veKey vs).filter fun a => decide (veKey a = k) := by rw [hg]; simp
      rw [List.mem_filter, decide_eq_true_eq] at hvk
      have hvu := (veKey_eq v u).mp (hvk.2.trans huk.symm)
      rw [hg] at hperm
      rw [List.filterMap_cons_some (f := fun g : List (VRow I J C K) => ephRow (fun g =>
        stat circ wrap (meanWeight g) (if U = true then covWeightFast g else covWeightSlow g) g) g)
        (b := (⟨v.orbit, v.obj, v.days, v.nanos, v.code,
        stat circ wrap (meanWeight (v :: g)) (if U = true then covWeightFast (v :: g) else covWeightSlow (v :: g)) (v :: g)⟩ :
          ObjEph I J C K)) rfl]
      refine ⟨?_, ?_⟩
      · rw [List.map_cons, ih1]
        congr 1
        rw [← hvk.2]
        rfl
      · rw [List.forall_mem_cons]
        refine ⟨?_, ih2⟩
        simp only
        have hgrp : objectSeen vs v.obj v.days v.nanos v.code = objectSeen vs u.obj u.days u.nanos u.code := by
          rw [hvu.1, hvu.2.1, hvu.2.2.1, hvu.2.2.2]
        rw [hgrp]
        refine ⟨⟨v, hperm.mem_iff.mp (by simp), rfl⟩, ?_⟩
        have hnd : ¬ Degenerate (v :: g) := by
          intro hd
          refine hz u hu ⟨fun w hw => hd.1 w (hperm.mem_iff.mpr hw), ?_⟩
          rw [← (hperm.map fun v => v.wc.getD 0).sum_eq]
          exact hd.2
        unfold groupStat
        rw [← covWeightSlow_perm hperm, ← meanWeight_perm hperm, ← stat_perm hc _ _ _ hperm]
        split
        · rw [covWeight_slow_eq hnd]
        · rfl

/-- One row per object, time and observatory, in that order, whose mean, covariance and magnitude are those of exactly the
variants with these keys, with their weights scaled to sum one. Not true, and proved so, for groups whose covariance
weights sum to zero (`C81_other_groups_false`). -/
theorem C81_groups {circ : List (K × K) → K} (hc : Symmetric circ) (wrap : K → K → K) (chunk : Int)
    (hch : 0 < chunk) (vs : List (VRow I J C K)) (hz : NoDegenerate vs) :
    ∃ out, collapseByObject circ wrap chunk vs = .ok out ∧
      (out.Pairwise fun a b => a.obj < b.obj ∨ a.obj = b.obj ∧ (a.days < b.days ∨ a.days = b.days ∧
        (a.nanos < b.nanos ∨ a.nanos = b.nanos ∧ a.code < b.code))) ∧
      (∀ v ∈ vs, ∃ e ∈ out, e.obj = v.obj ∧ e.days = v.days ∧ e.nanos = v.nanos ∧ e.code = v.code) ∧
      ∀ e ∈ out, (∃ v ∈ objectSeen vs e.obj e.days e.nanos e.code, e.orbit = v.orbit) ∧
        ∃ f c, Scaled (objectSeen vs e.obj e.days e.nanos e.code) VRow.w f ∧
          ScaledOr (objectSeen vs e.obj e.days e.nanos e.code) VRow.wc f c ∧
          IsMoments circ wrap f c (objectSeen vs e.obj e.days e.nanos e.code) e.stat.mean e.stat.cov ∧
          IsMag f (objectSeen vs e.obj e.days e.nanos e.code) e.stat.mag := by
  obtain ⟨out, ho, hk, he⟩ := collapseByObject_eq hc wrap chunk hch vs hz
  refine ⟨out, ho, ?_, ?_, ?_⟩
  · have : (uniq ((sortBy veKey vs).map veKey)).Pairwise (· < ·) := by
      apply uniq_sorted
      rw [List.pairwise_map]
      exact sortBy_sorted veKey vs
    rw [← hk, List.pairwise_map] at this
    refine this.imp ?_
    intro a b hab
    rw [Prod.Lex.toLex_lt_toLex] at hab
    rcases hab with h | ⟨h1, h⟩
    · exact .inl h
    · refine .inr ⟨h1, ?_⟩
      rw [Prod.Lex.toLex_lt_toLex] at h
      rcases h with h | ⟨h2, h⟩
      · exact .inl h
      · refine .inr ⟨h2, ?_⟩
        rw [Prod.Lex.toLex_lt_toLex] at h
        exact h
  · intro v hv
    have : veKey v ∈ uniq ((sortBy veKey vs).map veKey) := by
      rw [mem_uniq]
      exact List.mem_map_of_mem ((sortBy_perm veKey vs).mem_iff.mpr hv)
    rw [← hk, List.mem_map] at this
    obtain ⟨e, hem, hek⟩ := this
    refine ⟨e, hem, ?_⟩
    unfold veKey at hek
    have h1 := Prod.mk.inj (toLex.injective hek)
    have h2 := Prod.mk.inj (toLex.injective h1.2)
    have h3 := Prod.mk.inj (toLex.injective h2.2)
    exact ⟨h1.1, h2.1, h3.1, h3.2⟩
  · intro e hem
    obtain ⟨⟨v, hv, hvo⟩, hst⟩ := he e hem
    refine ⟨⟨v, hv, hvo⟩, ?_⟩
    have hve : v ∈ vs ∧ v.obj = e.obj ∧ v.days = e.days ∧ v.nanos = e.nanos ∧ v.code = e.code := by
      unfold objectSeen at hv
      rw [List.mem_filter] at hv
      simpa [and_assoc] using hv
    have hnd : ¬ Degenerate (objectSeen vs e.obj e.days e.nanos e.code) := by
      have := hz v hve.1
      rwa [hve.2.1, hve.2.2.1, hve.2.2.2.1, hve.2.2.2.2] at this
    have hne := List.ne_nil_of_mem hv
    generalize objectSeen vs e.obj e.days e.nanos e.code = S at *
    refine ⟨meanWeight S, covWeightSlow S, meanWeight_scaled hne, covWeight_scaled hnd, ?_⟩
    rw [hst]
    exact stat_moments circ wrap _ _ S

/-- The statistics of a row depend on its own group alone: there is one function of the group's variants that gives them in
every table. Not true without: as for `C81_groups`. -/
theorem C81_independent {circ : List (K × K) → K} (hc : Symmetric circ) (wrap : K → K → K) :
    ∃ F : List (VRow I J C K) → Stat K, ∀ (vs : List (VRow I J C K)) (chunk : Int), 0 < chunk → NoDegenerate vs →
      ∃ out, collapseByObject circ wrap chunk vs = .ok out ∧
        ∀ e ∈ out, e.stat = F (objectSeen vs e.obj e.days e.nanos e.code) := by
  refine ⟨groupStat circ wrap, fun vs chunk hch hz => ?_⟩
  obtain ⟨out, ho, _, he⟩ := collapseByObject_eq hc wrap chunk hch vs hz
  exact ⟨out, ho, fun e hem => (he e hem).2⟩

/-- The checks on the arguments. -/
theorem C81_edges (circ : List (K × K) → K) (wrap : K → K → K) (chunk : Int) (vs : List (VRow I J C K)) :
    collapseByObject circ wrap chunk ([] : List (VRow I J C K)) = .ok [] ∧
    (vs ≠ [] → chunk ≤ 0 → collapseByObject circ wrap chunk vs = .error .valueError) := by
  refine ⟨rfl, fun h hc => ?_⟩
  unfold collapseByObject
  rw [if_neg (by simpa using h), if_pos hc]

end

/-- Adding an unrelated object to the table changes the covariance of a group: with groups of one size the weights of a
group whose covariance weights sum to zero become equal, otherwise the mean weights are used. -/
theorem C81_other_groups_false :
    ¬ ∃ F : List (VRow Nat Nat Nat ℚ) → Stat ℚ, ∀ (vs : List (VRow Nat Nat Nat ℚ)) (out : List (ObjEph Nat Nat Nat ℚ)),
      collapseByObject (fun _ => 0) (fun _ x => x) 200000 vs = .ok out →
        ∀ e ∈ out, e.stat = F (objectSeen vs e.obj e.days e.nanos e.code) := by
  rintro ⟨F, h⟩
  let v1 : VRow Nat Nat Nat ℚ := ⟨1, 1, 60000, 0, 0, fun _ => 0, some (1/4), some 1, none, none⟩
  let v2 : VRow Nat Nat Nat ℚ := ⟨1, 1, 60000, 0, 0, fun _ => 4, some (3/4), some (-1), none, none⟩
  let v3 : VRow Nat Nat Nat ℚ := ⟨2, 2, 60000, 0, 0, fun _ => 4, some 1, some 1, none, none⟩
  have key : ∀ (out : List (ObjEph Nat Nat Nat ℚ)) (vs), collapseByObject (fun _ => 0) (fun _ x => x) 200000 vs = .ok out →
      (out.map fun e => (e.obj, e.days, e.nanos, e.code)).head? = some (1, 60000, 0, 0) →
      objectSeen vs 1 60000 0 0 = [v1, v2] → (out.map fun e => e.stat.cov 0 0).head? = some ((F [v1, v2]).cov 0 0) := by
    intro out vs ho hk hs
    cases out with
    | nil => cases hk
    | cons e out =>
      simp only [List.map_cons, List.head?_cons, Option.some.injEq, Prod.mk.injEq] at hk ⊢
      obtain ⟨h1, h2, h3, h4⟩ := hk
      rw [h vs _ ho e (by simp), h1, h2, h3, h4, hs]
  have a : (match collapseByObject (fun _ => (0 : ℚ)) (fun _ x => x) 200000 [v1, v2] with
      | .ok out => some (((out.map fun e => (e.obj, e.days, e.nanos, e.code)).head?, (out.map fun e => e.stat.cov 0 0).head?))
      | .error _ => none) = some (some (1, 60000, 0, 0), some 5) := by decide +kernel
  have b : (match collapseByObject (fun _ => (0 : ℚ)) (fun _ x => x) 200000 [v1, v2, v3] with
      | .ok out => some (((out.map fun e => (e.obj, e.days, e.nanos, e.code)).head?, (out.map fun e => e.stat.cov 0 0).head?))
      | .error _ => none) = some (some (1, 60000, 0, 0), some 3) := by decide +kernel
  cases ha : collapseByObject (fun _ => (0 : ℚ)) (fun _ x => x) 200000 [v1, v2] with
  | error e => rw [ha] at a; cases a
  | ok out =>
    cases hb : collapseByObject (fun _ => (0 : ℚ)) (fun _ x => x) 200000 [v1, v2, v3] with
    | error e => rw [hb] at b; cases b
    | ok out' =>
      rw [ha] at a
      rw [hb] at b
      simp only [Option.some.injEq, Prod.mk.injEq] at a b
      have ka := key out _ ha a.1 rfl
      have kb := key out' _ hb b.1 rfl
      rw [a.2] at ka
      rw [b.2, ← ka] at kb
      exact absurd kb (by decide +kernel)

example : NoDegenerate [(⟨1, 1, 60000, 0, 0, fun _ => 0, some (1/4), some (1/2), none, none⟩ : VRow Nat Nat Nat ℚ),
    ⟨1, 1, 60000, 0, 0, fun _ => 4, some (3/4), some (-1), none, none⟩,
    ⟨1, 1, 60000, 0, 7, fun _ => 4, none, none, none, none⟩] := by
  intro v hv
  simp at hv
  rintro ⟨h1, h2⟩
  rcases hv with rfl | rfl | rfl
  · exact absurd h2 (by decide +kernel)
  · exact absurd h2 (by decide +kernel)
  · exact absurd (h1 ⟨1, 1, 60000, 0, 7, fun _ => 4, none, none, none, none⟩ (by
      unfold objectSeen; simp)) (by simp)

/-- Exactly what is reported: the covariance with the given weights divided by their sum over the group. -/
theorem C82_scaled {K : Type} [Field K] [LinearOrder K] [IsStrictOrderedRing K] {I J C : Type} [LinearOrder J]
    [LinearOrder C] {circ : List (K × K) → K} (hc : Symmetric circ) (wrap : K → K → K) (chunk : Int)
    (hch : 0 < chunk) (vs : List (VRow I J C K)) (hw : ∀ v ∈ vs, v.wc ≠ none)
    (hsum : ∀ v ∈ vs, ((objectSeen vs v.obj v.days v.nanos v.code).map fun v => v.wc.getD 0).sum ≠ 0) :
    ∃ out, collapseByObject circ wrap chunk vs = .ok out ∧ ∀ e ∈ out,
      IsCov (objectSeen vs e.obj e.days e.nanos e.code)
        (fun v => v.wc.getD 0 / ((objectSeen vs e.obj e.days e.nanos e.code).map fun v => v.wc.getD 0).sum) e.stat.mean
        (fun v i => if i = 1 then wrap (e.stat.mean 1) (v.state 1) else v.state i) e.stat.cov := by
  have hz : NoDegenerate vs := fun v hv hd => hsum v hv hd.2
  obtain ⟨out, ho, _, _, he⟩ := C81_groups hc wrap chunk hch vs hz
  refine ⟨out, ho, fun e hem => ?_⟩
  obtain ⟨⟨v, hv, _⟩, f, c, _, hsc, hm, _⟩ := he e hem
  have hve : v ∈ vs ∧ v.obj = e.obj ∧ v.days = e.days ∧ v.nanos = e.nanos ∧ v.code = e.code := by
    unfold objectSeen at hv
    rw [List.mem_filter] at hv
    simpa [and_assoc] using hv
  have h1 := hsum v hve.1
  rw [hve.2.1, hve.2.2.1, hve.2.2.2.1, hve.2.2.2.2] at h1
  have hsub : ∀ u ∈ objectSeen vs e.obj e.days e.nanos e.code, u ∈ vs := fun u hu => List.mem_of_mem_filter hu
  generalize objectSeen vs e.obj e.days e.nanos e.code = S at *
  intro i j
  rw [hm.2.2 i j]
  congr 1
  apply List.map_congr_left
  intro u hu
  have := hsc.1 (fun u hu => hw u (hsub u hu)) u hu
  have hcu : c u = u.wc.getD 0 / (S.map fun v => v.wc.getD 0).sum := by
    rw [← this, mul_div_cancel_right₀ _ h1]
  rw [hcu]

/-- With covariance weights that sum to one the covariance is the weighted one, unscaled. Not true for another sum
(`C82_weights_false`), as the unscented transform has for `beta` not `alpha ^ 2 - 1`. -/
theorem C82_weights {K : Type} [Field K] [LinearOrder K] [IsStrictOrderedRing K] {I J C : Type} [LinearOrder J]
    [LinearOrder C] {circ : List (K × K) → K} (hc : Symmetric circ) (wrap : K → K → K) (chunk : Int)
    (hch : 0 < chunk) (vs : List (VRow I J C K)) (hw : ∀ v ∈ vs, v.wc ≠ none)
    (hone : ∀ v ∈ vs, ((objectSeen vs v.obj v.days v.nanos v.code).map fun v => v.wc.getD 0).sum = 1) :
    ∃ out, collapseByObject circ wrap chunk vs = .ok out ∧ ∀ e ∈ out,
      IsCov (objectSeen vs e.obj e.days e.nanos e.code) (fun v => v.wc.getD 0) e.stat.mean
        (fun v i => if i = 1 then wrap (e.stat.mean 1) (v.state 1) else v.state i) e.stat.cov := by
  have hz : NoDegenerate vs := by
    intro v hv hd
    have := hd.2
    rw [hone v hv] at this
    exact one_ne_zero this
  obtain ⟨out, ho, _, _, he⟩ := C81_groups hc wrap chunk hch vs hz
  refine ⟨out, ho, fun e hem => ?_⟩
  obtain ⟨⟨v, hv, _⟩, f, c, _, hsc, hm, _⟩ := he e hem
  have hve : v ∈ vs ∧ v.obj = e.obj ∧ v.days = e.days ∧ v.nanos = e.nanos ∧ v.code = e.code := by
    unfold objectSeen at hv
    rw [List.mem_filter] at hv
    simpa [and_assoc] using hv
  have h1 := hone v hve.1
  rw [hve.2.1, hve.2.2.1, hve.2.2.2.1, hve.2.2.2.2] at h1
  have hsub : ∀ u ∈ objectSeen vs e.obj e.days e.nanos e.code, u ∈ vs := fun u hu => List.mem_of_mem_filter hu
  generalize objectSeen vs e.obj e.days e.nanos e.code = S at *
  intro i j
  rw [hm.2.2 i j]
  congr 1
  apply List.map_congr_left
  intro u hu
  have := hsc.1 (fun u hu => hw u (hsub u hu)) u hu
  rw [h1, mul_one] at this
  rw [this]

/-- Covariance weights with sum three (as for `alpha = 1`, `beta = 2`): the covariance comes out divided by three. -/
theorem C82_weights_false :
    ¬ ∀ (vs : List (VRow Nat Nat Nat ℚ)) (out : List (ObjEph Nat Nat Nat ℚ)),
      collapseByObject (fun _ => 0) (fun _ x => x) 200000 vs = .ok out → (∀ v ∈ vs, v.wc ≠ none) → ∀ e ∈ out,
      IsCov (objectSeen vs e.obj e.days e.nanos e.code) (fun v => v.wc.getD 0) e.stat.mean
        (fun v i => if i = 1 then v.state 1 else v.state i) e.stat.cov := by
  intro h
  let v1 : VRow Nat Nat Nat ℚ := ⟨1, 1, 60000, 0, 0, fun _ => 0, some 0, some 2, none, none⟩
  let v2 : VRow Nat Nat Nat ℚ := ⟨1, 1, 60000, 0, 0, fun _ => 1, some (1/2), some (1/2), none, none⟩
  let v3 : VRow Nat Nat Nat ℚ := ⟨1, 1, 60000, 0, 0, fun _ => -1, some (1/2), some (1/2), none, none⟩
  have a : (match collapseByObject (fun _ => (0 : ℚ)) (fun _ x => x) 200000 [v1, v2, v3] with
      | .ok out => out.map fun e => ((e.obj, e.days, e.nanos, e.code), e.stat.cov 0 0, e.stat.mean 0)
      | .error _ => []) = [((1, 60000, 0, 0), 1/3, 0)] := by decide +kernel
  cases ha : collapseByObject (fun _ => (0 : ℚ)) (fun _ x => x) 200000 [v1, v2, v3] with
  | error e => rw [ha] at a; cases a
  | ok out =>
    rw [ha] at a
    cases out with
    | nil => cases a
    | cons e out =>
      simp only [List.map_cons, List.cons.injEq, Prod.mk.injEq] at a
      obtain ⟨⟨⟨h1, h2, h3, h4⟩, h5, h6⟩, _⟩ := a
      have := h _ _ ha (by intro v hv; simp at hv; rcases hv with rfl | rfl | rfl <;> simp [v1, v2, v3]) e (by simp) 0 0
      rw [h5, h6, h1, h2, h3, h4] at this
      revert this
      decide +kernel

end Verif.Collapse.Props
