import Verif.Collapse.Aberr
import Verif.Collapse.Props
import Verif.Chunk.Props

/-! # Property theorems: light times of collapsed ephemerides (C183) -/

namespace Verif.Collapse.AberrProps

open Verif Sched Collapse Collapse.Spec Collapse.Props

section
variable {K : Type} [Field K] [LinearOrder K] [IsStrictOrderedRing K] {I J C T : Type} [LinearOrder J] [LinearOrder C]

/-- The variants of an object at a time seen from an observatory, with their light times. -/
def seenWithLight (vs : List (ARow I J C K)) (e : ObjEph I J C K) : List (ARow I J C K) :=
  vs.filter fun a => decide (a.row.obj = e.obj) && decide (a.row.days = e.days) && decide (a.row.nanos = e.nanos) &&
    decide (a.row.code = e.code)

/-- `f` are the given weights scaled to sum one; all equal when a weight is missing or they sum to zero. -/
def ScaledLight (S : List (ARow I J C K)) (f : ARow I J C K → K) : Prop :=
  ((∀ a ∈ S, a.row.w ≠ none) → (S.map fun a => a.row.w.getD 0).sum ≠ 0 →
    ∀ a ∈ S, f a * (S.map fun a => a.row.w.getD 0).sum = a.row.w.getD 0) ∧
  ((∃ a ∈ S, a.row.w = none) ∨ (S.map fun a => a.row.w.getD 0).sum = 0 → ∀ a ∈ S, f a * (S.length : K) = 1)

/-- Some light time of the group is there, with positive total weight. -/
def Lit (S : List (ARow I J C K)) (f : ARow I J C K → K) : Prop := 0 < (S.map fun a => if a.lt = none then 0 else f a).sum

/-- The emission of a group: the weighted mean of the emission states, the weighted mean of the light times that are there or,
without any, the distance of that state from the barycentre divided by the speed of light, and the time so much earlier. -/
def IsEmission (W : Light I J C K T) (S : List (ARow I J C K)) (f : ARow I J C K → K) (e : ObjEph I J C K) (m : Emission K T) : Prop :=
  (∀ i, m.state i = (S.map fun a => f a * (a.row.aber.getD fun _ => 0) i).sum) ∧
  (Lit S f → m.lt * (S.map fun a => if a.lt = none then 0 else f a).sum = (S.map fun a => f a * a.lt.getD 0).sum) ∧
  (¬ Lit S f → m.lt = W.dist m.state) ∧
  m.time = W.minus e.days e.nanos m.lt

/-! ## Lemmas -/

omit [Field K] [IsStrictOrderedRing K] [LinearOrder K] in
theorem sortBy_row (vs : List (ARow I J C K)) : sortBy veKey (vs.map ARow.row) = (sortBy aKey vs).map ARow.row := by
  unfold sortBy
  exact (List.map_insertionSort _ _ ARow.row vs (fun a _ b _ => Iff.rfl)).symm

omit [IsStrictOrderedRing K] in
theorem aWeight_scaled [IsStrictOrderedRing K] {g : List (ARow I J C K)} (h : g ≠ []) : ScaledLight g (aWeight g) := by
  have := meanWeight_scaled (l := g.map ARow.row) (by simpa using h)
  unfold Scaled at this
  unfold ScaledLight aWeight
  simpa [List.map_map, Function.comp_def] using this

theorem sum_filter_lt (S : List (ARow I J C K)) (f : ARow I J C K → K) :
    ((S.filter fun a => a.lt.isSome).map f).sum = (S.map fun a => if a.lt = none then 0 else f a).sum ∧
    ((S.filter fun a => a.lt.isSome).map fun a => f a * a.lt.getD 0).sum = (S.map fun a => f a * a.lt.getD 0).sum := by
  induction S with
  | nil => exact ⟨rfl, rfl⟩
  | cons a S ih =>
    cases h : a.lt with
    | none => simp [h, ih.1, ih.2]
    | some x => simp [h, ih.1, ih.2]

theorem forall₂_filterMap {α β : Type} (F : α → Option β) (P : α → β → Prop) (ks : List α)
    (h : ∀ k ∈ ks, ∃ e, F k = some e ∧ P k e) : List.Forall₂ (fun e k => P k e) (ks.filterMap F) ks := by
  induction ks with
  | nil => exact .nil
  | cons k ks ih =>
    obtain ⟨e, he, hp⟩ := h k (by simp)
    rw [List.filterMap_cons_some he]
    exact .cons hp (ih fun k' hk => h k' (by simp [hk]))

theorem mem_zipWith {α β γ : Type} {R : α → β → Prop} (f : α → β → γ) {as : List α} {bs : List β} (h : List.Forall₂ R as bs) :
    ∀ x ∈ List.zipWith f as bs, ∃ a ∈ as, ∃ b ∈ bs, R a b ∧ x = f a b := by
  induction h with
  | nil => simp
  | cons hr _ ih =>
    intro x hx
    rw [List.zipWith_cons_cons, List.mem_cons] at hx
    rcases hx with rfl | hx
    · exact ⟨_, by simp, _, by simp, hr, rfl⟩
    · obtain ⟨a, ha, b, hb, h1, h2⟩ := ih x hx
      exact ⟨a, by simp [ha], b, by simp [hb], h1, h2⟩

theorem zipWith_fst {α β γ : Type} {R : α → β → Prop} (f : α → β → γ) {as : List α} {bs : List β} (h : List.Forall₂ R as bs) :
    (List.zipWith (fun a b => (a, f a b)) as bs).map Prod.fst = as := by
  induction h with
  | nil => rfl
  | cons _ _ ih => simp [ih]

/-- The key of a result row. -/
def eKey (e : ObjEph I J C K) : J ×ₗ Int ×ₗ Int ×ₗ C := toLex (e.obj, toLex (e.days, toLex (e.nanos, e.code)))

omit [Field K] [LinearOrder K] [IsStrictOrderedRing K] in
theorem filter_eKey (vs : List (ARow I J C K)) (e : ObjEph I J C K) :
    vs.filter (fun a => decide (aKey a = eKey e)) = seenWithLight vs e := by
  unfold seenWithLight
  apply List.filter_congr
  intro a _
  rw [Bool.eq_iff_iff]
  simp only [decide_eq_true_eq, Bool.and_eq_true, and_assoc]
  unfold aKey veKey eKey
  constructor
  · intro h
    have h1 := Prod.mk.inj (toLex.injective h)
    have h2 := Prod.mk.inj (toLex.injective h1.2)
    have h3 := Prod.mk.inj (toLex.injective h2.2)
    exact ⟨h1.1, h2.1, h3.1, h3.2⟩
  · rintro ⟨h1, h2, h3, h4⟩
    rw [h1, h2, h3, h4]

/-- Rows and groups correspond: the group of a row is made of exactly the variants with its keys. -/
theorem rows_groups (circ : List (K × K) → K) (wrap : K → K → K) (chunk : Int) (hch : 0 < chunk) (vs : List (ARow I J C K))
    (hne : vs ≠ []) :
    ∃ rows, collapseByObject circ wrap chunk (vs.map ARow.row) = .ok rows ∧
      List.Forall₂ (fun (e : ObjEph I J C K) (g : List (ARow I J C K)) => g ≠ [] ∧ g.Perm (seenWithLight vs e)) rows
        (runs aKey (sortBy aKey vs)) ∧
      ∀ a ∈ vs, ∃ e ∈ rows, a ∈ seenWithLight vs e := by
  unfold collapseByObject
  rw [if_neg (by simpa using hne), if_neg (by omega)]
  refine ⟨_, rfl, ?_⟩
  rw [runs_sorted veKey _ (sortBy_sorted veKey _), sortBy_row, runs_sorted aKey _ (sortBy_sorted aKey _)]
  have hk : ((sortBy aKey vs).map ARow.row).map veKey = (sortBy aKey vs).map aKey := by
    rw [List.map_map]; rfl
  rw [hk]
  generalize ((uniq ((sortBy aKey vs).map aKey)).map fun k => ((sortBy aKey vs).map ARow.row).filter fun a =>
    decide (veKey a = k)).all (fun g => decide (some g.length = Option.map List.length ((uniq ((sortBy aKey vs).map aKey)).map
      fun k => ((sortBy aKey vs).map ARow.row).filter fun a => decide (veKey a = k)).head?)) = U
  rw [List.filterMap_map]
  have hF := forall₂_filterMap ((fun g : List (VRow I J C K) => ephRow (fun g =>
      stat circ wrap (meanWeight g) (if U = true then covWeightFast g else covWeightSlow g) g) g) ∘
      fun k => ((sortBy aKey vs).map ARow.row).filter fun a => decide (veKey a = k))
    (fun k e => eKey e = k ∧ ((sortBy aKey vs).filter fun a => decide (aKey a = k)) ≠ [])
    (uniq ((sortBy aKey vs).map aKey)) (by
      intro k hkm
      rw [mem_uniq, List.mem_map] at hkm
      obtain ⟨a, ha, rfl⟩ := hkm
      have hfm : ((sortBy aKey vs).map ARow.row).filter (fun v => decide (veKey v = aKey a)) =
          ((sortBy aKey vs).filter fun b => decide (aKey b = aKey a)).map ARow.row := by
        rw [List.filter_map]; rfl
      have hmem : a ∈ (sortBy aKey vs).filter fun b => decide (aKey b = aKey a) := by
        rw [List.mem_filter]; exact ⟨ha, by simp⟩
      simp only [Function.comp]
      rw [hfm]
      cases hg : (sortBy aKey vs).filter fun b => decide (aKey b = aKey a) with
      | nil => rw [hg] at hmem; cases hmem
      | cons b g =>
        refine ⟨_, rfl, ?_, by simp⟩
        have hb : b ∈ (sortBy aKey vs).filter fun b => decide (aKey b = aKey a) := by rw [hg]; simp
        rw [List.mem_filter, decide_eq_true_eq] at hb
        rw [← hb.2]
        rfl)
  refine ⟨?_, ?_⟩
  · rw [List.forall₂_map_right_iff]
    refine hF.imp ?_
    rintro e k ⟨hek, hg⟩
    refine ⟨hg, ?_⟩
    rw [← filter_eKey, hek]
    exact (sortBy_perm aKey vs).filter _
  · intro a ha
    have hka : aKey a ∈ uniq ((sortBy aKey vs).map aKey) := by
      rw [mem_uniq]
      exact List.mem_map_of_mem ((sortBy_perm aKey vs).mem_iff.mpr ha)
    obtain ⟨i, hi, hia⟩ := List.mem_iff_getElem.mp hka
    obtain ⟨hlen, hget⟩ := List.forall₂_iff_get.mp hF
    have hi' := hi
    rw [← hlen] at hi'
    refine ⟨_, List.getElem_mem hi', ?_⟩
    have := (hget i hi' hi).1
    rw [← filter_eKey, List.mem_filter]
    refine ⟨ha, ?_⟩
    rw [decide_eq_true_eq]
    rw [List.get_eq_getElem, List.get_eq_getElem, hia] at this
    exact this.symm

omit [IsStrictOrderedRing K] in
theorem aWeight_perm {l m : List (ARow I J C K)} (h : l.Perm m) : aWeight l = aWeight m := by
  funext a
  unfold aWeight
  rw [meanWeight_perm (h.map ARow.row)]

/-! ## C183 -/

/-- C183. The mode changes neither the rows nor which calls succeed (for a known mode): coordinates, covariances and magnitudes
are those of the mode "none". -/
theorem C183_coordinates (W : Light I J C K T) (f : (Fin 6 → K) × K × (Fin 6 → K) → (Fin 6 → K) × Option K) (hF : Chunk.Spec.Rowwise W.F f)
    (circ : List (K × K) → K) (wrap : K → K → K) (mode : Mode) (hm : mode ≠ .other)
    (chunk : Int) (vs : List (ARow I J C K)) :
    (collapseIn W circ wrap mode chunk vs).map (List.map Prod.fst) = collapseByObject circ wrap chunk (vs.map ARow.row) := by
  by_cases hne : vs = []
  · subst hne; rfl
  by_cases hch : chunk ≤ 0
  · have : collapseByObject circ wrap chunk (vs.map ARow.row) = .error .valueError := by
      unfold collapseByObject
      rw [if_neg (by simpa using hne), if_pos hch]
    unfold collapseIn
    rw [if_neg (by simpa using hne), if_neg hm, this]
    rfl
  obtain ⟨rows, hr, hfa, -⟩ := rows_groups circ wrap chunk (by omega) vs hne
  unfold collapseIn
  rw [if_neg (by simpa using hne), if_neg hm, hr]
  have hnone : (rows.map fun e => ((e, none) : ObjEph I J C K × Option (Emission K T))).map Prod.fst = rows := by
    rw [List.map_map]; exact List.map_id _
  cases mode with
  | other => exact absurd rfl hm
  | none => simp only [Except.map]; rw [hnone]
  | collapse =>
    simp only [Except.map]
    unfold collapseLight
    dsimp only
    split
    · rw [zipWith_fst _ hfa]
    · rw [hnone]
  | recompute =>
    simp only
    unfold recomputeLight
    obtain ⟨chunks, h1, h2⟩ := Chunk.Props.C20_padding_invisible W.pad W.F f hF
      (rows.map fun e => ((fun i => W.topo e i + W.obs e.code e.days e.nanos i), W.mjd e.days e.nanos, W.obs e.code e.days e.nanos))
      200 (by norm_num)
    simp only
    rw [h1]
    rw [List.length_map] at h2
    simp only [h2]
    split
    · simp only [Except.map]
      rw [zipWith_fst (R := fun _ _ => True)]
      rw [List.forall₂_iff_get]
      exact ⟨by simp, fun _ _ _ => trivial⟩
    · simp only [Except.map]
      rw [List.map_map]
      congr 1
      exact List.map_id _

/-- C183. Mode "collapse": either every row gets an emission or none does. All rows get theirs when all groups have the same
size, every variant has an emission state and some group has light times of positive total weight; and then each is the weighted mean
over exactly the variants of the row. -/
theorem C183_collapse (W : Light I J C K T) (circ : List (K × K) → K) (wrap : K → K → K) (chunk : Int) (hch : 0 < chunk)
    (vs : List (ARow I J C K)) :
    ∃ out, collapseIn W circ wrap .collapse chunk vs = .ok out ∧
      ((∀ p ∈ out, ∀ q ∈ out, (seenWithLight vs p.1).length = (seenWithLight vs q.1).length) → (∀ a ∈ vs, a.row.aber ≠ none) →
        (∃ p ∈ out, ∀ f, ScaledLight (seenWithLight vs p.1) f → Lit (seenWithLight vs p.1) f) →
        ∀ p ∈ out, ∃ m f, p.2 = some m ∧ ScaledLight (seenWithLight vs p.1) f ∧ IsEmission W (seenWithLight vs p.1) f p.1 m) ∧
      ((∃ p ∈ out, ∃ q ∈ out, (seenWithLight vs p.1).length ≠ (seenWithLight vs q.1).length) ∨ (∃ a ∈ vs, a.row.aber = none) ∨
        (∀ p ∈ out, ∀ f, ScaledLight (seenWithLight vs p.1) f → ¬ Lit (seenWithLight vs p.1) f) →
        ∀ p ∈ out, p.2 = none) := by
  by_cases hne : vs = []
  · subst hne
    exact ⟨[], rfl, by simp, by simp⟩
  obtain ⟨rows, hr, hfa, hall⟩ := rows_groups circ wrap chunk hch vs hne
  unfold collapseIn
  rw [if_neg (by simpa using hne), if_neg (by decide), hr]
  refine ⟨_, rfl, ?_⟩
  generalize runs aKey (sortBy aKey vs) = groups at hfa
  obtain ⟨hlen, hget⟩ := List.forall₂_iff_get.mp hfa
  have hrow : ∀ e ∈ rows, ∃ g ∈ groups, g ≠ [] ∧ g.Perm (seenWithLight vs e) := by
    intro e he
    obtain ⟨i, hi, rfl⟩ := List.mem_iff_getElem.mp he
    exact ⟨groups[i], List.getElem_mem _, hget i hi (by omega)⟩
  have hgrp : ∀ g ∈ groups, ∃ e ∈ rows, g ≠ [] ∧ g.Perm (seenWithLight vs e) := by
    intro g hg
    obtain ⟨i, hi, rfl⟩ := List.mem_iff_getElem.mp hg
    exact ⟨rows[i], List.getElem_mem _, hget i (by omega) hi⟩
  -- the light of a group
  have hlit : ∀ (g S : List (ARow I J C K)), g.Perm S → ((meanLight g).isSome = true ↔ Lit S (aWeight S)) := by
    intro g S hp
    unfold meanLight Lit
    dsimp only
    rw [(sum_filter_lt g _).1, aWeight_perm hp, (hp.map _).sum_eq]
    split <;> simp_all
  have hfst : (collapseLight W vs groups rows).map Prod.fst = rows := by
    unfold collapseLight
    dsimp only
    split
    · rw [zipWith_fst _ hfa]
    · rw [List.map_map]; exact List.map_id _
  have hin : ∀ p ∈ collapseLight W vs groups rows, p.1 ∈ rows := by
    intro p hp
    rw [← hfst]
    exact List.mem_map_of_mem hp
  have hout : ∀ e ∈ rows, ∃ p ∈ collapseLight W vs groups rows, p.1 = e := by
    intro e he
    rw [← hfst, List.mem_map] at he
    exact he
  have hsz : (groups.all fun g => decide (some g.length = groups.head?.map List.length)) = true ↔
      ∀ e ∈ rows, ∀ e' ∈ rows, (seenWithLight vs e).length = (seenWithLight vs e').length := by
    rw [List.all_eq_true]
    constructor
    · intro h e he e' he'
      obtain ⟨g, hg, -, hp⟩ := hrow e he
      obtain ⟨g', hg', -, hp'⟩ := hrow e' he'
      rw [← hp.length_eq, ← hp'.length_eq]
      have h1 := of_decide_eq_true (h g hg)
      have h2 := of_decide_eq_true (h g' hg')
      exact Option.some.inj (h1.trans h2.symm)
    · intro h g hg
      rw [decide_eq_true_eq]
      cases groups with
      | nil => cases hg
      | cons g0 gs =>
        obtain ⟨e, he, -, hp⟩ := hgrp g hg
        obtain ⟨e', he', -, hp'⟩ := hgrp g0 (by simp)
        simp only [List.head?_cons, Option.map_some]
        rw [hp.length_eq, hp'.length_eq, h e he e' he']
  have hab : (groups.all fun g => (meanState g).isSome) = true ↔ ∀ a ∈ vs, a.row.aber ≠ none := by
    rw [List.all_eq_true]
    have hms : ∀ g : List (ARow I J C K), (meanState g).isSome = true ↔ ∀ a ∈ g, a.row.aber ≠ none := by
      intro g
      unfold meanState
      rw [← all_isSome_iff (fun a : ARow I J C K => a.row.aber) g]
      split <;> simp_all
    constructor
    · intro h a ha
      obtain ⟨e, he, hae⟩ := hall a ha
      obtain ⟨g, hg, -, hp⟩ := hrow e he
      exact (hms g).mp (h g hg) a (hp.mem_iff.mpr hae)
    · intro h g hg
      rw [hms]
      intro a ha
      obtain ⟨e, he, -, hp⟩ := hgrp g hg
      exact h a (List.mem_filter.mp (hp.mem_iff.mp ha)).1
  have hlt : (groups.any fun g => (meanLight g).isSome) = true ↔ ∃ e ∈ rows, Lit (seenWithLight vs e) (aWeight (seenWithLight vs e)) := by
    rw [List.any_eq_true]
    constructor
    · rintro ⟨g, hg, h⟩
      obtain ⟨e, he, -, hp⟩ := hgrp g hg
      exact ⟨e, he, (hlit g _ hp).mp h⟩
    · rintro ⟨e, he, h⟩
      obtain ⟨g, hg, -, hp⟩ := hrow e he
      exact ⟨g, hg, (hlit g _ hp).mpr h⟩
  have hSne : ∀ e ∈ rows, seenWithLight vs e ≠ [] := by
    intro e he hn
    obtain ⟨g, -, h0, hp⟩ := hrow e he
    rw [hn] at hp
    exact h0 hp.eq_nil
  refine ⟨?_, ?_⟩
  · rintro h1 h2 ⟨p0, hp0, h3⟩
    have c1 : (!vs.all fun a => a.row.aber.isNone) = true := by
      cases vs with
      | nil => exact absurd rfl hne
      | cons a l =>
        have h0 : a.row.aber.isNone = false := by
          rw [Bool.eq_false_iff]
          intro hn
          exact h2 a (by simp) (Option.isNone_iff_eq_none.mp hn)
        rw [List.all_cons, h0]
        rfl
    have h3' := h3 _ (aWeight_scaled (hSne _ (hin _ hp0)))
    have c2 : (!vs.all fun a => a.lt.isNone) = true := by
      rw [Bool.not_eq_true', ← Bool.not_eq_true, List.all_eq_true]
      intro hn
      unfold Lit at h3'
      rw [List.map_congr_left (g := fun _ => (0 : K))] at h3'
      · simp at h3'
      · intro a ha
        have := hn a (List.mem_filter.mp ha).1
        rw [Option.isNone_iff_eq_none] at this
        rw [if_pos this]
    intro p hp
    unfold collapseLight at hp
    simp only at hp
    rw [c1, c2, hsz.mpr (fun e he e' he' => by
        obtain ⟨q, hq, rfl⟩ := hout e he
        obtain ⟨q', hq', rfl⟩ := hout e' he'
        exact h1 q hq q' hq'),
      hab.mpr h2, hlt.mpr ⟨p0.1, hin _ hp0, h3'⟩] at hp
    rw [if_pos (by rfl)] at hp
    obtain ⟨e, he, g, hg, ⟨hg0, hpm⟩, rfl⟩ := mem_zipWith _ hfa p hp
    refine ⟨_, aWeight (seenWithLight vs e), rfl, aWeight_scaled (hSne e he), ?_, ?_, ?_, rfl⟩
    · intro i
      have hsome : (g.all fun a => a.row.aber.isSome) = true := by
        rw [all_isSome_iff]
        intro a ha
        exact h2 a (List.mem_filter.mp (hpm.mem_iff.mp ha)).1
      simp only [meanState]
      rw [if_pos hsome]
      simp only [Option.getD_some]
      rw [aWeight_perm hpm]
      exact (hpm.map _).sum_eq
    · intro hl
      have hs := (hlit g _ hpm).mpr hl
      unfold Lit at hl
      simp only [meanLight]
      rw [(sum_filter_lt g _).1, (sum_filter_lt g _).2, aWeight_perm hpm, (hpm.map _).sum_eq, (hpm.map (fun a => aWeight (seenWithLight vs e) a * a.lt.getD 0)).sum_eq,
        if_pos hl, Option.getD_some]
      exact div_mul_cancel₀ _ hl.ne'
    · intro hl
      have hs : meanLight g = none := by
        by_contra hc
        exact hl ((hlit g _ hpm).mp (Option.isSome_iff_ne_none.mpr hc))
      simp only [hs, Option.getD_none]
  · intro h p hp
    unfold collapseLight at hp
    simp only at hp
    rw [if_neg] at hp
    · rw [List.mem_map] at hp
      obtain ⟨e, -, rfl⟩ := hp
      rfl
    · intro hc
      simp only [Bool.and_eq_true] at hc
      obtain ⟨⟨⟨-, h1⟩, h2⟩, h3⟩ := hc
      rw [hsz] at h1
      rw [hab] at h2
      rw [hlt] at h3
      rcases h with ⟨q, hq, q', hq', h⟩ | ⟨a, ha, h⟩ | h
      · exact h (h1 _ (hin _ hq) _ (hin _ hq'))
      · exact h2 a ha h
      · obtain ⟨e, he, hl⟩ := h3
        obtain ⟨q, hq, rfl⟩ := hout e he
        exact h q hq _ (aWeight_scaled (hSne _ he)) hl

/-- C183. Mode "recompute": each row gets the light time and emission state computed from its own mean state, observatory and time;
if one light time of the table is not finite, every row gets the geometric light time and the uncorrected state instead. -/
theorem C183_recompute (W : Light I J C K T) (f : (Fin 6 → K) × K × (Fin 6 → K) → (Fin 6 → K) × Option K) (hF : Chunk.Spec.Rowwise W.F f)
    (circ : List (K × K) → K) (wrap : K → K → K) (chunk : Int) (hch : 0 < chunk) (vs : List (ARow I J C K)) :
    ∃ out, collapseIn W circ wrap .recompute chunk vs = .ok out ∧
      let bary := fun (e : ObjEph I J C K) i => W.topo e i + W.obs e.code e.days e.nanos i
      let corrected := fun e : ObjEph I J C K => f (bary e, W.mjd e.days e.nanos, W.obs e.code e.days e.nanos)
      ((∀ p ∈ out, (corrected p.1).2 ≠ none) → ∀ p ∈ out, ∃ m, p.2 = some m ∧ m.state = (corrected p.1).1 ∧
        some m.lt = (corrected p.1).2 ∧ m.time = W.minus p.1.days p.1.nanos m.lt) ∧
      ((∃ p ∈ out, (corrected p.1).2 = none) → ∀ p ∈ out, ∃ m, p.2 = some m ∧ m.state = bary p.1 ∧
        m.lt = W.dist (W.topo p.1) ∧ m.time = W.minus p.1.days p.1.nanos m.lt) := by
  by_cases hne : vs = []
  · subst hne
    exact ⟨[], rfl, by simp, by simp⟩
  obtain ⟨rows, hr, -, -⟩ := rows_groups circ wrap chunk hch vs hne
  unfold collapseIn
  rw [if_neg (by simpa using hne), if_neg (by decide), hr]
  simp only
  unfold recomputeLight
  obtain ⟨chunks, h1, h2⟩ := Chunk.Props.C20_padding_invisible W.pad W.F f hF
    (rows.map fun e => ((fun i => W.topo e i + W.obs e.code e.days e.nanos i), W.mjd e.days e.nanos, W.obs e.code e.days e.nanos))
    200 (by norm_num)
  simp only
  rw [h1]
  rw [List.length_map, List.map_map] at h2
  simp only [h2]
  have hz : ∀ (g : ObjEph I J C K → (Fin 6 → K) × Option K), List.zipWith (fun e (o : (Fin 6 → K) × Option K) =>
      ((e, some ⟨o.1, o.2.getD 0, W.minus e.days e.nanos (o.2.getD 0)⟩) : ObjEph I J C K × Option (Emission K T))) rows (rows.map g) =
      rows.map fun e => (e, some ⟨(g e).1, (g e).2.getD 0, W.minus e.days e.nanos ((g e).2.getD 0)⟩) := by
    intro g
    rw [List.zipWith_map_right, List.zipWith_self]
  split
  · rename_i hall
    rw [List.all_map, List.all_eq_true] at hall
    refine ⟨_, rfl, ?_, ?_⟩
    · intro _ p hp
      rw [hz, List.mem_map] at hp
      obtain ⟨e, he, rfl⟩ := hp
      refine ⟨_, rfl, rfl, ?_, rfl⟩
      have := hall e he
      simp only [Function.comp] at this ⊢
      obtain ⟨x, hx⟩ := Option.isSome_iff_exists.mp this
      rw [hx]; rfl
    · rintro ⟨p, hp, hn⟩
      rw [hz, List.mem_map] at hp
      obtain ⟨e, he, rfl⟩ := hp
      have := hall e he
      simp only [Function.comp] at this
      simp only at hn
      rw [hn] at this
      cases this
  · rename_i hall
    refine ⟨_, rfl, ?_, ?_⟩
    · intro h
      exfalso
      apply hall
      rw [List.all_map, List.all_eq_true]
      intro e he
      simp only [Function.comp]
      exact Option.isSome_iff_ne_none.mpr (h _ (List.mem_map_of_mem he))
    · intro _ p hp
      rw [List.mem_map] at hp
      obtain ⟨e, he, rfl⟩ := hp
      exact ⟨_, rfl, rfl, rfl, rfl⟩

/-- C183. The checks on the arguments: nothing is asked of an empty table, an unknown mode or a chunk size below one is refused. -/
theorem C183_edges (W : Light I J C K T) (circ : List (K × K) → K) (wrap : K → K → K) (mode : Mode) (chunk : Int)
    (vs : List (ARow I J C K)) :
    collapseIn W circ wrap mode chunk ([] : List (ARow I J C K)) = .ok [] ∧
    (vs ≠ [] → mode = .other ∨ chunk ≤ 0 → collapseIn W circ wrap mode chunk vs = .error .valueError) ∧
    (0 < chunk → ∀ out, collapseIn W circ wrap .none chunk vs = .ok out → ∀ p ∈ out, p.2 = none) := by
  refine ⟨rfl, ?_, ?_⟩
  · intro hne h
    unfold collapseIn
    rw [if_neg (by simpa using hne)]
    by_cases hm : mode = .other
    · rw [if_pos hm]
    · rw [if_neg hm]
      have hc := h.resolve_left hm
      have : collapseByObject circ wrap chunk (vs.map ARow.row) = .error .valueError := by
        unfold collapseByObject
        rw [if_neg (by simpa using hne), if_pos hc]
      rw [this]
  · intro hch out ho p hp
    by_cases hne : vs = []
    · subst hne
      cases ho
      cases hp
    · obtain ⟨rows, hr, -, -⟩ := rows_groups circ wrap chunk hch vs hne
      unfold collapseIn at ho
      rw [if_neg (by simpa using hne), if_neg (by decide), hr] at ho
      cases ho
      rw [List.mem_map] at hp
      obtain ⟨e, -, rfl⟩ := hp
      rfl

end

/-- A world on one axis: the observatory is one unit from the barycentre, light travels one unit a day, and the light time of a
state further than ten units is not finite. -/
def axis : Light Nat Nat Nat ℚ ℚ where
  dist s := |s 0|
  minus d _ lt := d - lt
  topo e := e.stat.mean
  obs _ _ _ i := if i = 0 then 1 else 0
  mjd d _ := d
  F l := l.map fun x => (x.1, if x.1 0 < 10 then some (|x.1 0 - x.2.2 0|) else none)
  pad := (fun _ => 0, 0, fun _ => 0)

theorem axis_rowwise : Chunk.Spec.Rowwise axis.F fun x => (x.1, if x.1 0 < 10 then some (|x.1 0 - x.2.2 0|) else none) :=
  fun l => ⟨by simp [axis], fun i a h => by simp [axis, List.getElem?_map, h]⟩

/-- Variant of object `j` at range `r` from the observatory, so at `r + 1` from the barycentre. -/
def var (j : Nat) (r : ℚ) (lt : Option ℚ) : ARow Nat Nat Nat ℚ :=
  ⟨⟨j, j, 60000, 0, 0, fun i => if i = 0 then r else 0, some (1/2), some (1/2), some fun i => if i = 0 then r + 1 else 0, none⟩, lt⟩

/-- C183. The light time of a group without light times is not the light time to the observatory. -/
theorem C183_fallback_false :
    ¬ ∀ (W : Light Nat Nat Nat ℚ ℚ) (circ : List (ℚ × ℚ) → ℚ) (wrap : ℚ → ℚ → ℚ) (vs : List (ARow Nat Nat Nat ℚ)) (out),
      collapseIn W circ wrap .collapse 200000 vs = .ok out → ∀ p ∈ out, ∀ m, p.2 = some m →
        m.lt = W.dist (fun i => m.state i - W.obs p.1.code p.1.days p.1.nanos i) := by
  intro h
  have key : (match collapseIn axis (fun _ => (0 : ℚ)) (fun _ x => x) .collapse 200000
        [var 1 2 (some 2), var 1 4 (some 4), var 2 3 none, var 2 3 none] with
      | .ok out => out.all fun p => match p.2 with
        | some m => decide (m.lt = axis.dist (fun i => m.state i - axis.obs p.1.code p.1.days p.1.nanos i))
        | none => true
      | .error _ => true) = false := by decide +kernel
  revert key
  split
  · rename_i out ho
    rw [Bool.eq_false_iff]
    intro hn
    apply hn
    rw [List.all_eq_true]
    intro p hp
    split
    · rename_i m hm
      exact decide_eq_true (h _ _ _ _ _ ho p hp m hm)
    · rfl
  · intro hc; cases hc

/-- C183. In the mode "recompute" the emission of a row is not a function of its own variants: another object whose light time is
not finite replaces it by the uncorrected state. Here the corrected and the geometric light time are told apart. -/
theorem C183_recompute_false :
    ¬ ∃ F : List (ARow Nat Nat Nat ℚ) → Option ℚ, ∀ (vs : List (ARow Nat Nat Nat ℚ)) (out),
      collapseIn { axis with dist := fun s => |s 0| + 1 } (fun _ => (0 : ℚ)) (fun _ x => x) .recompute 200000 vs = .ok out →
        ∀ p ∈ out, p.2.map Emission.lt = F (seenWithLight vs p.1) := by
  rintro ⟨F, h⟩
  have key : ∀ vs : List (ARow Nat Nat Nat ℚ), vs.filter (fun a => decide (a.row.obj = 1)) = [var 1 2 none, var 1 4 none] →
      (∀ a ∈ vs, a.row.days = 60000 ∧ a.row.nanos = 0 ∧ a.row.code = 0) →
      ∀ out, collapseIn { axis with dist := fun s => |s 0| + 1 } (fun _ => (0 : ℚ)) (fun _ x => x) .recompute 200000 vs = .ok out →
      (out.map fun p => (p.1.obj, p.1.days, p.1.nanos, p.1.code)).head? = some (1, 60000, 0, 0) →
      (out.map fun p => p.2.map Emission.lt).head? = some (F [var 1 2 none, var 1 4 none]) := by
    intro vs hv hd out ho hk
    cases out with
    | nil => cases hk
    | cons p out =>
      simp only [List.map_cons, List.head?_cons, Option.some.injEq, Prod.mk.injEq] at hk ⊢
      obtain ⟨h1, h2, h3, h4⟩ := hk
      rw [h vs _ ho p (by simp), ← hv]
      congr 1
      unfold seenWithLight
      apply List.filter_congr
      intro a ha
      obtain ⟨d1, d2, d3⟩ := hd a ha
      rw [h1, h2, h3, h4, d1, d2, d3]
      simp
  have a : (match collapseIn { axis with dist := fun s => |s 0| + 1 } (fun _ => (0 : ℚ)) (fun _ x => x) .recompute 200000
        [var 1 2 none, var 1 4 none] with
      | .ok out => some ((out.map fun p => (p.1.obj, p.1.days, p.1.nanos, p.1.code)).head?, (out.map fun p => p.2.map Emission.lt).head?)
      | .error _ => none) = some (some (1, 60000, 0, 0), some (some 3)) := by decide +kernel
  have b : (match collapseIn { axis with dist := fun s => |s 0| + 1 } (fun _ => (0 : ℚ)) (fun _ x => x) .recompute 200000
        [var 1 2 none, var 1 4 none, var 2 30 none] with
      | .ok out => some ((out.map fun p => (p.1.obj, p.1.days, p.1.nanos, p.1.code)).head?, (out.map fun p => p.2.map Emission.lt).head?)
      | .error _ => none) = some (some (1, 60000, 0, 0), some (some 4)) := by decide +kernel
  revert a b
  split
  · rename_i out ho
    split
    · rename_i out' ho'
      intro a b
      simp only [Option.some.injEq, Prod.mk.injEq] at a b
      have ka := key _ rfl (by unfold var; simp) _ ho a.1
      have kb := key _ rfl (by unfold var; simp) _ ho' b.1
      rw [a.2] at ka
      rw [b.2, ← ka] at kb
      exact absurd kb (by decide +kernel)
    · intro _ b; cases b
  · intro a; cases a

/-- C183. Mode "collapse" writes no emission for any object when one object has fewer variants than the others. -/
example : (match collapseIn axis (fun _ => (0 : ℚ)) (fun _ x => x) .collapse 200000 [var 1 2 (some 2), var 1 4 (some 4), var 2 3 (some 3)] with
    | .ok out => out.map fun p => p.2.isSome
    | .error _ => []) = [false, false] := by decide +kernel

/-- A table meeting the hypotheses of `C183_collapse`. -/
example : (match collapseIn axis (fun _ => (0 : ℚ)) (fun _ x => x) .collapse 200000
      [var 1 2 (some 2), var 1 4 (some 4), var 2 3 none, var 2 5 (some 5)] with
    | .ok out => out.map fun p => p.2.map fun m => (m.state 0, m.lt, m.time)
    | .error _ => []) = [some (4, 3, 59997), some (5, 5, 59995)] := by decide +kernel

/-- A table meeting the hypotheses of `C183_recompute`. -/
example : (match collapseIn axis (fun _ => (0 : ℚ)) (fun _ x => x) .recompute 200000 [var 1 2 none, var 1 4 none] with
    | .ok out => out.map fun p => p.2.map fun m => (m.state 0, m.lt, m.time)
    | .error _ => []) = [some (4, 3, 59997)] := by decide +kernel

end Verif.Collapse.AberrProps
