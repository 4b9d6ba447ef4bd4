import Verif.Catalog.Model
import Verif.Sched.Orbits
import Verif.Time.Props

/-! # C125 and C126: observation tables -/

namespace Verif.Catalog.Props

open Verif Verif.Sched Verif.Time Verif.Time.Spec

/-! ## Lemmas -/

section groups
variable {ρ K : Type} [LinearOrder K]

theorem sortBy_filter_key {M : Type} [LinearOrder M] (f : ρ → M) (l : List ρ) (p : ρ → Bool)
    (hp : ∀ a ∈ l, ∀ b ∈ l, p a = true → p b = true → f a = f b) : (sortBy f l).filter p = l.filter p := by
  have hperm : ((sortBy f l).filter p).Perm (l.filter p) := (sortBy_perm f l).filter _
  have hsub : (l.filter p).Sublist (sortBy f l) := by
    unfold sortBy
    apply List.sublist_insertionSort
    · rw [List.pairwise_iff_forall_sublist]
      intro a b hab
      have ha : a ∈ l.filter p := hab.subset (by simp)
      have hb : b ∈ l.filter p := hab.subset (by simp)
      rw [List.mem_filter] at ha hb
      exact le_of_eq (hp a ha.1 b hb.1 ha.2 hb.2)
    · exact List.filter_sublist
  have hsub2 : (l.filter p).Sublist ((sortBy f l).filter p) := by
    have := hsub.filter p
    rwa [List.filter_filter, show (fun a => p a && p a) = p by funext a; simp] at this
  exact (hsub2.eq_of_length hperm.length_eq.symm).symm

/-- Rows with a key of the list, group by group, are the rows. -/
theorem groups_perm {κ : Type} [DecidableEq κ] (key : ρ → κ) (ks : List κ) (hn : ks.Nodup) :
    ∀ rows : List ρ, ((ks.map fun k => rows.filter fun r => decide (key r = k)).flatten).Perm
      (rows.filter fun r => decide (key r ∈ ks)) := by
  induction ks with
  | nil => intro rows; simp
  | cons k ks ih =>
    intro rows
    obtain ⟨hk, hn⟩ := List.nodup_cons.mp hn
    rw [List.map_cons, List.flatten_cons]
    refine ((ih hn rows).append_left _).trans ?_
    have h1 : rows.filter (fun r => decide (key r = k)) =
        (rows.filter fun r => decide (key r ∈ k :: ks)).filter fun r => decide (key r = k) := by
      rw [List.filter_filter]
      apply List.filter_congr
      intro r _
      by_cases h : key r = k <;> simp [h]
    have h2 : rows.filter (fun r => decide (key r ∈ ks)) =
        (rows.filter fun r => decide (key r ∈ k :: ks)).filter fun r => !decide (key r = k) := by
      rw [List.filter_filter]
      apply List.filter_congr
      intro r _
      by_cases h : key r = k
      · simp [h, hk]
      · simp [h]
    rw [h1, h2]
    exact List.filter_append_perm _ _

theorem groups_all {κ : Type} [DecidableEq κ] (key : ρ → κ) (ks : List κ) (hn : ks.Nodup) (rows : List ρ)
    (hall : ∀ r ∈ rows, key r ∈ ks) : ((ks.map fun k => rows.filter fun r => decide (key r = k)).flatten).Perm rows := by
  refine (groups_perm key ks hn rows).trans ?_
  rw [List.filter_eq_self.mpr]
  intro r hr
  exact decide_eq_true (hall r hr)

theorem firsts_sublist {κ : Type} [DecidableEq κ] (key : ρ → κ) (rows : List ρ) :
    ((uniq (rows.map key)).filterMap fun k => (rows.filter fun r => decide (key r = k)).head?).Sublist rows := by
  induction rows with
  | nil => simp [uniq]
  | cons r rows ih =>
    rw [List.map_cons, uniq, List.filterMap_cons]
    simp only [List.filter_cons, decide_true, if_true, List.head?_cons]
    apply List.Sublist.cons_cons
    refine List.Sublist.trans ?_ ih
    have : ((uniq (rows.map key)).filter fun b => decide (b ≠ key r)).filterMap
        (fun k => (if decide (key r = k) = true then r :: rows.filter (fun r => decide (key r = k))
          else rows.filter fun r => decide (key r = k)).head?) =
        ((uniq (rows.map key)).filter fun b => decide (b ≠ key r)).filterMap
        fun k => (rows.filter fun r => decide (key r = k)).head? := by
      apply List.filterMap_congr
      intro k hk
      have := (List.mem_filter.mp hk).2
      have hne : ¬ key r = k := fun h => by simp [h] at this
      simp [hne]
    rw [this]
    exact List.filter_sublist.filterMap _

theorem object_eq (key : ρ → Option K) (rows : List ρ) :
    groupByObject key rows =
      (((uniq (rows.map key)).filterMap id).map some ++ if none ∈ uniq (rows.map key) then [none] else []).map
        fun k => rows.filter fun r => decide (key r = k) := by
  have h1 : ∀ k : Option K, (sortBy (fun r => orderKey (key r)) rows).filter (fun r => decide (key r = k)) =
      rows.filter fun r => decide (key r = k) := by
    intro k
    apply sortBy_filter_key
    intro a _ b _ ha hb
    rw [decide_eq_true_eq] at ha hb
    rw [ha, hb]
  unfold groupByObject
  simp only
  rw [List.map_append, List.map_map]
  congr 1
  · apply List.map_congr_left
    intro k _
    exact h1 (some k)
  · split
    · rw [List.map_singleton, ← h1 none]
      congr 1
      apply List.filter_congr
      intro r _
      cases key r <;> simp
    · rfl

theorem object_keys (key : ρ → Option K) (rows : List ρ) :
    let ks := ((uniq (rows.map key)).filterMap id).map some ++ if none ∈ uniq (rows.map key) then [none] else []
    ks.Nodup ∧ ∀ k, k ∈ ks ↔ k ∈ rows.map key := by
  intro ks
  have hn : ((uniq (rows.map key)).filterMap id).Nodup := by
    apply (nodup_uniq (rows.map key)).filterMap
    intro a a' b ha ha'
    cases a <;> cases a' <;> simp_all
  constructor
  · rw [List.nodup_append]
    refine ⟨hn.map (Option.some_injective _), ?_, ?_⟩
    · split <;> simp
    · intro a ha b hb h
      obtain ⟨k, _, rfl⟩ := List.mem_map.mp ha
      subst h
      split at hb <;> simp at hb
  · intro k
    rw [← mem_uniq (rows.map key)]
    simp only [ks, List.mem_append, List.mem_map, List.mem_filterMap, id]
    cases k with
    | none =>
      constructor
      · rintro (⟨a, _, h⟩ | h)
        · cases h
        · split at h
          · assumption
          · cases h
      · intro h
        right
        rw [if_pos h]; simp
    | some k =>
      constructor
      · rintro (⟨a, ⟨o, ho, rfl⟩, h⟩ | h)
        · rw [← h]; exact ho
        · split at h <;> simp at h
      · intro h
        exact Or.inl ⟨k, ⟨some k, h, rfl⟩, rfl⟩

/-! ## C125 -/

/-- Grouping associations by object loses no row and invents none; every group is not empty, has all the rows of one object, or
all those without an object, in the order of the table; different groups belong to different objects. -/
theorem C125_objects (key : ρ → Option K) (rows : List ρ) :
    (groupByObject key rows).flatten.Perm rows ∧
      ∃ ks : List (Option K), ks.Nodup ∧ (∀ k, k ∈ ks ↔ ∃ r ∈ rows, key r = k) ∧
        groupByObject key rows = ks.map fun k => rows.filter fun r => decide (key r = k) := by
  obtain ⟨hn, hm⟩ := object_keys key rows
  rw [object_eq]
  refine ⟨?_, _, hn, fun k => by rw [hm, List.mem_map], rfl⟩
  exact groups_all key _ hn rows fun r hr => (hm _).mpr (List.mem_map_of_mem hr)

/-- The objects come in the order of their first row and the rows without object come last. -/
theorem C125_objects_order (key : ρ → Option K) (rows : List ρ) :
    ∃ named rest, groupByObject key rows = named ++ rest ∧ (∀ g ∈ named, ∀ r ∈ g, key r ≠ none) ∧
      (∀ g ∈ rest, ∀ r ∈ g, key r = none) ∧ rest.length ≤ 1 ∧ (named.filterMap List.head?).Sublist rows := by
  rw [object_eq, List.map_append]
  refine ⟨_, _, rfl, ?_, ?_, ?_, ?_⟩
  · intro g hg r hr
    simp only [List.map_map, List.mem_map] at hg
    obtain ⟨k, _, rfl⟩ := hg
    have := (List.mem_filter.mp hr).2
    simp only [decide_eq_true_eq] at this
    rw [this]; simp
  · intro g hg r hr
    split at hg
    · simp only [List.map_cons, List.map_nil, List.mem_singleton] at hg
      subst hg
      simpa using (List.mem_filter.mp hr).2
    · simp at hg
  · split <;> simp
  · refine List.Sublist.trans ?_ (firsts_sublist key rows)
    rw [List.map_map, List.filterMap_map, List.filterMap_filterMap]
    have : ∀ l : List (Option K), (l.filterMap fun o => (id o).bind
        (List.head? ∘ (fun k => rows.filter fun r => decide (key r = k)) ∘ some)).Sublist
        (l.filterMap fun k => (rows.filter fun r => decide (key r = k)).head?) := by
      intro l
      induction l with
      | nil => simp
      | cons o l ih =>
        cases o with
        | none =>
          rw [List.filterMap_cons_none rfl, List.filterMap_cons]
          split
          · exact ih
          · exact ih.cons _
        | some k =>
          rw [List.filterMap_cons, List.filterMap_cons]
          simp only [id, Option.bind_some, Function.comp]
          split
          · exact ih
          · exact ih.cons_cons _
    exact this _

theorem exposure_eq (key : ρ → Option K) (rows : List ρ) :
    groupByExposure key rows = (uniq (rows.map key)).map fun k =>
      (rows.filter fun r => (key r).isSome).filter fun r => decide (key r = k) := by
  unfold groupByExposure
  simp only
  apply List.map_congr_left
  intro k _
  rw [sortBy_filter_key]
  · rw [List.filter_filter]
    apply List.filter_congr
    intro r _
    cases k <;> cases key r <;> simp
  · intro a _ b _ ha hb
    cases k with
    | none => cases ha
    | some k =>
      revert ha hb
      cases key a <;> cases key b <;> simp
      rintro rfl rfl; rfl

/-- Grouping detections by exposure gives the detections that have an exposure, each once; a detection without exposure is in no
group. -/
theorem C125_exposures (key : ρ → Option K) (rows : List ρ) :
    (groupByExposure key rows).flatten.Perm (rows.filter fun r => (key r).isSome) ∧
      ((groupByExposure key rows).flatten.Perm rows ↔ ∀ r ∈ rows, key r ≠ none) ∧
      ([] ∈ groupByExposure key rows ↔ ∃ r ∈ rows, key r = none) := by
  have heq := exposure_eq key rows
  have hperm : (groupByExposure key rows).flatten.Perm (rows.filter fun r => (key r).isSome) := by
    rw [heq]
    exact groups_all key _ (nodup_uniq _) _ fun r hr => (mem_uniq _ _).mpr (List.mem_map_of_mem (List.mem_filter.mp hr).1)
  refine ⟨hperm, ?_, ?_⟩
  · constructor
    · intro h r hr hnone
      have := (h.mem_iff.trans Iff.rfl).mpr hr
      have := hperm.mem_iff.mp this
      have := (List.mem_filter.mp this).2
      rw [hnone] at this; cases this
    · intro h
      rwa [List.filter_eq_self.mpr] at hperm
      intro r hr
      have := h r hr
      cases hk : key r with
      | none => exact absurd hk this
      | some k => rfl
  · rw [heq, List.mem_map]
    constructor
    · rintro ⟨k, hk, hg⟩
      rw [mem_uniq, List.mem_map] at hk
      obtain ⟨r, hr, rfl⟩ := hk
      refine ⟨r, hr, ?_⟩
      by_contra hc
      have : r ∈ (rows.filter fun r => (key r).isSome).filter fun r' => decide (key r' = key r) := by
        rw [List.mem_filter, List.mem_filter]
        exact ⟨⟨hr, by cases h : key r <;> simp_all⟩, by simp⟩
      rw [hg] at this
      cases this
    · rintro ⟨r, hr, h⟩
      refine ⟨none, ?_, ?_⟩
      · rw [mem_uniq, ← h]; exact List.mem_map_of_mem hr
      · rw [List.filter_filter]
        apply List.filter_eq_nil_iff.mpr
        intro r _
        cases key r <;> simp

/-- The groups by exposure: one for every exposure that occurs, holding all its detections in the order of the table, in the
order of their first detections; detections without exposure make one more group, which is empty. -/
theorem C125_exposure_groups (key : ρ → Option K) (rows : List ρ) :
    (∃ ks : List (Option K), ks.Nodup ∧ (∀ k, k ∈ ks ↔ ∃ r ∈ rows, key r = k) ∧
      groupByExposure key rows = ks.map fun k => rows.filter fun r => decide (key r = k ∧ k ≠ none)) ∧
    ((groupByExposure key rows).filterMap List.head?).Sublist rows := by
  rw [exposure_eq]
  constructor
  · refine ⟨_, nodup_uniq (rows.map key), fun k => by rw [mem_uniq, List.mem_map], ?_⟩
    apply List.map_congr_left
    intro k _
    rw [List.filter_filter]
    apply List.filter_congr
    intro r _
    cases k <;> cases key r <;> simp
  · refine List.Sublist.trans ?_ (firsts_sublist key rows)
    rw [List.filterMap_map]
    generalize uniq (rows.map key) = l
    induction l with
    | nil => simp
    | cons k l ih =>
      have hnone : k = none → (List.head? ∘ fun k => (rows.filter fun r => (key r).isSome).filter fun r => decide (key r = k)) k
          = none := by
        rintro rfl
        simp only [Function.comp, List.head?_eq_none_iff, List.filter_eq_nil_iff, List.mem_filter]
        rintro r ⟨-, hr⟩ h
        simp only [decide_eq_true_eq] at h
        rw [h] at hr
        cases hr
      have hsome : k ≠ none → (List.head? ∘ fun k => (rows.filter fun r => (key r).isSome).filter fun r => decide (key r = k)) k
          = (rows.filter fun r => decide (key r = k)).head? := by
        intro hk
        simp only [Function.comp]
        rw [List.filter_filter]
        congr 1
        apply List.filter_congr
        intro r _
        cases k <;> cases h : key r <;> simp_all
      by_cases hk : k = none
      · rw [List.filterMap_cons_none (hnone hk), List.filterMap_cons]
        split
        · exact ih
        · exact ih.cons _
      · rw [List.filterMap_cons, List.filterMap_cons, hsome hk]
        split
        · exact ih
        · exact ih.cons_cons _

/-- Grouping by a code that is never null: the groups, taken together, are the rows; they carry their own code, the codes differ
and come in the order of their first row. -/
theorem C125_codes (key : ρ → K) (rows : List ρ) :
    ((groupByCode key rows).map Prod.snd).flatten.Perm rows ∧ ((groupByCode key rows).map Prod.fst).Nodup ∧
      (∀ k g, (k, g) ∈ groupByCode key rows → g ≠ [] ∧ g = rows.filter fun r => decide (key r = k)) ∧
      ((groupByCode key rows).filterMap fun kg => kg.2.head?).Sublist rows := by
  refine ⟨?_, ?_, ?_, ?_⟩
  · have h : (groupByCode key rows).map Prod.snd = (uniq (rows.map key)).map fun k =>
        rows.filter fun r => decide (key r = k) := by
      unfold groupByCode; rw [List.map_map]; rfl
    rw [h]
    exact groups_all key _ (nodup_uniq _) _ fun r hr => (mem_uniq _ _).mpr (List.mem_map_of_mem hr)
  · have h : (groupByCode key rows).map Prod.fst = uniq (rows.map key) := by
      unfold groupByCode; rw [List.map_map]; exact List.map_id _
    rw [h]; exact nodup_uniq _
  · intro k g hg
    unfold groupByCode at hg
    obtain ⟨k', hk', h⟩ := List.mem_map.mp hg
    cases h
    refine ⟨?_, rfl⟩
    rw [mem_uniq, List.mem_map] at hk'
    obtain ⟨r, hr, hk⟩ := hk'
    exact List.ne_nil_of_mem (List.mem_filter.mpr ⟨hr, by simpa using hk⟩)
  · have h : (groupByCode key rows).filterMap (fun kg => kg.2.head?) =
        (uniq (rows.map key)).filterMap fun k => (rows.filter fun r => decide (key r = k)).head? := by
      unfold groupByCode; rw [List.filterMap_map]; rfl
    rw [h]
    exact firsts_sublist key rows

/-- Grouping by pixel of the sky: the same, with the pixels in increasing order. -/
theorem C125_pixels (pix : ρ → Nat) (rows : List ρ) :
    ((groupByPixel pix rows).map Prod.snd).flatten.Perm rows ∧
      ((groupByPixel pix rows).map Prod.fst).Pairwise (· < ·) ∧
      ∀ p g, (p, g) ∈ groupByPixel pix rows → g ≠ [] ∧ g = rows.filter fun r => decide (pix r = p) := by
  have hn : (sortBy id (uniq (rows.map pix))).Nodup := (sortBy_perm id _).nodup_iff.mpr (nodup_uniq _)
  have hm : ∀ p, p ∈ sortBy id (uniq (rows.map pix)) ↔ p ∈ rows.map pix := by
    intro p
    rw [(sortBy_perm id _).mem_iff, mem_uniq]
  refine ⟨?_, ?_, ?_⟩
  · have h : (groupByPixel pix rows).map Prod.snd = (sortBy id (uniq (rows.map pix))).map fun k =>
        rows.filter fun r => decide (pix r = k) := by
      unfold groupByPixel; rw [List.map_map]; rfl
    rw [h]
    exact groups_all pix _ hn _ fun r hr => (hm _).mpr (List.mem_map_of_mem hr)
  · have h : (groupByPixel pix rows).map Prod.fst = sortBy id (uniq (rows.map pix)) := by
      unfold groupByPixel; rw [List.map_map]; exact List.map_id _
    rw [h]
    exact (sortBy_sorted id (uniq (rows.map pix))).imp₂ (fun a b h1 h2 => lt_of_le_of_ne h1 h2) hn
  · intro p g hg
    unfold groupByPixel at hg
    obtain ⟨k', hk', h⟩ := List.mem_map.mp hg
    cases h
    refine ⟨?_, rfl⟩
    rw [hm, List.mem_map] at hk'
    obtain ⟨r, hr, hk⟩ := hk'
    exact List.ne_nil_of_mem (List.mem_filter.mpr ⟨hr, by simpa using hk⟩)

end groups

/-- Three detections, the second without exposure. -/
theorem C125_case : groupByExposure (K := Nat) Prod.snd [(1, some 7), (2, none), (3, some 5), (4, some 7)] =
      [[(1, some 7), (4, some 7)], [], [(3, some 5)]] ∧
    groupByObject (K := Nat) Prod.snd [(1, some 7), (2, none), (3, some 5), (4, some 7)] =
      [[(1, some 7), (4, some 7)], [(3, some 5)], [(2, none)]] := by
  decide +kernel

/-! ## C126 -/

/-- A magnitude `PointSourceDetections` accepts. -/
def MagFits (c : Cell) : Prop := c = .null ∨ ∃ x, c = .num x ∧ -10 ≤ x ∧ x ≤ 30

/-- The detections of a catalogue are its rows, column by column; they are refused exactly when some magnitude is NaN or not
between −10 and 30, which the catalogue itself allows. -/
theorem C126_detections (cat : List Source) :
    (detections cat = none ↔ ∃ s ∈ cat, ¬ MagFits s.mag) ∧
      ∀ ds, detections cat = some ds → ds.length = cat.length ∧ ∀ (i : Nat) (h : i < ds.length) (h' : i < cat.length),
        ds[i].id = cat[i].id ∧ ds[i].exposureId = cat[i].exposureId ∧ ds[i].raSigma = cat[i].raSigma ∧
          ds[i].decSigma = cat[i].decSigma ∧ ds[i].mag = cat[i].mag := by
  have hp : ∀ c : Cell, passes (-10) 30 c = true ↔ MagFits c := by
    intro c
    unfold passes MagFits
    cases c <;> simp
  constructor
  · unfold detections
    constructor
    · intro h
      by_contra hc
      rw [if_pos] at h
      · cases h
      · rw [List.all_eq_true]
        intro s hs
        rw [hp]
        by_contra hn
        exact hc ⟨s, hs, hn⟩
    · rintro ⟨s, hs, hn⟩
      rw [if_neg]
      intro h
      exact hn ((hp _).mp (List.all_eq_true.mp h s hs))
  · intro ds h
    unfold detections at h
    split at h
    · cases h
      refine ⟨by simp, ?_⟩
      intro i h1 h2
      simp
    · cases h

/-- A row that may stand in `Exposures`. -/
def Complete (s : Source) : Prop :=
  s.exposureId ≠ none ∧ s.start ≠ none ∧ s.filter ≠ none ∧ ∃ d, s.duration = some d ∧ 0 ≤ d ∧ d ≤ 3600

/-- The exposure belongs to the row. -/
def Describes (e : Exposure) (s : Source) : Prop :=
  s.exposureId = some e.id ∧ s.start = some e.start ∧ s.duration = some e.duration ∧ s.filter = some e.filter ∧
    s.code = e.code

theorem exposureOf_some {s : Source} {e : Exposure} (h : exposureOf s = some e) : Describes e s ∧ Complete s := by
  unfold exposureOf at h
  split at h
  · next i t d f h1 h2 h3 h4 =>
    split at h
    · next hd => cases h; exact ⟨⟨h1, h2, h3, h4, rfl⟩, by simp [h1], by simp [h2], by simp [h4], d, h3, hd.1, hd.2⟩
    · cases h
  · cases h

theorem exposureOf_complete {s : Source} (h : Complete s) : ∃ e, exposureOf s = some e := by
  obtain ⟨h1, h2, h3, d, h4, h5, h6⟩ := h
  obtain ⟨i, h1⟩ := Option.ne_none_iff_exists'.mp h1
  obtain ⟨t, h2⟩ := Option.ne_none_iff_exists'.mp h2
  obtain ⟨f, h3⟩ := Option.ne_none_iff_exists'.mp h3
  unfold exposureOf
  rw [h1, h2, h3, h4]
  exact ⟨_, if_pos ⟨h5, h6⟩⟩

theorem allExposures_some (cat : List Source) : ∀ es, allExposures cat = some es → List.Forall₂ Describes es cat := by
  induction cat with
  | nil => intro es h; cases h; exact .nil
  | cons s cat ih =>
    intro es h
    rw [allExposures] at h
    split at h
    · next e es' h1 h2 => cases h; exact .cons (exposureOf_some h1).1 (ih _ h2)
    · cases h

theorem allExposures_iff (cat : List Source) : (∃ es, allExposures cat = some es) ↔ ∀ s ∈ cat, Complete s := by
  induction cat with
  | nil => simp [allExposures]
  | cons s cat ih =>
    rw [allExposures]
    constructor
    · rintro ⟨es, h⟩
      split at h
      · next e es' h1 h2 =>
        intro x hx
        rcases List.mem_cons.mp hx with rfl | hx
        · exact (exposureOf_some h1).2
        · exact ih.mp ⟨es', h2⟩ x hx
      · cases h
    · intro h
      obtain ⟨e, he⟩ := exposureOf_complete (h s (by simp))
      obtain ⟨es, hes⟩ := ih.mpr fun x hx => h x (by simp [hx])
      exact ⟨e :: es, by rw [he, hes]⟩

theorem dropDuplicates_sublist (es : List Exposure) : (dropDuplicates es).Sublist es := by
  induction es with
  | nil => exact .refl _
  | cons e es ih => exact .cons_cons _ (List.filter_sublist.trans ih)

theorem dropDuplicates_nodup (es : List Exposure) : ((dropDuplicates es).map Exposure.id).Nodup := by
  induction es with
  | nil => exact List.nodup_nil
  | cons e es ih =>
    rw [dropDuplicates, List.map_cons, List.nodup_cons]
    constructor
    · intro h
      obtain ⟨e', he', h⟩ := List.mem_map.mp h
      have := (List.mem_filter.mp he').2
      simp [h] at this
    · exact List.Nodup.sublist (List.filter_sublist.map _) ih

theorem dropDuplicates_first (es : List Exposure) (e : Exposure) (h : e ∈ dropDuplicates es) :
    ∃ pre post, es = pre ++ e :: post ∧ ∀ e' ∈ pre, e'.id ≠ e.id := by
  induction es with
  | nil => cases h
  | cons a es ih =>
    rcases List.mem_cons.mp h with rfl | h
    · exact ⟨[], es, rfl, by simp⟩
    · have hf := List.mem_filter.mp h
      obtain ⟨pre, post, h1, h2⟩ := ih hf.1
      refine ⟨a :: pre, post, by rw [h1]; rfl, ?_⟩
      intro e' he'
      rcases List.mem_cons.mp he' with rfl | he'
      · intro hc
        have := hf.2
        simp [hc] at this
      · exact h2 e' he'

theorem dropDuplicates_ids (es : List Exposure) (i : String) (h : i ∈ es.map Exposure.id) :
    i ∈ (dropDuplicates es).map Exposure.id := by
  induction es with
  | nil => cases h
  | cons a es ih =>
    rw [dropDuplicates, List.map_cons]
    by_cases hi : i = a.id
    · rw [hi]; simp
    · rw [List.map_cons] at h
      rcases List.mem_cons.mp h with h | h
      · exact absurd h hi
      · obtain ⟨e, he, rfl⟩ := List.mem_map.mp (ih h)
        exact List.mem_cons_of_mem _ (List.mem_map.mpr ⟨e, List.mem_filter.mpr ⟨he, by simpa using hi⟩, rfl⟩)

theorem forall₂_split {A B : Type} {R : A → B → Prop} {l₁ l₂ : List A} {m : List B} (h : List.Forall₂ R (l₁ ++ l₂) m) :
    ∃ m₁ m₂, List.Forall₂ R l₁ m₁ ∧ List.Forall₂ R l₂ m₂ ∧ m = m₁ ++ m₂ := by
  induction l₁ generalizing m with
  | nil => exact ⟨[], m, .nil, h, rfl⟩
  | cons a l₁ ih =>
    cases h with
    | cons hab h =>
      obtain ⟨m₁, m₂, h1, h2, rfl⟩ := ih h
      exact ⟨_ :: m₁, m₂, .cons hab h1, h2, rfl⟩

/-- The exposures are refused exactly when some row lacks the id, the start, the duration or the filter of its exposure, or lasts
more than an hour. -/
theorem C126_exposures_refused (cat : List Source) : exposures cat = none ↔ ∃ s ∈ cat, ¬ Complete s := by
  have h := allExposures_iff cat
  unfold exposures
  rw [Option.map_eq_none_iff]
  constructor
  · intro hn
    by_contra hc
    have : ∀ s ∈ cat, Complete s := fun s hs => by
      by_contra hx; exact hc ⟨s, hs, hx⟩
    obtain ⟨es, he⟩ := h.mpr this
    rw [he] at hn; cases hn
  · rintro ⟨s, hs, hx⟩
    cases ha : allExposures cat with
    | none => rfl
    | some es => exact absurd (h.mp ⟨es, ha⟩ s hs) hx

/-- Otherwise there is one exposure for every exposure id of the catalogue, it describes the first row with that id, and the
exposures come in the order of those rows. -/
theorem C126_exposures (cat : List Source) (es : List Exposure) (h : exposures cat = some es) :
    (es.map Exposure.id).Nodup ∧ (∀ s ∈ cat, ∃ e ∈ es, s.exposureId = some e.id) ∧
      (∀ e ∈ es, ∃ pre s post, cat = pre ++ s :: post ∧ Describes e s ∧ ∀ s' ∈ pre, s'.exposureId ≠ some e.id) ∧
      ∃ rows, rows.Sublist cat ∧ List.Forall₂ Describes es rows := by
  unfold exposures at h
  obtain ⟨all, h1, rfl⟩ := Option.map_eq_some_iff.mp h
  have hf := allExposures_some cat all h1
  refine ⟨dropDuplicates_nodup all, ?_, ?_, ?_⟩
  · intro s hs
    obtain ⟨e, he, hd⟩ : ∃ e ∈ all, Describes e s := by
      clear h h1
      induction hf with
      | nil => cases hs
      | cons hd _ ih =>
        rcases List.mem_cons.mp hs with rfl | hs
        · exact ⟨_, by simp, hd⟩
        · obtain ⟨e, he, h⟩ := ih hs
          exact ⟨e, by simp [he], h⟩
    obtain ⟨e', he', hid⟩ := List.mem_map.mp (dropDuplicates_ids all e.id (List.mem_map_of_mem he))
    exact ⟨e', he', by rw [hid]; exact hd.1⟩
  · intro e he
    obtain ⟨pre, post, hsplit, hpre⟩ := dropDuplicates_first all e he
    rw [hsplit] at hf
    obtain ⟨pc, rc, h2, h3, hcat⟩ := forall₂_split hf
    cases h3 with
    | cons hd h3 =>
      refine ⟨pc, _, _, hcat, hd, ?_⟩
      intro s' hs' hc
      clear hsplit hcat he hf h1
      induction h2 with
      | nil => cases hs'
      | cons hd' _ ih =>
        rcases List.mem_cons.mp hs' with rfl | hs'
        · exact hpre _ (by simp) (Option.some.inj (hd'.1.symm.trans hc))
        · exact ih (fun e' he' => hpre e' (by simp [he'])) hs'
  · have hsub := dropDuplicates_sublist all
    generalize dropDuplicates all = ds at hsub
    clear h h1
    induction hf generalizing ds with
    | nil => cases hsub; exact ⟨[], .slnil, .nil⟩
    | cons hd _ ih =>
      cases hsub with
      | cons _ hs =>
        obtain ⟨rows, hr, hf⟩ := ih _ hs
        exact ⟨rows, hr.cons _, hf⟩
      | cons_cons _ hs =>
        obtain ⟨rows, hr, hf⟩ := ih _ hs
        exact ⟨_ :: rows, hr.cons_cons _, .cons hd hf⟩

/-- Rows that disagree about one exposure are not noticed: the observatory of the first row is taken for both. -/
theorem C126_exposures_conflict (a b : Source) (i f : String) (t : Time.Row) (d : ℚ) (hd : 0 ≤ d ∧ d ≤ 3600)
    (ha : a.exposureId = some i ∧ a.start = some t ∧ a.duration = some d ∧ a.filter = some f)
    (hb : b.exposureId = some i ∧ b.start = some t ∧ b.duration = some d ∧ b.filter = some f) :
    exposures [a, b] = some [⟨i, t, d, f, a.code⟩] := by
  have h1 : exposureOf a = some ⟨i, t, d, f, a.code⟩ := by
    unfold exposureOf; rw [ha.1, ha.2.1, ha.2.2.1, ha.2.2.2]; simp [hd]
  have h2 : exposureOf b = some ⟨i, t, d, f, b.code⟩ := by
    unfold exposureOf; rw [hb.1, hb.2.1, hb.2.2.1, hb.2.2.2]; simp [hd]
  simp [exposures, allExposures, h1, h2, dropDuplicates]

/-- The covariance of the position on the sky, in square degrees, for known standard deviations in arcseconds and a known
correlation. The block is a covariance: its quadratic form is never negative, because the catalogue only takes correlations
between −1 and 1; for any other correlation it would not be. -/
theorem C126_covariance (s : Source) (a d c : ℝ) (ha : s.raSigma = .num a) (hd : s.decSigma = .num d)
    (hc : s.corr = .num c) :
    covariance s 1 1 = some ((a / 3600) ^ 2) ∧ covariance s 2 2 = some ((d / 3600) ^ 2) ∧
      covariance s 1 2 = some (c * (a / 3600) * (d / 3600)) ∧ covariance s 2 1 = covariance s 1 2 ∧
      (a ≠ 0 → d ≠ 0 →
        ((∀ u w : ℝ, 0 ≤ (a / 3600) ^ 2 * u ^ 2 + 2 * (c * (a / 3600) * (d / 3600)) * u * w + (d / 3600) ^ 2 * w ^ 2) ↔
          -1 ≤ c ∧ c ≤ 1)) := by
  have e : ∀ i j : Fin 6, covariance s i j = if i = 1 ∧ j = 1 then some ((a / 3600) ^ 2)
      else if i = 2 ∧ j = 2 then some ((d / 3600) ^ 2)
      else if (i = 1 ∧ j = 2) ∨ (i = 2 ∧ j = 1) then some (c * (a / 3600) * (d / 3600)) else none := by
    intro i j
    unfold covariance
    simp only [ha, hd, hc, Cell.value, Option.map_some, Option.bind_some]
  refine ⟨by rw [e]; simp, by rw [e]; simp, by rw [e]; simp, by rw [e, e]; simp, ?_⟩
  intro ha0 hd0
  have hp : a / 3600 ≠ 0 := by positivity
  have hq : d / 3600 ≠ 0 := by positivity
  generalize a / 3600 = p at *
  generalize d / 3600 = q at *
  constructor
  · intro h
    have h1 := h (1 / p) (1 / q)
    have h2 := h (1 / p) (-(1 / q))
    have e1 : p ^ 2 * (1 / p) ^ 2 + 2 * (c * p * q) * (1 / p) * (1 / q) + q ^ 2 * (1 / q) ^ 2 = 2 + 2 * c := by
      field_simp; ring
    have e2 : p ^ 2 * (1 / p) ^ 2 + 2 * (c * p * q) * (1 / p) * (-(1 / q)) + q ^ 2 * (-(1 / q)) ^ 2 = 2 - 2 * c := by
      field_simp; ring
    rw [e1] at h1
    rw [e2] at h2
    constructor <;> linarith
  · rintro ⟨h1, h2⟩ u w
    have : p ^ 2 * u ^ 2 + 2 * (c * p * q) * u * w + q ^ 2 * w ^ 2 =
        (p * u + c * (q * w)) ^ 2 + (1 - c ^ 2) * (q * w) ^ 2 := by ring
    rw [this]
    have : 0 ≤ 1 - c ^ 2 := by nlinarith
    positivity

/-- Everything else is missing: the other entries always, and an entry with a missing standard deviation or a missing
correlation. -/
theorem C126_covariance_missing (s : Source) :
    (∀ i j : Fin 6, (i ≠ 1 ∧ i ≠ 2) ∨ (j ≠ 1 ∧ j ≠ 2) → covariance s i j = none) ∧
      (covariance s 1 1 = none ↔ s.raSigma.value = none) ∧ (covariance s 2 2 = none ↔ s.decSigma.value = none) ∧
      (covariance s 1 2 = none ↔ s.raSigma.value = none ∨ s.decSigma.value = none ∨ s.corr.value = none) := by
  refine ⟨?_, ?_, ?_, ?_⟩
  · intro i j h
    unfold covariance
    rw [if_neg, if_neg, if_neg]
    · rintro (⟨rfl, rfl⟩ | ⟨rfl, rfl⟩) <;> simp at h
    · rintro ⟨rfl, rfl⟩; simp at h
    · rintro ⟨rfl, rfl⟩; simp at h
  · simp [covariance]
  · simp [covariance]
  · simp only [covariance]
    cases s.raSigma.value <;> cases s.decSigma.value <;> cases s.corr.value <;> simp

/-- Both ways of computing the middle of an exposure give the same times. -/
theorem C126_midpoints_agree (start : TS) (ds : List ℚ) : sourceMidpoints start ds = midpoints start ds := by
  unfold sourceMidpoints midpoints TS.addSeconds
  simp only [Arg.map, List.map_map]
  congr 2

theorem round_bounds (x : ℚ) : |(roundHalfEven x : ℚ) - x| ≤ 1 / 2 := by
  unfold roundHalfEven
  have h1 := Int.floor_le x
  have h2 := Int.lt_floor_add_one x
  simp only
  split_ifs with h3 h4 h5 <;> rw [abs_le] <;> push_cast <;> constructor <;> linarith

/-- For exposures of at most an hour the middle is never refused and is within half a nanosecond of the true one. -/
theorem C126_midpoints (start : TS) (ds : List ℚ) (hn : NormalTS start) (hlen : ds.length = start.rows.length)
    (h0 : ds ≠ []) (hd : ∀ d ∈ ds, 0 ≤ d ∧ d ≤ 3600) :
    ∃ mid, sourceMidpoints start ds = .ok mid ∧ mid.scale = start.scale ∧ mid.rows.length = start.rows.length ∧
      ∀ (i : Nat) (r m : Time.Row) (d : ℚ), start.rows[i]? = some r → mid.rows[i]? = some m → ds[i]? = some d →
        |((instant m - instant r : Int) : ℚ) - d / 2 * 10 ^ 9| ≤ 1 / 2 := by
  obtain ⟨mid, h1, h2, h3, _, h4⟩ := Time.Props.C01_add_nanos_exact start
    (.array (ds.map fun d => roundHalfEven (d / 2 * 10 ^ 9))) hn (by
      intro as h; cases h; simpa using ⟨hlen, h0⟩) (by
      intro i v hv
      simp only [argAt, List.getElem?_map, Option.map_eq_some_iff] at hv
      obtain ⟨d, hdi, rfl⟩ := hv
      obtain ⟨h0, h1⟩ := hd d (List.mem_of_getElem? hdi)
      have hb := abs_le.mp (round_bounds (d / 2 * 10 ^ 9))
      have hl : (-1 : ℚ) < (roundHalfEven (d / 2 * 10 ^ 9) : ℚ) := by nlinarith
      have hu : (roundHalfEven (d / 2 * 10 ^ 9) : ℚ) < 3600000000000 := by nlinarith
      have hl' : (-1 : Int) < roundHalfEven (d / 2 * 10 ^ 9) := by exact_mod_cast hl
      have hu' : roundHalfEven (d / 2 * 10 ^ 9) < 3600000000000 := by exact_mod_cast hu
      unfold DAY
      omega)
  refine ⟨mid, h1, h2, h3, ?_⟩
  intro i r m d hr hm hdi
  obtain ⟨v, hv, hi⟩ := h4 i r m hr hm
  simp only [argAt, List.getElem?_map, hdi, Option.map_some, Option.some.injEq] at hv
  rw [hi, ← hv]
  have : instant r + roundHalfEven (d / 2 * 10 ^ 9) - instant r = roundHalfEven (d / 2 * 10 ^ 9) := by ring
  rw [this]
  exact round_bounds _

/-- C126. Not so for no exposures at all: the middle of none is refused. -/
theorem C126_midpoints_empty_false (start : TS) : sourceMidpoints start [] = .error .valueError ∧ midpoints start [] = .error .valueError :=
  ⟨rfl, rfl⟩

/-- A catalogue may hold longer exposures; from two days on the middle is refused. -/
theorem C126_midpoints_refused (start : TS) (ds : List ℚ) (d : ℚ) (hd : d ∈ ds) (h : 172800 ≤ d) :
    sourceMidpoints start ds = .error .valueError := by
  obtain ⟨i, hi⟩ := List.mem_iff_getElem?.mp hd
  apply Time.Props.C01_add_nanos_rejects start _ i (roundHalfEven (d / 2 * 10 ^ 9))
  · simp [argAt, List.getElem?_map, hi]
  · right
    have hb := abs_le.mp (round_bounds (d / 2 * 10 ^ 9))
    have : (86399999999999 : ℚ) < (roundHalfEven (d / 2 * 10 ^ 9) : ℚ) := by nlinarith
    have : 86399999999999 < roundHalfEven (d / 2 * 10 ^ 9) := by exact_mod_cast this
    unfold DAY; omega

/-- A source with all columns, and one without a correlation. -/
theorem C126_case : let s : Source := ⟨"a", some "e", .num 3600, .num 7200, .num (1 / 2), .num 20, "X05", some "r",
      some ⟨60000, 0⟩, some 30, none⟩
    exposures [s] = some [⟨"e", ⟨60000, 0⟩, 30, "r", "X05"⟩] ∧ covariance s 1 2 = some 1 ∧
      covariance { s with corr := .null } 1 2 = none ∧ covariance { s with corr := .null } 1 1 = some 1 := by
  refine ⟨by norm_num [exposures, allExposures, exposureOf, dropDuplicates], ?_, ?_, ?_⟩
  · simp [covariance, Cell.value]; norm_num
  · simp [covariance, Cell.value]
  · simp [covariance, Cell.value]

end Verif.Catalog.Props
