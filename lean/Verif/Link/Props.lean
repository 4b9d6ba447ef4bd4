import Mathlib.Data.List.Dedup
import Verif.Link.Model
import Verif.Catalog.Props

/-! # C127: links between ephemerides and observers -/

namespace Verif.Link.Props

open Verif Verif.Sched Verif.Time Verif.Time.Spec

variable {C : Type} [DecidableEq C]

/-- The observers with their times in the scale of the ephemeris. -/
def converted (conv : Option (Time.Row → Time.Row)) (obs : List (Tagged C)) : List (Tagged C) :=
  match conv with
  | none => obs
  | some f => obs.map fun o => { o with time := f o.time }

/-- Every time is normalised. -/
def Normals (l : List (Tagged C)) : Prop := ∀ r ∈ l, Normal r.time

/-- Same code, and times in the same interval of length `u` counted from the beginning of time. -/
def SameSlot (u : Int) (a b : Tagged C) : Prop := a.code = b.code ∧ instant a.time / u = instant b.time / u

theorem precision_unit {p : String} {u : Int} (h : unit p = some u) : precisionOk p = true ∧ 0 < u := by
  unfold unit at h
  split at h <;> first | (cases h; decide) | cases h

theorem precision_none {p : String} (h : unit p = none) : precisionOk p = false := by
  by_contra hc
  rw [Bool.not_eq_false] at hc
  unfold precisionOk at hc
  simp only [Bool.or_eq_true, decide_eq_true_eq] at hc
  rcases hc with ((rfl | rfl) | rfl) | rfl <;> cases h

theorem floor_eq {u q x : Int} (hu : 0 < u) (hd : u ∣ q) (h1 : q ≤ x) (h2 : x < q + u) : q = u * (x / u) := by
  obtain ⟨k, rfl⟩ := hd
  have h3 : k ≤ x / u := (Int.le_ediv_iff_mul_le hu).mpr (by rw [mul_comm]; exact h1)
  have h4 : x / u < k + 1 := (Int.ediv_lt_iff_lt_mul hu).mpr (by rw [mul_comm, mul_add, mul_one]; exact h2)
  rw [show x / u = k by omega]

theorem instant_inj {a b : Time.Row} (ha : Normal a) (hb : Normal b) (h : instant a = instant b) : a = b := by
  obtain ⟨a1, a2⟩ := ha
  obtain ⟨b1, b2⟩ := hb
  unfold instant DAY at *
  have : a.days = b.days := by omega
  have : a.nanos = b.nanos := by omega
  cases a; cases b; simp_all

omit [DecidableEq C] in
theorem keyOf_iff {p : String} {u : Int} (hu : unit p = some u) {a b : Tagged C} (ha : Normal a.time) (hb : Normal b.time) :
    keyOf p a = keyOf p b ↔ SameSlot u a b := by
  obtain ⟨hp, hpos⟩ := precision_unit hu
  obtain ⟨ta, hta⟩ := rounded_isSome (r := a.time) hp
  obtain ⟨tb, htb⟩ := rounded_isSome (r := b.time) hp
  obtain ⟨na, da, u1, hu1, _, dv1, l1, l2⟩ := rounded_row ha hta
  obtain ⟨nb, db, u2, hu2, _, dv2, m1, m2⟩ := rounded_row hb htb
  rw [hu] at hu1 hu2
  cases hu1
  cases hu2
  have fa := floor_eq hpos dv1 l1 l2
  have fb := floor_eq hpos dv2 m1 m2
  unfold keyOf SameSlot
  rw [hta, htb]
  simp only [Option.map_some, Option.some.injEq, Tagged.mk.injEq]
  constructor
  · rintro ⟨rfl, hc⟩
    refine ⟨hc, ?_⟩
    rw [fa] at fb
    exact Int.eq_of_mul_eq_mul_left hpos.ne' fb
  · rintro ⟨hc, hq⟩
    refine ⟨instant_inj na nb ?_, hc⟩
    rw [fa, fb, hq]

omit [DecidableEq C] in
theorem keyOf_some {p : String} (hp : precisionOk p = true) (a : Tagged C) : ∃ k, keyOf p a = some k := by
  obtain ⟨t, ht⟩ := rounded_isSome (r := a.time) hp
  exact ⟨_, by unfold keyOf; rw [ht]; rfl⟩

theorem linkage_mem {p : String} {l r : List (Tagged C)} {e : Entry C} (h : e ∈ linkage p l r) :
    e.left = l.filter (fun a => decide (keyOf p a = some e.key)) ∧
      e.right = r.filter fun a => decide (keyOf p a = some e.key) := by
  unfold linkage at h
  obtain ⟨k, _, rfl⟩ := List.mem_map.mp h
  exact ⟨rfl, rfl⟩

theorem linkage_key {p : String} {l r : List (Tagged C)} {a k : Tagged C} (h : a ∈ l ∨ a ∈ r) (hk : keyOf p a = some k) :
    ∃ e ∈ linkage p l r, e.key = k := by
  refine ⟨_, List.mem_map.mpr ⟨k, ?_, rfl⟩, rfl⟩
  rw [mem_uniq, List.mem_append, List.mem_filterMap, List.mem_filterMap]
  rcases h with h | h
  · exact Or.inl ⟨a, h, hk⟩
  · exact Or.inr ⟨a, h, hk⟩

theorem lefts_perm {p : String} (hp : precisionOk p = true) (l r : List (Tagged C)) :
    ((linkage p l r).map Entry.left).flatten.Perm l ∧ ((linkage p l r).map Entry.right).flatten.Perm r := by
  have hinj : ∀ (ks : List (Tagged C)), ks.Nodup → (ks.map some).Nodup := fun ks h => h.map (Option.some_injective _)
  have hn := hinj _ (nodup_uniq (l.filterMap (keyOf p) ++ r.filterMap (keyOf p)))
  have hmem : ∀ a, a ∈ l ∨ a ∈ r → keyOf p a ∈ (uniq (l.filterMap (keyOf p) ++ r.filterMap (keyOf p))).map some := by
    intro a ha
    obtain ⟨k, hk⟩ := keyOf_some hp a
    rw [hk]
    apply List.mem_map_of_mem
    rw [mem_uniq, List.mem_append, List.mem_filterMap, List.mem_filterMap]
    rcases ha with h | h
    · exact Or.inl ⟨a, h, hk⟩
    · exact Or.inr ⟨a, h, hk⟩
  constructor
  · have := Catalog.Props.groups_all (keyOf p) _ hn l fun a ha => hmem a (Or.inl ha)
    rw [List.map_map] at this
    unfold linkage
    rw [List.map_map]
    exact this
  · have := Catalog.Props.groups_all (keyOf p) _ hn r fun a ha => hmem a (Or.inr ha)
    rw [List.map_map] at this
    unfold linkage
    rw [List.map_map]
    exact this

theorem warn_iff {p : String} (hp : precisionOk p = true) (eph os : List (Tagged C))
    (hall : ∀ e ∈ linkage p eph os, e.right ≠ []) :
    (uniq os).length ≠ (linkage p eph os).length ↔ ∃ a ∈ os, ∃ b ∈ os, a ≠ b ∧ keyOf p a = keyOf p b := by
  -- the keys are those of the observers
  have hkeys : ∀ k, k ∈ (linkage p eph os).map Entry.key ↔ ∃ o ∈ uniq os, keyOf p o = some k := by
    intro k
    constructor
    · intro hk
      obtain ⟨e, he, rfl⟩ := List.mem_map.mp hk
      obtain ⟨o, ho⟩ := List.exists_mem_of_ne_nil _ (hall e he)
      rw [(linkage_mem he).2, List.mem_filter] at ho
      exact ⟨o, (mem_uniq _ _).mpr ho.1, of_decide_eq_true ho.2⟩
    · rintro ⟨o, ho, hk⟩
      obtain ⟨e, he, rfl⟩ := linkage_key (l := eph) (Or.inr ((mem_uniq _ _).mp ho)) hk
      exact List.mem_map_of_mem he
  have hnod : ((linkage p eph os).map Entry.key).Nodup := by
    unfold linkage
    rw [List.map_map]
    have := nodup_uniq (eph.filterMap (keyOf p) ++ os.filterMap (keyOf p))
    rwa [← List.map_id (uniq _)] at this
  have hlen : (linkage p eph os).length = ((uniq os).map (keyOf p)).dedup.length := by
    rw [← List.length_map (f := fun e : Entry C => some e.key)]
    apply List.Perm.length_eq
    rw [List.perm_ext_iff_of_nodup]
    · intro k
      rw [List.mem_dedup, List.mem_map, List.mem_map]
      constructor
      · rintro ⟨e, he, rfl⟩
        exact (hkeys e.key).mp (List.mem_map_of_mem he)
      · rintro ⟨o, ho, rfl⟩
        obtain ⟨k, hk⟩ := keyOf_some hp o
        obtain ⟨e, he, hek⟩ := List.mem_map.mp ((hkeys k).mpr ⟨o, ho, hk⟩)
        exact ⟨e, he, by rw [hk, hek]⟩
    · have := hnod.map (Option.some_injective _)
      rwa [List.map_map] at this
    · exact List.nodup_dedup _
  rw [hlen]
  have hu := nodup_uniq os
  constructor
  · intro hne
    by_contra hc
    apply hne
    have hnd : ((uniq os).map (keyOf p)).Nodup := by
      apply List.Nodup.map_on _ hu
      intro a ha b hb hk
      by_contra hab
      exact hc ⟨a, (mem_uniq _ _).mp ha, b, (mem_uniq _ _).mp hb, hab, hk⟩
    rw [hnd.dedup, List.length_map]
  · rintro ⟨a, ha, b, hb, hab, hk⟩ heq
    have hsub := List.dedup_sublist ((uniq os).map (keyOf p))
    have := hsub.eq_of_length (by rw [← heq, List.length_map])
    have hnd : ((uniq os).map (keyOf p)).Nodup := by rw [← this]; exact List.nodup_dedup _
    exact hab (List.inj_on_of_nodup_map hnd ((mem_uniq _ _).mpr ha) ((mem_uniq _ _).mpr hb) hk)

/-! ## C127 -/

/-- An unknown precision is refused, and nothing else is. -/
theorem C127_refuses (p : String) (conv : Option (Time.Row → Time.Row)) (eph obs : List (Tagged C)) (e : PyErr) :
    linkToObservers p conv eph obs = .error e ↔ e = .valueError ∧ unit p = none := by
  unfold linkToObservers
  simp only
  cases hu : unit p with
  | none =>
    rw [precision_none hu]
    simp [eq_comm]
  | some u =>
    rw [(precision_unit hu).1]
    simp

/-- Every row of either table is in exactly one entry. -/
theorem C127_every_row_once (p : String) (conv : Option (Time.Row → Time.Row)) (eph obs : List (Tagged C))
    (l : List (Entry C)) (w : Bool) (h : linkToObservers p conv eph obs = .ok (l, w)) :
    (l.map Entry.left).flatten.Perm eph ∧ (l.map Entry.right).flatten.Perm (converted conv obs) ∧
      (l.map Entry.key).Nodup := by
  unfold linkToObservers at h
  simp only at h
  split at h
  · next hp =>
    cases h
    obtain ⟨h1, h2⟩ := lefts_perm hp eph (converted conv obs)
    refine ⟨h1, h2, ?_⟩
    unfold linkage
    rw [List.map_map]
    have := nodup_uniq (eph.filterMap (keyOf p) ++ (converted conv obs).filterMap (keyOf p))
    rwa [← List.map_id (uniq _)] at this
  · cases h

/-- A row of the ephemeris and an observer are in the same entry exactly when the code is the same and the two times, in the
scale of the ephemeris, lie in the same interval of the length of the precision: the times are cut off, not rounded. -/
theorem C127_linked (p : String) (u : Int) (hu : unit p = some u) (conv : Option (Time.Row → Time.Row))
    (eph obs : List (Tagged C)) (he : Normals eph) (ho : Normals (converted conv obs)) (l : List (Entry C)) (w : Bool)
    (h : linkToObservers p conv eph obs = .ok (l, w)) (a o : Tagged C) (ha : a ∈ eph) (hoo : o ∈ converted conv obs) :
    (∃ e ∈ l, a ∈ e.left ∧ o ∈ e.right) ↔ SameSlot u a o := by
  unfold linkToObservers at h
  simp only at h
  split at h
  · next hp =>
    cases h
    rw [← keyOf_iff hu (he a ha) (ho o hoo)]
    constructor
    · rintro ⟨e, hel, h1, h2⟩
      obtain ⟨hl, hr⟩ := linkage_mem hel
      rw [hl] at h1
      rw [hr] at h2
      rw [of_decide_eq_true (List.mem_filter.mp h1).2, of_decide_eq_true (List.mem_filter.mp h2).2]
    · intro hk
      obtain ⟨k, hka⟩ := keyOf_some hp a
      obtain ⟨e, hel, rfl⟩ := linkage_key (r := converted conv obs) (Or.inl ha) hka
      obtain ⟨hl, hr⟩ := linkage_mem hel
      refine ⟨e, hel, ?_, ?_⟩
      · rw [hl]; exact List.mem_filter.mpr ⟨ha, decide_eq_true hka⟩
      · rw [hr]; exact List.mem_filter.mpr ⟨hoo, decide_eq_true (hk ▸ hka)⟩
  · cases h

omit [DecidableEq C] in
/-- Linked rows are less than the precision apart. -/
theorem C127_close (u : Int) (hu : 0 < u) (a b : Tagged C) (h : SameSlot u a b) :
    |instant a.time - instant b.time| < u := by
  have h1 := Int.emod_add_mul_ediv (instant a.time) u
  have h2 := Int.emod_add_mul_ediv (instant b.time) u
  have := Int.emod_nonneg (instant a.time) hu.ne'
  have := Int.emod_nonneg (instant b.time) hu.ne'
  have := Int.emod_lt_of_pos (instant a.time) hu
  have := Int.emod_lt_of_pos (instant b.time) hu
  have h := h.2
  rw [h] at h1
  rw [abs_lt]
  constructor <;> linarith

omit [DecidableEq C] in
/-- The converse fails at every precision: a nanosecond before a whole second is not linked with that second. -/
theorem C127_boundary (p : String) (u : Int) (hu : unit p = some u) (c : C) (d s : Int) (h0 : 0 < s) (h1 : s < 86400) :
    let a : Tagged C := ⟨⟨d, s * 10 ^ 9 - 1⟩, c⟩
    let b : Tagged C := ⟨⟨d, s * 10 ^ 9⟩, c⟩
    Normal a.time ∧ Normal b.time ∧ instant b.time - instant a.time = 1 ∧ ¬ SameSlot u a b := by
  refine ⟨⟨?_, ?_⟩, ⟨?_, ?_⟩, by simp [instant], ?_⟩ <;> try (simp only [DAY]; omega)
  rintro ⟨_, h⟩
  unfold unit at hu
  split at hu <;> first | (cases hu; simp only [instant, DAY] at h; omega) | cases hu

/-- If every row of the ephemeris has an observer in its entry, the warning is issued exactly when the precision does not tell
two different observers apart. -/
theorem C127_warning (p : String) (conv : Option (Time.Row → Time.Row)) (eph obs : List (Tagged C))
    (l : List (Entry C)) (w : Bool) (h : linkToObservers p conv eph obs = .ok (l, w))
    (hall : ∀ e ∈ l, e.right ≠ []) :
    w = true ↔ ∃ a ∈ converted conv obs, ∃ b ∈ converted conv obs, a ≠ b ∧ keyOf p a = keyOf p b := by
  unfold linkToObservers at h
  simp only at h
  split at h
  · next hp =>
    cases h
    rw [decide_eq_true_eq]
    exact warn_iff hp eph (converted conv obs) hall
  · cases h

/-- A row of the ephemeris without an observer can hide the warning: two observers fall together, one key is foreign. -/
theorem C127_warning_hidden :
    (linkToObservers (C := String) "s" none [⟨⟨0, 0⟩, "X"⟩, ⟨⟨5, 0⟩, "X"⟩] [⟨⟨0, 0⟩, "X"⟩, ⟨⟨0, 7⟩, "X"⟩]).map Prod.snd =
      .ok false := by
  decide +kernel

/-- `Timestamp.link` is the same without codes. -/
theorem C127_times (p : String) (conv : Option (Time.Row → Time.Row)) (a b : List Time.Row) :
    link p conv a b = (linkToObservers p conv (a.map fun t => ⟨t, ()⟩) (b.map fun t => ⟨t, ()⟩)).map Prod.fst := by
  unfold link linkToObservers
  cases conv with
  | none => simp only; split <;> rfl
  | some f =>
    simp only [List.map_map]
    split <;> rfl

/-- Two observers, the ephemeris a few nanoseconds off. -/
theorem C127_case : ((linkToObservers (C := String) "us" none [⟨⟨0, 3⟩, "X"⟩, ⟨⟨0, 5001⟩, "Y"⟩]
      [⟨⟨0, 0⟩, "X"⟩, ⟨⟨0, 5000⟩, "Y"⟩]).map fun r => (r.1.map fun e => (e.left, e.right), r.2)) =
    .ok ([([⟨⟨0, 3⟩, "X"⟩], [⟨⟨0, 0⟩, "X"⟩]), ([⟨⟨0, 5001⟩, "Y"⟩], [⟨⟨0, 5000⟩, "Y"⟩])], false) := by
  decide +kernel

end Verif.Link.Props
