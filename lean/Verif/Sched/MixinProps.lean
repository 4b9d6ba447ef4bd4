import Verif.Sched.OrbitProps
import Mathlib.Data.List.Pairwise

/-! # The generic ephemeris generator: pairing of orbits and observers -/

namespace Verif.Sched.Props

open Verif Spec

set_option linter.unusedSectionVars false

section
variable {I O S X C Y Z : Type} [LinearOrder I] [DecidableEq O]

theorem zipWith_flatMap_tile {α β γ δ : Type} (h : γ → β → δ) (g : α → β → γ) (os : List α) (bs : List β) :
    List.zipWith h (os.flatMap fun o => bs.map (g o)) (npTile bs os.length) =
      os.flatMap fun o => bs.map fun b => h (g o b) b := by
  induction os with
  | nil => simp [npTile]
  | cons o os ih =>
    have h2 : npTile bs (o :: os).length = bs ++ npTile bs os.length := by
      simp [npTile, List.replicate_succ]
    rw [h2, List.flatMap_cons, List.flatMap_cons, List.zipWith_append (by simp), ih]
    congr 1
    have := zipWith_map_same h (g o) id bs
    rwa [List.map_id] at this

/-- The orbit part of the sort key. -/
def orbKey (isVar : Bool) (o : Orb I O S) : I ×ₗ WithTop I := toLex (o.id, if isVar then o.variant else ⊤)

omit [DecidableEq O] in
theorem orbKey_eq (isVar : Bool) (a b : Orb I O S) :
    orbKey isVar a = orbKey isVar b ↔ a.id = b.id ∧ (isVar = true → a.variant = b.variant) := by
  unfold orbKey
  rw [toLex_inj, Prod.mk.injEq]
  cases isVar <;> simp

omit [DecidableEq O] in
theorem rowKey_split (isVar : Bool) (a b : Orb I O S) (r s : Row I X C) (hr : r.id = a.id) (hrv : r.variant = a.variant)
    (hs : s.id = b.id) (hsv : s.variant = b.variant) :
    (orbKey isVar a < orbKey isVar b → rowKey isVar r ≤ rowKey isVar s) ∧
    (orbKey isVar a = orbKey isVar b → r.time ≤ s.time → rowKey isVar r ≤ rowKey isVar s) := by
  unfold orbKey rowKey
  rw [hr, hrv, hs, hsv]
  constructor
  · intro h
    rw [Prod.Lex.toLex_lt_toLex] at h
    rw [Prod.Lex.toLex_le_toLex]
    rcases h with h | ⟨h1, h2⟩
    · exact .inl h
    · refine .inr ⟨h1, ?_⟩
      rw [Prod.Lex.toLex_le_toLex]
      exact .inl h2
  · intro h ht
    rw [toLex_inj, Prod.mk.injEq] at h
    rw [Prod.Lex.toLex_le_toLex]
    refine .inr ⟨h.1, ?_⟩
    rw [Prod.Lex.toLex_le_toLex]
    exact .inr ⟨h.2, ht⟩

omit [DecidableEq O] in
theorem ephKey_split (isVar : Bool) (a b : Orb I O S) (r s : Eph I Z) (hr : r.id = a.id) (hrv : r.variant = a.variant)
    (hs : s.id = b.id) (hsv : s.variant = b.variant) :
    (orbKey isVar a < orbKey isVar b → ephKey isVar r ≤ ephKey isVar s) ∧
    (orbKey isVar a = orbKey isVar b → toLex (r.time, r.code) ≤ toLex (s.time, s.code) →
      ephKey isVar r ≤ ephKey isVar s) := by
  unfold orbKey ephKey
  rw [hr, hrv, hs, hsv]
  constructor
  · intro h
    rw [Prod.Lex.toLex_lt_toLex] at h
    rw [Prod.Lex.toLex_le_toLex]
    rcases h with h | ⟨h1, h2⟩
    · exact .inl h
    · refine .inr ⟨h1, ?_⟩
      rw [Prod.Lex.toLex_le_toLex]
      exact .inl h2
  · intro h ht
    rw [toLex_inj, Prod.mk.injEq] at h
    rw [Prod.Lex.toLex_le_toLex]
    refine .inr ⟨h.1, ?_⟩
    rw [Prod.Lex.toLex_le_toLex]
    exact .inr ⟨h.2, ht⟩

/-- With distinct orbit ids (variant ids within an orbit for variants), the generic ephemeris generator returns one row per
orbit and observer; the row is computed from that orbit propagated to that observer's time and from that observer, and
carries the ids of the orbit and the time and code of the observer. The rows are sorted by orbit id, (variant id,) time
and code. Several observers may share a time. -/
theorem C78_pairing (E : Engine I O S X C) (good : Orb I O S → Prop) (f : Orb I O S → (ℤ ×ₗ ℤ) → Row I X C)
    (hI : Independent E.backend good f)
    (hid : ∀ o t c, (f o t).id = o.id ∧ (E.rescale (f o t)).id = o.id ∧ (E.toOrigin c (E.rescale (f o t))).id = o.id)
    (hvar : ∀ o t c, (E.toOrigin c (E.rescale (f o t))).variant = o.variant)
    (htime : ∀ o t c, (E.toOrigin c (E.rescale (f o t))).time = t)
    (hre : ∀ r, (E.rescale r).id = r.id) (eph : Row I X C → Obs I Y → Z) (isVar : Bool) (orbits : List (Orb I O S))
    (observers : List (Obs I Y)) (hne : orbits ≠ []) (hg : ∀ o ∈ orbits, good o)
    (hcons : ∀ a ∈ orbits, ∀ b ∈ orbits, a.id = b.id → a.origin = b.origin)
    (hdist : orbits.Pairwise fun a b => ¬ (a.id = b.id ∧ (isVar = true → a.variant = b.variant))) :
    ∃ rows, mixinEphemeris E eph isVar orbits observers = .ok rows ∧
      rows.Perm (orbits.flatMap fun o => observers.map fun b =>
        ⟨o.id, o.variant, b.time, b.code, eph (E.toOrigin o.origin (E.rescale (f o b.time))) b⟩) ∧
      rows.Pairwise (EphLe isVar) := by
  have hdist' : ∀ a ∈ orbits, ∀ b ∈ orbits, a.id = b.id → (isVar = true → a.variant = b.variant) → a = b := by
    intro a ha b hb h1 h2
    by_contra hne
    have hsym : Std.Symm fun a b : Orb I O S => ¬ (a.id = b.id ∧ (isVar = true → a.variant = b.variant)) :=
      ⟨fun a b h ⟨h1, h2⟩ => h ⟨h1.symm, fun hv => (h2 hv).symm⟩⟩
    exact hdist.forall ha hb hne ⟨h1, h2⟩
  let final : Orb I O S → (ℤ ×ₗ ℤ) → Row I X C := fun o t => E.toOrigin o.origin (E.rescale (f o t))
  let obs := sortObservers observers
  let os := sortBy (orbKey isVar) orbits
  have hobs : obs.Perm observers := sortBy_perm _ _
  have hos : os.Perm orbits := sortBy_perm _ _
  have hobss : obs.Pairwise fun a b => toLex (a.time, a.code) ≤ toLex (b.time, b.code) := sortBy_sorted _ _
  have hoss : os.Pairwise fun a b => orbKey isVar a < orbKey isVar b := by
    have h1 : os.Pairwise fun a b => orbKey isVar a ≤ orbKey isVar b := sortBy_sorted _ _
    have h2 : os.Pairwise fun a b => ¬ (a.id = b.id ∧ (isVar = true → a.variant = b.variant)) :=
      hos.pairwise_iff (fun {a b} h ⟨h1, h2⟩ => h ⟨h1.symm, fun hv => (h2 hv).symm⟩) |>.mpr hdist
    refine (h1.and h2).imp ?_
    rintro a b ⟨hle, hn⟩
    exact lt_of_le_of_ne hle fun h => hn ((orbKey_eq isVar a b).mp h)
  obtain ⟨table, hp, hs, hall⟩ := C25_distinct_ids E good f hI hid hvar htime hre isVar orbits (obs.map Obs.time) hne hg
    hcons hdist'
  have htable : table = os.flatMap fun o => obs.map fun b => final o b.time := by
    refine eq_of_sorted (rowKey isVar) ?_ ?_ (hs.imp fun h => (rowKey_le isVar _ _).mpr h) ?_
    · refine hp.trans ?_
      refine (List.Perm.flatMap_right _ hos.symm).trans ?_
      refine List.Perm.of_eq ?_
      congr 1
      funext o
      rw [List.map_map]
      rfl
    · intro a ha b hb hab
      have ha := hp.mem_iff.mp ha
      have hb := hp.mem_iff.mp hb
      obtain ⟨o, ho, ha⟩ := List.mem_flatMap.mp ha
      obtain ⟨t, _, rfl⟩ := List.mem_map.mp ha
      obtain ⟨o', ho', hb⟩ := List.mem_flatMap.mp hb
      obtain ⟨t', _, rfl⟩ := List.mem_map.mp hb
      obtain ⟨h1, h2, h3⟩ := (rowKey_eq isVar _ _).mp hab
      rw [(hid o t _).2.2, (hid o' t' _).2.2] at h1
      rw [hvar, hvar] at h2
      rw [htime, htime] at h3
      rw [hdist' o ho o' ho' h1 h2, h3]
    · rw [List.pairwise_flatMap]
      constructor
      · intro o _
        rw [List.pairwise_map]
        refine hobss.imp ?_
        intro a b hab
        refine (rowKey_split isVar o o _ _ (hid o _ _).2.2 (hvar o _ _) (hid o _ _).2.2 (hvar o _ _)).2 rfl ?_
        simp only [htime]
        rw [Prod.Lex.toLex_le_toLex] at hab
        rcases hab with h | h
        · exact le_of_lt h
        · exact le_of_eq h.1
      · refine hoss.imp ?_
        intro a b hab r hr s hs
        obtain ⟨x, _, rfl⟩ := List.mem_map.mp hr
        obtain ⟨y, _, rfl⟩ := List.mem_map.mp hs
        exact (rowKey_split isVar a b _ _ (hid a _ _).2.2 (hvar a _ _) (hid b _ _).2.2 (hvar b _ _)).1 hab
  have hlen : os.length = orbits.length := hos.length_eq
  unfold mixinEphemeris
  simp only
  rw [hall (fun _ => 0) 100 1 (by decide)]
  simp only
  have hl : table.length = (npTile (sortObservers observers) orbits.length).length := by
    rw [hp.length_eq, length_tile]
    simp only [List.length_flatMap, List.length_map, List.map_const', List.sum_replicate_nat]
    rfl
  rw [if_pos hl]
  refine ⟨_, rfl, ?_, ?_⟩
  · rw [htable, ← hlen, zipWith_flatMap_tile]
    refine (List.Perm.flatMap_right _ hos).trans ?_
    apply List.Perm.flatMap_left
    intro o _
    refine (hobs.map _).trans ?_
    refine List.Perm.of_eq ?_
    apply List.map_congr_left
    intro b _
    simp only [final, (hid o _ _).2.2, hvar]
  · rw [htable, ← hlen, zipWith_flatMap_tile, List.pairwise_flatMap]
    constructor
    · intro o _
      rw [List.pairwise_map]
      refine hobss.imp ?_
      intro a b hab
      rw [← ephKey_le]
      exact (ephKey_split isVar o o _ _ (hid o _ _).2.2 (hvar o _ _) (hid o _ _).2.2 (hvar o _ _)).2 rfl hab
    · refine hoss.imp ?_
      intro a b hab r hr s hs
      obtain ⟨x, _, rfl⟩ := List.mem_map.mp hr
      obtain ⟨y, _, rfl⟩ := List.mem_map.mp hs
      rw [← ephKey_le]
      exact (ephKey_split isVar a b _ _ (hid a _ _).2.2 (hvar a _ _) (hid b _ _).2.2 (hvar b _ _)).1 hab

/-- The hypotheses hold for two orbits and three observers, two of them at the same time. -/
example := C78_pairing exEngine (fun _ => True) (fun o t => ⟨o.id, o.variant, t, none, (o.state, 0)⟩)
  exEngine_independent (fun _ _ _ => ⟨rfl, rfl, rfl⟩) (fun _ _ _ => rfl) (fun _ _ _ => rfl) (fun _ => rfl)
  (fun r (b : Obs Nat Nat) => (r.state, b.state)) false [⟨2, ⊤, 10, 100⟩, ⟨1, ⊤, 399, 200⟩]
  [⟨toLex (59000, 5), 695, 1⟩, ⟨toLex (59000, 5), 500, 2⟩, ⟨toLex (59000, 0), 500, 3⟩] (by simp) (by simp) (by decide)
  (by simp)

end

/-- With a repeated orbit id the tiling no longer matches: a row is computed from an orbit propagated to one time and from
an observer at another time, although every observer time was requested. -/
theorem C78_repeated_id_false :
    ¬ ∀ (orbits : List (Orb Nat Nat Nat)) (observers : List (Obs Nat Nat)) (rows : List (Eph Nat ((ℤ ×ₗ ℤ) × (ℤ ×ₗ ℤ)))),
        mixinEphemeris exEngine (fun r b => (r.time, b.time)) false orbits observers = .ok rows →
        ∀ r ∈ rows, r.value.1 = r.value.2 := by
  intro h
  have := h [⟨1, ⊤, 10, 7⟩, ⟨1, ⊤, 10, 8⟩] [⟨toLex (59000, 0), 500, 0⟩, ⟨toLex (59001, 0), 500, 0⟩] _ rfl
  revert this
  decide +kernel

end Verif.Sched.Props
