import Verif.Eval.Spec
import Verif.Joins.Lemmas
import Mathlib.Tactic.FieldSimp

/-! # Evaluation of orbits: the properties -/

namespace Verif.Eval.Props

set_option linter.unusedSectionVars false

open Verif Sched Spec

section
variable {I S N Y Z K : Type} [Field K] [LinearOrder I] [DecidableEq N]

theorem sorted_ids (orbits : List (Orb I S)) (hn : (orbits.map Orb.id).Nodup) :
    ((sortBy Orb.id orbits).map Orb.id).Pairwise (· < ·) := by
  have h1 := sortBy_sorted Orb.id orbits
  have h2 : ((sortBy Orb.id orbits).map Orb.id).Nodup :=
    ((sortBy_perm Orb.id orbits).map Orb.id).nodup_iff.mpr hn
  rw [List.pairwise_map]
  unfold List.Nodup at h2
  rw [List.pairwise_map] at h2
  exact (h1.and h2).imp fun h => lt_of_le_of_ne h.1 h.2

theorem inOrder_sort (observations : List (Obs I N Y)) (h : InOrder observations) :
    sortBy (fun b : Obs I N Y => toLex (b.time, b.code)) observations = observations := by
  apply sortBy_of_sorted
  refine h.imp ?_
  intro a b hab
  rw [Prod.Lex.le_iff]
  exact hab

theorem replicate_flatMap {α β : Type} (os : List α) (l : List β) :
    (List.replicate os.length l).flatten = os.flatMap fun _ => l := by
  induction os with
  | nil => rfl
  | cons o os ih => simp [List.replicate_succ, ih]

theorem zipWith_flatMap {α β γ δ : Type} (f : β → γ → δ) (os : List α) (g : α → List β) (h : α → List γ)
    (hl : ∀ o ∈ os, (g o).length = (h o).length) :
    List.zipWith f (os.flatMap g) (os.flatMap h) = os.flatMap fun o => List.zipWith f (g o) (h o) := by
  induction os with
  | nil => rfl
  | cons o os ih =>
    rw [List.flatMap_cons, List.flatMap_cons, List.flatMap_cons, List.zipWith_append (hl o (by simp)),
      ih fun x hx => hl x (List.mem_cons_of_mem _ hx)]

theorem zipWith_map₂ {α β γ δ : Type} (h : β → γ → δ) (g : α → β) (g' : α → γ) (l : List α) :
    List.zipWith h (l.map g) (l.map g') = l.map fun a => h (g a) (g' a) := by
  induction l with
  | nil => rfl
  | cons a l ih => simp [ih]

theorem applyMask_append {α : Type} (a b : List α) (m n : List Bool) (h : a.length = m.length) :
    applyMask (a ++ b) (m ++ n) = applyMask a m ++ applyMask b n := by
  unfold applyMask
  rw [List.zip_append h, List.filter_append, List.map_append]

theorem applyMask_const {α β : Type} (l : List α) (m : List β) (h : l.length = m.length) (c : Bool) :
    applyMask l (m.map fun _ => c) = if c then l else [] := by
  unfold applyMask
  induction l generalizing m with
  | nil => cases c <;> simp
  | cons a l ih =>
    cases m with
    | nil => simp at h
    | cons b m =>
      have := ih m (by simpa using h)
      cases c
      · simpa using this
      · simpa using this

theorem applyMask_map {α β : Type} (l : List α) (f : α → β) (p : α → Bool) :
    applyMask (l.map f) (l.map p) = (l.filter p).map f := by
  unfold applyMask
  induction l with
  | nil => rfl
  | cons a l ih =>
    simp only [List.map_cons, List.zip_cons_cons, List.filter_cons]
    cases hp : p a
    · simpa using ih
    · simpa using ih

theorem select_block {α β : Type} [DecidableEq I] (os : List (Orb I S)) (hn : (os.map Orb.id).Nodup) (l : List β) (o : Orb I S)
    (ho : o ∈ os) (r : Orb I S → List α) (hl : ∀ o, (r o).length = l.length) :
    applyMask (os.flatMap r) (os.flatMap fun x => l.map fun _ => decide (x.id = o.id)) = r o := by
  induction os with
  | nil => simp at ho
  | cons x os ih =>
    rw [List.flatMap_cons, List.flatMap_cons, applyMask_append _ _ _ _ (by simp [hl]), applyMask_const _ _ (hl x)]
    rw [List.map_cons, List.nodup_cons] at hn
    rcases List.mem_cons.mp ho with rfl | ho
    · have hrest : applyMask (os.flatMap r) (os.flatMap fun x => l.map fun _ => decide (x.id = o.id)) = [] := by
        have hne : ∀ x ∈ os, x.id ≠ o.id := fun x hx h => hn.1 (h ▸ List.mem_map_of_mem hx)
        clear ih hn ho
        induction os with
        | nil => rfl
        | cons y os ih =>
          rw [List.flatMap_cons, List.flatMap_cons, applyMask_append _ _ _ _ (by simp [hl]), applyMask_const _ _ (hl y),
            ih fun x hx => hne x (List.mem_cons_of_mem _ hx)]
          simp [hne y (by simp)]
      rw [hrest]
      simp
    · have hne : x.id ≠ o.id := fun h => hn.1 (h ▸ List.mem_map_of_mem ho)
      rw [ih hn.2 ho]
      simp [hne]

theorem foldl_max (l : List ℚ) (t : ℚ) :
    l.foldl max t ∈ t :: l ∧ ∀ d ∈ t :: l, d ≤ l.foldl max t := by
  induction l generalizing t with
  | nil => simp
  | cons a l ih =>
    obtain ⟨h1, h2⟩ := ih (max t a)
    rw [List.foldl_cons]
    refine ⟨?_, ?_⟩
    · rcases List.mem_cons.mp h1 with h | h
      · rw [h]
        rcases max_choice t a with h | h <;> simp [h]
      · simp [h]
    · intro d hd
      have hm := h2 (max t a) (by simp)
      rcases List.mem_cons.mp hd with rfl | hd
      · exact le_trans (le_max_left _ _) hm
      · rcases List.mem_cons.mp hd with rfl | hd
        · exact le_trans (le_max_right _ _) hm
        · exact h2 d (by simp [hd])

theorem foldl_min (l : List ℚ) (t : ℚ) :
    l.foldl min t ∈ t :: l ∧ ∀ d ∈ t :: l, l.foldl min t ≤ d := by
  induction l generalizing t with
  | nil => simp
  | cons a l ih =>
    obtain ⟨h1, h2⟩ := ih (min t a)
    rw [List.foldl_cons]
    refine ⟨?_, ?_⟩
    · rcases List.mem_cons.mp h1 with h | h
      · rw [h]
        rcases min_choice t a with h | h <;> simp [h]
      · simp [h]
    · intro d hd
      have hm := h2 (min t a) (by simp)
      rcases List.mem_cons.mp hd with rfl | hd
      · exact le_trans hm (min_le_left _ _)
      · rcases List.mem_cons.mp hd with rfl | hd
        · exact le_trans hm (min_le_right _ _)
        · exact h2 d (by simp [hd])

theorem arc_extent {J M X : Type} (used : List (Obs J M X)) (hu : used ≠ []) :
    ∃ first ∈ used, ∃ last ∈ used, arcLength (used.map Obs.mjd) = some (last.mjd - first.mjd) ∧
      ∀ b ∈ used, first.mjd ≤ b.mjd ∧ b.mjd ≤ last.mjd := by
  cases used with
  | nil => exact absurd rfl hu
  | cons u l =>
    obtain ⟨h1, h2⟩ := foldl_max (l.map Obs.mjd) u.mjd
    obtain ⟨h3, h4⟩ := foldl_min (l.map Obs.mjd) u.mjd
    rw [← List.map_cons] at h1 h2 h3 h4
    obtain ⟨x, hx, hxe⟩ := List.mem_map.mp h1
    obtain ⟨y, hy, hye⟩ := List.mem_map.mp h3
    refine ⟨y, hy, x, hx, ?_, ?_⟩
    · simp only [List.map_cons, arcLength, hxe, hye]
    · intro b hb
      rw [hxe, hye]
      exact ⟨h4 _ (List.mem_map_of_mem hb), h2 _ (List.mem_map_of_mem hb)⟩

/-- For observations in order of time (and of observatory at equal times), distinct orbit ids and at least one orbit,
every observation is compared with the prediction of the same orbit at its own time and observatory, for any number of
orbits in any order, and the statistics use exactly the observations that are not to be ignored. -/
theorem C58_pairs [CharZero K] (predict : S → ℤ ×ₗ ℤ → I → Z) (res : Y → Z → Res K) (orbits : List (Orb I S))
    (observations : List (Obs I N Y)) (parameters : Int) (ignore : List N) (hn : (orbits.map Orb.id).Nodup)
    (hne : orbits ≠ []) (ho : InOrder observations) :
    ∃ fitted members, evaluate predict res orbits observations parameters ignore = .ok (fitted, members) ∧
      Pairs predict res orbits observations parameters ignore fitted members := by
  have hlen : orbits.length = (uniq (orbits.map Orb.id)).length := by
    have := (Joins.uniq_length_iff (orbits.map Orb.id)).mpr hn
    simpa using this.symm
  have hperm := sortBy_perm Orb.id orbits
  have hsl : (sortBy Orb.id orbits).length = orbits.length := hperm.length_eq
  have hsn : ((sortBy Orb.id orbits).map Orb.id).Nodup := (hperm.map Orb.id).nodup_iff.mpr hn
  have heph : ephemeris predict orbits observations = (sortBy Orb.id orbits).flatMap fun o =>
      observations.map fun b => ⟨o.id, b.time, b.code, predict o.state b.time b.code⟩ := by
    unfold ephemeris
    rw [inOrder_sort observations ho]
  have hsorted := sorted_ids orbits hn
  unfold evaluate
  rw [if_neg (by omega), if_neg (by simpa using hne)]
  simp only
  rw [heph, ← hsl]
  generalize hos : sortBy Orb.id orbits = os at *
  rw [replicate_flatMap, replicate_flatMap]
  have hrl : (os.flatMap fun o => observations.map fun b =>
      (⟨o.id, b.time, b.code, predict o.state b.time b.code⟩ : Eph I Z)).length =
      (os.flatMap fun _ => observations).length := by
    rw [List.length_flatMap, List.length_flatMap]
    simp
  rw [if_neg (by rw [hrl]; simp)]
  have hres : List.zipWith (fun (b : Obs I N Y) (e : Eph I Z) => res b.coord e.pred) (os.flatMap fun _ => observations)
      (os.flatMap fun o => observations.map fun b =>
        (⟨o.id, b.time, b.code, predict o.state b.time b.code⟩ : Eph I Z)) =
      os.flatMap fun o => observations.map fun b => own predict res o b := by
    rw [zipWith_flatMap _ _ _ _ (by simp)]
    congr 1
    funext o
    have := zipWith_map₂ (fun (b : Obs I N Y) (e : Eph I Z) => res b.coord e.pred) id
      (fun b : Obs I N Y => (⟨o.id, b.time, b.code, predict o.state b.time b.code⟩ : Eph I Z)) observations
    rw [List.map_id] at this
    rw [this]
    rfl
  rw [hres]
  have hmaskeph : ∀ f : Eph I Z → Bool, (os.flatMap fun o => observations.map fun b =>
      (⟨o.id, b.time, b.code, predict o.state b.time b.code⟩ : Eph I Z)).map f =
      os.flatMap fun o => observations.map fun b => f ⟨o.id, b.time, b.code, predict o.state b.time b.code⟩ := by
    intro f
    rw [List.map_flatMap]
    congr 1
    funext o
    rw [List.map_map]
    rfl
  refine ⟨_, _, rfl, ⟨os, hperm, hsorted, ?_, ?_, ?_⟩⟩
  · rw [List.map_map]; rfl
  · rw [List.zip_eq_zipWith, List.zip_eq_zipWith, zipWith_flatMap _ _ _ _ (by simp),
      zipWith_flatMap _ _ _ _ (by simp), zipWith_flatMap _ _ _ _ (by simp)]
    congr 1
    funext o
    have h1 := zipWith_map₂ (Prod.mk : Obs I N Y → Res K → _) id (fun b => own predict res o b) observations
    rw [List.map_id] at h1
    rw [h1, List.map_map, zipWith_map₂, zipWith_map₂]
    apply List.map_congr_left
    intro b _
    simp
  · intro i o f hio hif used
    have hom : o ∈ os := List.mem_of_getElem? hio
    rw [List.getElem?_map, hio] at hif
    simp only [Option.map_some, Option.some.injEq] at hif
    have hsel : applyMask (os.flatMap fun o => observations.map fun b => own predict res o b)
        ((os.flatMap fun o => observations.map fun b =>
          (⟨o.id, b.time, b.code, predict o.state b.time b.code⟩ : Eph I Z)).map fun e => decide (e.orbit = o.id)) =
        observations.map fun b => own predict res o b := by
      rw [hmaskeph]
      exact select_block os hsn observations o hom (fun o => observations.map fun b => own predict res o b) (by simp)
    rw [hsel, applyMask_map observations (fun b => own predict res o b)] at hif
    have hinc : applyMask observations (observations.map fun b => !decide (b.id ∈ ignore)) = used := by
      have := applyMask_map observations id fun b => !decide (b.id ∈ ignore)
      rw [List.map_id, List.map_id] at this
      exact this
    rw [hinc] at hif
    subst hif
    refine ⟨rfl, fun hu => arc_extent used hu, ?_, ?_⟩
    · intro hu
      have hne' : ¬ ((used.map fun b => own predict res o b).isEmpty = true) := by
        rw [List.isEmpty_iff, List.map_eq_nil_iff]
        exact hu
      rw [if_neg hne', List.map_map]
      rfl
    · intro r hr
      simp only at hr
      split at hr
      · cases hr
      · unfold reducedChi2 at hr
        split at hr
        · cases hr
        · rename_i hd
          simp only [Option.some.injEq] at hr
          rw [← hr, List.map_map, List.map_map]
          rw [List.map_map] at hd
          have hd' : (((used.map (Res.dof ∘ fun b => own predict res o b)).sum - parameters : Int) : K) ≠ 0 := by
            exact_mod_cast hd
          exact div_mul_cancel₀ _ hd'

/-- Repeated orbit ids fail the assertion; no orbits raise ValueError. -/
theorem C58_edges (predict : S → ℤ ×ₗ ℤ → I → Z) (res : Y → Z → Res K) (orbits : List (Orb I S))
    (observations : List (Obs I N Y)) (parameters : Int) (ignore : List N) :
    (¬ (orbits.map Orb.id).Nodup →
      evaluate predict res orbits observations parameters ignore = .error .assertionError) ∧
    evaluate predict res ([] : List (Orb I S)) observations parameters ignore = .error .valueError := by
  constructor
  · intro h
    unfold evaluate
    rw [if_pos]
    intro hl
    apply h
    rw [← Joins.uniq_length_iff]
    simpa using hl.symm
  · rfl

end

/-- For observations that are not in order of time the claim fails: two observations given latest first are each compared
with the prediction for the other. -/
theorem C58_pairs_false :
    ¬ ∀ (orbits : List (Orb Nat Int)) (observations : List (Obs Nat Nat Int)) (fitted : List (Fitted Nat Int ℚ))
        (members : List (Member Nat Nat (Res ℚ))), (orbits.map Orb.id).Nodup → orbits ≠ [] →
        evaluate (fun s t _ => s + (ofLex t).1) (fun y z => ⟨((y - z : Int) : ℚ), 1⟩) orbits observations 0 [] =
          .ok (fitted, members) →
        Pairs (fun s t _ => s + (ofLex t).1) (fun y z => ⟨((y - z : Int) : ℚ), 1⟩) orbits observations 0 [] fitted
          members := by
  intro h
  let os : List (Orb Nat Int) := [⟨0, 10⟩]
  let bs : List (Obs Nat Nat Int) := [⟨1, toLex (2, 0), 5, 12, 2⟩, ⟨2, toLex (1, 0), 5, 11, 1⟩]
  have hm : (match evaluate (fun s t _ => s + (ofLex t).1) (fun y z => (⟨((y - z : Int) : ℚ), 1⟩ : Res ℚ)) os bs 0 [] with
    | .ok x => some (x.2.map fun m => (m.obs, m.res))
    | .error _ => none) = some [(1, ⟨1, 1⟩), (2, ⟨-1, 1⟩)] := by decide +kernel
  cases he : evaluate (fun s t _ => s + (ofLex t).1) (fun y z => (⟨((y - z : Int) : ℚ), 1⟩ : Res ℚ)) os bs 0 [] with
  | error e => rw [he] at hm; cases hm
  | ok x =>
    obtain ⟨os', hp, _, _, hmem, _⟩ := (h os bs x.1 x.2 (by decide) (by decide) he).orbits
    rw [he] at hm
    have hos : os' = [⟨0, 10⟩] := List.perm_singleton.mp hp
    simp only [Option.some.injEq] at hm
    rw [hmem, hos] at hm
    revert hm
    decide +kernel

/-- Two orbits in reverse id order and three observations in order, one of them ignored. -/
def someOrbits : List (Orb Nat Int) := [⟨7, 10⟩, ⟨3, 0⟩]

/-- See `someOrbits`. -/
def someObservations : List (Obs Nat Nat Int) :=
  [⟨1, toLex (1, 0), 5, 12, 1⟩, ⟨2, toLex (1, 0), 6, 15, 1⟩, ⟨3, toLex (4, 0), 5, 11, 4⟩]

/-- They meet the hypotheses of `C58_pairs`, and the result has the two orbits in id order. -/
example : (someOrbits.map Orb.id).Nodup ∧ someOrbits ≠ [] ∧ InOrder someObservations ∧
    (match evaluate (fun s t _ => s + (ofLex t).1) (fun y z => (⟨((y - z : Int) : ℚ) ^ 2, 2⟩ : Res ℚ)) someOrbits
        someObservations 1 [2] with
      | .ok x => x.1.map (fun f => (f.id, f.numObs, f.chi2)) = [(3, 2, some 170), (7, 2, some 10)] ∧
          x.2.map (fun m => (m.orbit, m.obs, m.outlier)) =
            [(3, 1, false), (3, 2, true), (3, 3, false), (7, 1, false), (7, 2, true), (7, 3, false)]
      | .error _ => False) := by
  refine ⟨by decide, by decide, ?_, ?_⟩
  · unfold InOrder
    decide +kernel
  · constructor <;> decide +kernel

end Verif.Eval.Props
