import Verif.Resid.Model
import Verif.Sched.Orbits

/-! # Residual batches, row by row -/

namespace Verif.Resid

open Verif Sched

variable {D : Nat}

/-- No covariance at all in the columns with values. -/
def NoCov (r : Row D) : Prop := ∀ i j : {i // mask r.values i = true}, r.cov i j = none

/-- A covariance that can be inverted. -/
def Invertible (r : Row D) : Prop :=
  (∀ i : {i // mask r.values i = true}, r.cov i i ≠ none) ∧ (sub (mask r.values) r.cov).det ≠ 0

/-- The rows with the same columns all lack covariances. -/
def BatchNoCov (R : List (Row D)) (r : Row D) : Prop := ∀ r' ∈ R, mask r'.values = mask r.values → NoCov r'

open Classical in
/-- Chi-square of a row among others. -/
noncomputable def chi2In (R : List (Row D)) (r : Row D) : Option ℝ :=
  if BatchNoCov R r then none else chi2Row (mask r.values) r

theorem noCov_iff {m : Fin D → Bool} {r : Row D} (h : mask r.values = m) :
    NoCov r ↔ ∀ i j : {i // m i = true}, r.cov i j = none := by subst h; rfl

theorem invertible_iff {m : Fin D → Bool} {r : Row D} (h : mask r.values = m) :
    Invertible r ↔ (¬ ∃ i : {i // m i = true}, r.cov i i = none) ∧ ¬ (sub m r.cov).det = 0 := by
  subst h
  unfold Invertible
  simp [not_exists]

theorem batch_ok (R : List (Nat × Row D)) (m : Fin D → Bool) (out : List (Nat × Option ℝ)) :
    batch R m = .ok out ↔
      ((∀ r ∈ R, mask r.2.values = m → NoCov r.2) ∨ ∀ r ∈ R, mask r.2.values = m → Invertible r.2) ∧
      out = (R.filter fun r => decide (mask r.2.values = m)).map fun r => (r.1, chi2In (R.map Prod.snd) r.2) := by
  unfold batch
  simp only
  by_cases h1 : ∀ r ∈ R, mask r.2.values = m → NoCov r.2
  · rw [if_pos]
    swap
    · rw [List.all_eq_true]
      intro r hr
      obtain ⟨hr, hm⟩ := List.mem_filter.mp hr
      rw [decide_eq_true_eq] at hm ⊢
      exact (noCov_iff hm).mp (h1 r hr hm)
    have e : (R.filter fun r => decide (mask r.2.values = m)).map (fun r => (r.1, (none : Option ℝ)))
        = (R.filter fun r => decide (mask r.2.values = m)).map fun r => (r.1, chi2In (R.map Prod.snd) r.2) := by
      apply List.map_congr_left
      intro r hr
      obtain ⟨hr, hm⟩ := List.mem_filter.mp hr
      rw [decide_eq_true_eq] at hm
      unfold chi2In
      rw [if_pos]
      intro r' hr' hm'
      obtain ⟨r'', hr'', rfl⟩ := List.mem_map.mp hr'
      exact h1 r'' hr'' (hm'.trans hm)
    rw [e]
    constructor
    · intro h; cases h; exact ⟨.inl h1, rfl⟩
    · rintro ⟨-, rfl⟩; rfl
  · rw [if_neg]
    swap
    · intro h
      apply h1
      intro r hr hm
      rw [List.all_eq_true] at h
      have := h r (List.mem_filter.mpr ⟨hr, decide_eq_true hm⟩)
      rw [decide_eq_true_eq] at this
      exact (noCov_iff hm).mpr this
    unfold calculateChi2
    by_cases h2 : ∀ r ∈ R, mask r.2.values = m → Invertible r.2
    · rw [if_neg, if_neg]
      · simp only
        have e : ((R.filter fun r => decide (mask r.2.values = m)).map Prod.fst).zip
            (((R.filter fun r => decide (mask r.2.values = m)).map Prod.snd).map (chi2Row m))
            = (R.filter fun r => decide (mask r.2.values = m)).map fun r => (r.1, chi2In (R.map Prod.snd) r.2) := by
          rw [List.map_map, List.zip_map']
          apply List.map_congr_left
          intro r hr
          obtain ⟨hr, hm⟩ := List.mem_filter.mp hr
          rw [decide_eq_true_eq] at hm
          unfold chi2In
          rw [if_neg]
          · rw [hm]; rfl
          · intro hb
            apply h1
            intro r' hr' hm'
            exact hb r'.2 (List.mem_map.mpr ⟨r', hr', rfl⟩) (hm'.trans hm.symm)
        rw [e]
        constructor
        · intro h; cases h; exact ⟨.inr h2, rfl⟩
        · rintro ⟨-, rfl⟩; rfl
      · intro h
        obtain ⟨r, hr, hd⟩ := List.any_eq_true.mp h
        obtain ⟨r', hr', rfl⟩ := List.mem_map.mp hr
        obtain ⟨hr', hm⟩ := List.mem_filter.mp hr'
        rw [decide_eq_true_eq] at hm hd
        exact ((invertible_iff hm).mp (h2 r' hr' hm)).2 hd
      · intro h
        obtain ⟨r, hr, hd⟩ := List.any_eq_true.mp h
        obtain ⟨r', hr', rfl⟩ := List.mem_map.mp hr
        obtain ⟨hr', hm⟩ := List.mem_filter.mp hr'
        rw [decide_eq_true_eq] at hm hd
        exact ((invertible_iff hm).mp (h2 r' hr' hm)).1 hd
    · have herr : ∀ {a b : Bool} {x : List (Option ℝ)}, (a = true ∨ b = true) →
          (if a = true then (.error .valueError : Except PyErr (List (Option ℝ))) else if b = true then .error .valueError else .ok x)
            = .error .valueError := by
        intro a b x h
        rcases h with h | h
        · rw [if_pos h]
        · by_cases ha : a = true
          · rw [if_pos ha]
          · rw [if_neg ha, if_pos h]
      rw [herr]
      · simp only
        refine ⟨fun h => (by cases h), ?_⟩
        rintro ⟨h | h, -⟩
        · exact absurd h h1
        · exact absurd h h2
      · push Not at h2
        obtain ⟨r, hr, hm, hi⟩ := h2
        rw [invertible_iff hm] at hi
        have hmem : r.2 ∈ (R.filter fun r => decide (mask r.2.values = m)).map Prod.snd :=
          List.mem_map.mpr ⟨r, List.mem_filter.mpr ⟨hr, decide_eq_true hm⟩, rfl⟩
        by_cases hx : ∃ i : {i // m i = true}, r.2.cov i i = none
        · left
          exact List.any_eq_true.mpr ⟨r.2, hmem, decide_eq_true hx⟩
        · right
          have : (sub m r.2.cov).det = 0 := by
            by_contra hd
            exact hi ⟨hx, hd⟩
          exact List.any_eq_true.mpr ⟨r.2, hmem, decide_eq_true this⟩

/-- A row its batch accepts. -/
def Fine (R : List (Row D)) (r : Row D) : Prop := BatchNoCov R r ∨ ∀ r' ∈ R, mask r'.values = mask r.values → Invertible r'

theorem batches_ok (R : List (Nat × Row D)) : ∀ (ms : List (Fin D → Bool)),
    (∀ out, batches R ms = .ok out ↔
      (∀ m ∈ ms, (∀ r ∈ R, mask r.2.values = m → NoCov r.2) ∨ ∀ r ∈ R, mask r.2.values = m → Invertible r.2) ∧
      out = ms.flatMap fun m => (R.filter fun r => decide (mask r.2.values = m)).map fun r => (r.1, chi2In (R.map Prod.snd) r.2)) ∧
    ∀ e, batches R ms = .error e → e = .valueError := by
  intro ms
  induction ms with
  | nil =>
    unfold batches
    refine ⟨fun out => ⟨fun h => ?_, fun h => ?_⟩, fun e h => by cases h⟩
    · cases h; simp
    · rw [h.2]; rfl
  | cons m ms ih =>
    obtain ⟨ih, ihe⟩ := ih
    unfold batches
    cases hb : batch R m with
    | error e =>
      refine ⟨fun out => ⟨fun h => (by cases h), fun h => ?_⟩, fun e' h => ?_⟩
      · have := (batch_ok R m _).mpr ⟨h.1 m List.mem_cons_self, rfl⟩
        rw [this] at hb; cases hb
      · simp only at h
        cases h
        unfold batch at hb
        simp only at hb
        split at hb
        · cases hb
        · unfold calculateChi2 at hb
          split at hb
          · rename_i hh
            split at hh
            · cases hh; cases hb; rfl
            · split at hh
              · cases hh; cases hb; rfl
              · cases hh
          · cases hb
    | ok a =>
      obtain ⟨h1, h2⟩ := (batch_ok R m a).mp hb
      simp only
      cases hr : batches R ms with
      | error e =>
        refine ⟨fun out => ⟨fun h => (by cases h), fun h => ?_⟩, fun e' h => ?_⟩
        · have := (ih _).mpr ⟨fun m' hm' => h.1 m' (List.mem_cons_of_mem _ hm'), rfl⟩
          rw [this] at hr; cases hr
        · simp only at h
          cases h
          exact ihe _ hr
      | ok b =>
        obtain ⟨h3, h4⟩ := (ih b).mp hr
        simp only
        refine ⟨fun out => ⟨fun h => ?_, fun h => ?_⟩, fun e' h => by cases h⟩
        · cases h
          refine ⟨?_, by rw [List.flatMap_cons, h2, h4]⟩
          intro m' hm'
          rcases List.mem_cons.mp hm' with rfl | hm'
          · exact h1
          · exact h3 m' hm'
        · rw [h.2, List.flatMap_cons, h2, h4]

theorem lookup_of_mem_nodup {α β : Type} [BEq α] [LawfulBEq α] {l : List (α × β)} {a : α} {b : β} (hm : (a, b) ∈ l)
    (hu : ∀ b', (a, b') ∈ l → b' = b) : l.lookup a = some b := by
  induction l with
  | nil => cases hm
  | cons p l ih =>
    obtain ⟨x, y⟩ := p
    rw [List.lookup_cons]
    by_cases hx : a = x
    · subst hx
      simp only [beq_self_eq_true]
      rw [hu y List.mem_cons_self]
    · have : (a == x) = false := by simpa using hx
      rw [this]
      simp only
      rcases List.mem_cons.mp hm with h | h
      · exact absurd (by rw [Prod.mk.injEq] at h; exact h.1) hx
      · exact ih h fun b' hb' => hu b' (List.mem_cons_of_mem _ hb')

/-- The whole loop: it ends well exactly when every row is fine, and gives every row its chi-square. -/
theorem loop_ok (R : List (Row D)) :
    (∀ cs, batches (R.zipIdx.map fun p => (p.2, p.1)) (uniq (R.map fun r => mask r.values)) = .ok cs →
      (∀ r ∈ R, Fine R r) ∧ ∀ (i : Nat) (r : Row D), R[i]? = some r → cs.lookup i = some (chi2In R r)) ∧
    ((∀ r ∈ R, Fine R r) → ∃ cs, batches (R.zipIdx.map fun p => (p.2, p.1)) (uniq (R.map fun r => mask r.values)) = .ok cs) := by
  have hsnd : (R.zipIdx.map fun p => (p.2, p.1)).map Prod.snd = R := by
    rw [List.map_map]
    have : (Prod.snd ∘ fun p : Row D × Nat => (p.2, p.1)) = Prod.fst := by funext p; rfl
    rw [this, List.zipIdx_map_fst]
  have hmem : ∀ (i : Nat) (r : Row D), (i, r) ∈ (R.zipIdx.map fun p => (p.2, p.1)) ↔ R[i]? = some r := by
    intro i r
    constructor
    · intro h
      obtain ⟨p, hp, e⟩ := List.mem_map.mp h
      obtain ⟨x, j⟩ := p
      simp only [Prod.mk.injEq] at e
      obtain ⟨rfl, rfl⟩ := e
      have := List.mem_zipIdx_iff_getElem?.mp hp
      simpa using this
    · intro h
      refine List.mem_map.mpr ⟨(r, i), ?_, rfl⟩
      exact List.mem_zipIdx_iff_getElem?.mpr h
  have hm' : ∀ r, r ∈ R ↔ ∃ i, (i, r) ∈ (R.zipIdx.map fun p => (p.2, p.1)) := by
    intro r
    rw [List.mem_iff_getElem?]
    exact exists_congr fun i => (hmem i r).symm
  have hb := (batches_ok (R.zipIdx.map fun p => (p.2, p.1)) (uniq (R.map fun r => mask r.values))).1
  rw [hsnd] at hb
  have hfine : (∀ m ∈ uniq (R.map fun r => mask r.values),
      (∀ r ∈ (R.zipIdx.map fun p => (p.2, p.1)), mask r.2.values = m → NoCov r.2) ∨
        ∀ r ∈ (R.zipIdx.map fun p => (p.2, p.1)), mask r.2.values = m → Invertible r.2) ↔ ∀ r ∈ R, Fine R r := by
    constructor
    · intro h r hr
      have := h (mask r.values) ((mem_uniq _ _).mpr (List.mem_map.mpr ⟨r, hr, rfl⟩))
      rcases this with h | h
      · left
        intro r' hr' hm
        obtain ⟨i, hi⟩ := (hm' r').mp hr'
        exact h _ hi hm
      · right
        intro r' hr' hm
        obtain ⟨i, hi⟩ := (hm' r').mp hr'
        exact h _ hi hm
    · intro h m hm
      obtain ⟨r, hr, rfl⟩ := List.mem_map.mp ((mem_uniq _ _).mp hm)
      rcases h r hr with h | h
      · left
        rintro ⟨i, r'⟩ hr' hm
        exact h r' ((hm' r').mpr ⟨i, hr'⟩) hm
      · right
        rintro ⟨i, r'⟩ hr' hm
        exact h r' ((hm' r').mpr ⟨i, hr'⟩) hm
  constructor
  · intro cs hcs
    obtain ⟨h1, rfl⟩ := (hb cs).mp hcs
    refine ⟨hfine.mp h1, ?_⟩
    intro i r hi
    apply lookup_of_mem_nodup
    · refine List.mem_flatMap.mpr ⟨mask r.values, (mem_uniq _ _).mpr (List.mem_map.mpr ⟨r, List.mem_of_getElem? hi, rfl⟩), ?_⟩
      exact List.mem_map.mpr ⟨(i, r), List.mem_filter.mpr ⟨(hmem i r).mpr hi, decide_eq_true rfl⟩, rfl⟩
    · intro b' hb'
      obtain ⟨m, -, h⟩ := List.mem_flatMap.mp hb'
      obtain ⟨⟨j, r'⟩, hr', e⟩ := List.mem_map.mp h
      simp only [Prod.mk.injEq] at e
      obtain ⟨rfl, rfl⟩ := e
      have := (hmem _ _).mp (List.mem_filter.mp hr').1
      rw [hi] at this
      cases this
      rfl
  · intro h
    exact ⟨_, (hb _).mpr ⟨hfine.mpr h, rfl⟩⟩

end Verif.Resid
