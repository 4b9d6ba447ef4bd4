import Verif.AbsMag.Model
import Verif.Hg.Predict
import Verif.Band.ResolveProps
import Verif.Sched.Lemmas
import Mathlib.Data.List.Sort
import Mathlib.Data.List.Forall2
import Mathlib.Algebra.BigOperators.Group.List.Basic

/-! # Lemmas on the absolute-magnitude fits -/

namespace Verif.AbsMag

open Verif Band Hg Sched

/-! ### the fit does not look at the order -/

theorem sortBy_id_perm {l m : List ℝ} (h : l.Perm m) : sortBy id l = sortBy id m := by
  have hp : (sortBy id l).Perm (sortBy id m) := ((sortBy_perm id l).trans h).trans (sortBy_perm id m).symm
  exact hp.eq_of_pairwise (le := fun a b : ℝ => id a ≤ id b) (fun a b _ _ h1 h2 => le_antisymm h1 h2) (sortBy_sorted id l)
    (sortBy_sorted id m)

theorem median_perm {l m : List ℝ} (h : l.Perm m) : median l = median m := by
  unfold median; rw [sortBy_id_perm h]

theorem madSigma_perm {l m : List ℝ} (h : l.Perm m) : madSigma l = madSigma m := by
  unfold madSigma
  simp only
  rw [median_perm h, median_perm (h.map _)]

theorem zipWith_maps {A B C D : Type} (f : B → C → D) (g : A → B) (k : A → C) (l : List A) :
    List.zipWith f (l.map g) (l.map k) = l.map fun a => f (g a) (k a) := by
  rw [List.zipWith_map, List.zipWith_self]

/-- Sums over the rows. -/
noncomputable def total (g : ℝ × Option ℝ → ℝ) (rows : List (ℝ × Option ℝ)) : ℝ := (rows.map g).sum

theorem total_perm (g : ℝ × Option ℝ → ℝ) {r r' : List (ℝ × Option ℝ)} (h : r.Perm r') : total g r = total g r' :=
  (h.map g).sum_eq

/-- Weight of a row. -/
noncomputable def wt (r : ℝ × Option ℝ) : ℝ := weight (r.2.getD 0)

/-- The fit with its sums written over the rows. -/
theorem fitRows_eq (rows : List (ℝ × Option ℝ)) : fitRows rows =
    if rows = [] then .error .valueError
    else if ∀ r ∈ rows, r.2.isSome then
      if ∃ r ∈ rows, r.2 = some 0 then .error .valueError
      else
        let H := total (fun r => wt r * r.1) rows / total wt rows
        let resid := rows.map fun r => r.1 - H
        if 2 ≤ rows.length then
          let red := total (fun r => wt r * ((r.1 - H) * (r.1 - H))) rows / ((rows.length : ℝ) - 1)
          let hs := Real.sqrt (1 / total wt rows)
          .ok ⟨H, some (if red > 1 then hs * Real.sqrt red else hs), some (madSigma resid), some red, rows.length⟩
        else .ok ⟨H, none, none, none, rows.length⟩
    else
      let H := total Prod.fst rows / rows.length
      let resid := rows.map fun r => r.1 - H
      if 2 ≤ rows.length then
        .ok ⟨H, some (madSigma resid / Real.sqrt rows.length), some (madSigma resid), none, rows.length⟩
      else .ok ⟨H, none, none, none, rows.length⟩ := by
  unfold fitRows
  by_cases h0 : rows = []
  · rw [if_pos h0, if_pos h0]
  rw [if_neg h0, if_neg h0]
  simp only
  by_cases h1 : ∀ r ∈ rows, r.2.isSome
  · rw [if_pos h1, if_pos (List.all_eq_true.mpr h1)]
    by_cases h2 : ∃ r ∈ rows, r.2 = some 0
    · rw [if_pos h2, if_pos]
      obtain ⟨r, hr, e⟩ := h2
      exact List.any_eq_true.mpr ⟨0, List.mem_map.mpr ⟨r, hr, by rw [e]; rfl⟩, by simp⟩
    · rw [if_neg h2, if_neg]
      swap
      · intro h
        obtain ⟨x, hx, e⟩ := List.any_eq_true.mp h
        obtain ⟨r, hr, rfl⟩ := List.mem_map.mp hx
        obtain ⟨y, hy⟩ := Option.isSome_iff_exists.mp (h1 r hr)
        rw [hy] at e
        exact h2 ⟨r, hr, by rw [hy]; simpa using e⟩
      simp only [List.map_map, zipWith_maps]
      rfl
  · rw [if_neg h1, if_neg (fun h => h1 (List.all_eq_true.mp h))]
    simp only [List.map_map]
    rfl

theorem fitRows_perm {r r' : List (ℝ × Option ℝ)} (h : r.Perm r') : fitRows r = fitRows r' := by
  have e0 : r = [] ↔ r' = [] := ⟨fun e => by subst e; exact h.nil_eq.symm, fun e => by subst e; exact h.eq_nil⟩
  have e1 : (∀ x ∈ r, x.2.isSome) ↔ ∀ x ∈ r', x.2.isSome := by
    simp only [h.mem_iff]
  have e2 : (∃ x ∈ r, x.2 = some 0) ↔ ∃ x ∈ r', x.2 = some 0 := by
    simp only [h.mem_iff]
  rw [fitRows_eq, fitRows_eq]
  simp only [e0, e1, e2, total_perm _ h, h.length_eq]
  have m1 : ∀ x : ℝ, madSigma (r.map fun y => y.1 - x) = madSigma (r'.map fun y => y.1 - x) := fun x =>
    madSigma_perm (h.map _)
  simp only [m1]

/-! ### groups -/

theorem runs_cons {A : Type} (k : Str) (a : A) (rest : List (Str × A)) : runs ((k, a) :: rest)
    = (k, a :: (rest.takeWhile fun r => decide (r.1 = k)).map Prod.snd) :: runs (rest.dropWhile fun r => decide (r.1 = k)) := by
  rw [runs]

/-- In a sorted list the rows of the first id are exactly the leading ones. -/
theorem sorted_split {A : Type} {k : Str} : ∀ {rest : List (Str × A)}, rest.Pairwise (fun a b => a.1 ≤ b.1) →
    (∀ r ∈ rest, k ≤ r.1) → (rest.takeWhile fun r => decide (r.1 = k)) = rest.filter (fun r => decide (r.1 = k)) ∧
      ∀ r ∈ rest.dropWhile (fun r => decide (r.1 = k)), k < r.1 := by
  intro rest
  induction rest with
  | nil => intro _ _; exact ⟨rfl, fun r h => by cases h⟩
  | cons b rest ih =>
    intro hs hk
    rw [List.pairwise_cons] at hs
    by_cases hb : b.1 = k
    · obtain ⟨i1, i2⟩ := ih hs.2 fun r hr => hk r (List.mem_cons_of_mem _ hr)
      constructor
      · rw [List.takeWhile_cons_of_pos (by simpa using hb), List.filter_cons_of_pos (by simpa using hb), i1]
      · rw [List.dropWhile_cons_of_pos (by simpa using hb)]; exact i2
    · have hlt : k < b.1 := lt_of_le_of_ne (hk b List.mem_cons_self) (Ne.symm hb)
      constructor
      · rw [List.takeWhile_cons_of_neg (by simpa using hb), List.filter_eq_nil_iff.mpr]
        intro r hr
        rw [List.mem_cons] at hr
        rcases hr with rfl | hr
        · simpa using hb
        · have := lt_of_lt_of_le hlt (hs.1 r hr)
          simpa using this.ne'
      · rw [List.dropWhile_cons_of_neg (by simpa using hb)]
        intro r hr
        rw [List.mem_cons] at hr
        rcases hr with rfl | hr
        · exact hlt
        · exact lt_of_lt_of_le hlt (hs.1 r hr)

theorem runs_spec {A : Type} : ∀ (n : Nat) (l : List (Str × A)), l.length ≤ n → l.Pairwise (fun a b => a.1 ≤ b.1) →
    ((runs l).Pairwise fun a b => a.1 < b.1) ∧
    ∀ k g, (k, g) ∈ runs l ↔ g ≠ [] ∧ g = (l.filter fun r => decide (r.1 = k)).map Prod.snd := by
  intro n
  induction n with
  | zero =>
    intro l hl _
    have : l = [] := List.eq_nil_of_length_eq_zero (by omega)
    subst this
    rw [runs]
    exact ⟨List.Pairwise.nil, fun k g => by simp⟩
  | succ n ih =>
    intro l hl hs
    cases l with
    | nil =>
      rw [runs]
      exact ⟨List.Pairwise.nil, fun k g => by simp⟩
    | cons b rest =>
      obtain ⟨k0, a⟩ := b
      rw [List.pairwise_cons] at hs
      obtain ⟨s1, s2⟩ := sorted_split hs.2 hs.1
      have hlen : (rest.dropWhile fun r => decide (r.1 = k0)).length ≤ n := by
        have := (List.dropWhile_suffix (l := rest) (fun r => decide (r.1 = k0))).length_le
        simp only [List.length_cons] at hl
        omega
      obtain ⟨i1, i2⟩ := ih _ hlen (hs.2.sublist (List.dropWhile_sublist _))
      have hdrop : ∀ k, k ≠ k0 → (rest.dropWhile fun r => decide (r.1 = k0)).filter (fun r => decide (r.1 = k))
          = rest.filter fun r => decide (r.1 = k) := by
        intro k hk
        conv_rhs => rw [← List.takeWhile_append_dropWhile (p := fun r => decide (r.1 = k0)) (l := rest), List.filter_append]
        have hnil : (rest.takeWhile fun r => decide (r.1 = k0)).filter (fun r => decide (r.1 = k)) = [] := by
          rw [List.filter_eq_nil_iff]
          intro r hr
          have := List.mem_takeWhile_imp hr
          simp only [decide_eq_true_eq] at this ⊢
          rw [this]; exact Ne.symm hk
        rw [hnil, List.nil_append]
      rw [runs_cons]
      constructor
      · rw [List.pairwise_cons]
        refine ⟨?_, i1⟩
        intro p hp
        obtain ⟨h1, h2⟩ := (i2 p.1 p.2).mp hp
        obtain ⟨x, hx⟩ := List.exists_mem_of_ne_nil _ h1
        rw [h2] at hx
        obtain ⟨r, hr, -⟩ := List.mem_map.mp hx
        rw [List.mem_filter] at hr
        have := s2 r hr.1
        have he : r.1 = p.1 := by simpa using hr.2
        rw [he] at this
        exact this
      · intro k g
        rw [List.mem_cons, i2]
        by_cases hk : k = k0
        · subst hk
          rw [List.filter_cons_of_pos (by simp), List.map_cons, ← s1]
          constructor
          · rintro (h | ⟨h1, h2⟩)
            · cases h; exact ⟨by simp, rfl⟩
            · exfalso
              obtain ⟨x, hx⟩ := List.exists_mem_of_ne_nil _ h1
              rw [h2] at hx
              obtain ⟨r, hr, -⟩ := List.mem_map.mp hx
              rw [List.mem_filter] at hr
              have := s2 r hr.1
              have he : r.1 = k := by simpa using hr.2
              rw [he] at this
              exact lt_irrefl _ this
          · rintro ⟨-, rfl⟩
            exact .inl rfl
        · rw [List.filter_cons_of_neg (by simpa using Ne.symm hk), hdrop k hk]
          constructor
          · rintro (h | h)
            · cases h; exact absurd rfl hk
            · exact h
          · exact .inr

/-- A stable sort keeps the rows of one id in order. -/
theorem sortBy_filter {A : Type} (l : List (Str × A)) (k : Str) :
    (sortBy Prod.fst l).filter (fun r => decide (r.1 = k)) = l.filter fun r => decide (r.1 = k) := by
  have hp : ((sortBy Prod.fst l).filter fun r => decide (r.1 = k)).Perm (l.filter fun r => decide (r.1 = k)) :=
    (sortBy_perm Prod.fst l).filter _
  have hsub : (l.filter fun r => decide (r.1 = k)).Sublist (sortBy Prod.fst l) := by
    unfold sortBy
    apply List.sublist_insertionSort
    · rw [List.pairwise_iff_forall_sublist]
      intro a b hab
      have ha := hab.subset (List.mem_cons_self (a := a) (l := [b]))
      have hb := hab.subset (List.mem_cons_of_mem a (List.mem_cons_self (a := b) (l := [])))
      rw [List.mem_filter] at ha hb
      have e1 : a.1 = k := by simpa using ha.2
      have e2 : b.1 = k := by simpa using hb.2
      rw [e1, e2]
    · exact List.filter_sublist
  have hsub2 := hsub.filter fun r => decide (r.1 = k)
  rw [List.filter_filter] at hsub2
  simp only [Bool.and_self] at hsub2
  exact (hsub2.eq_of_length hp.length_eq.symm).symm

end Verif.AbsMag
