import Verif.Od.Spec
import Mathlib.Data.List.Perm.Subperm
import Mathlib.Data.List.Nodup
import Mathlib.Data.List.Pairwise

/-! # Lemmas for the differential correction loop -/

namespace Verif.Od

open Verif Spec

set_option linter.unusedSectionVars false

theorem foldl_max (l : List ℚ) (t : ℚ) : l.foldl max t ∈ t :: l ∧ ∀ d ∈ t :: l, d ≤ l.foldl max t := by
  induction l generalizing t with
  | nil => simp
  | cons a l ih =>
    obtain ⟨h1, h2⟩ := ih (max t a)
    rw [List.foldl_cons]
    refine ⟨?_, ?_⟩
    · rcases List.mem_cons.mp h1 with h | h
      · rw [h]
        rcases max_choice t a with h | h <;> simp [h]
      · simp [h]
    · intro d hd
      have hm := h2 (max t a) (by simp)
      rcases List.mem_cons.mp hd with rfl | hd
      · exact le_trans (le_max_left _ _) hm
      · rcases List.mem_cons.mp hd with rfl | hd
        · exact le_trans (le_max_right _ _) hm
        · exact h2 d (by simp [hd])

theorem foldl_min (l : List ℚ) (t : ℚ) : l.foldl min t ∈ t :: l ∧ ∀ d ∈ t :: l, l.foldl min t ≤ d := by
  induction l generalizing t with
  | nil => simp
  | cons a l ih =>
    obtain ⟨h1, h2⟩ := ih (min t a)
    rw [List.foldl_cons]
    refine ⟨?_, ?_⟩
    · rcases List.mem_cons.mp h1 with h | h
      · rw [h]
        rcases min_choice t a with h | h <;> simp [h]
      · simp [h]
    · intro d hd
      have hm := h2 (min t a) (by simp)
      rcases List.mem_cons.mp hd with rfl | hd
      · exact le_trans hm (min_le_left _ _)
      · rcases List.mem_cons.mp hd with rfl | hd
        · exact le_trans hm (min_le_right _ _)
        · exact h2 d (by simp [hd])

theorem extent_some {l : List ℚ} {a : ℚ} (h : extent l = some a) :
    ∃ lo ∈ l, ∃ hi ∈ l, a = hi - lo ∧ ∀ x ∈ l, lo ≤ x ∧ x ≤ hi := by
  cases l with
  | nil => cases h
  | cons t l =>
    obtain ⟨h1, h2⟩ := foldl_max l t
    obtain ⟨h3, h4⟩ := foldl_min l t
    simp only [extent, Option.some.injEq] at h
    exact ⟨_, h3, _, h1, h.symm, fun x hx => ⟨h4 x hx, h2 x hx⟩⟩

theorem extent_isSome {l : List ℚ} (h : l ≠ []) : ∃ a, extent l = some a := by
  cases l with
  | nil => exact absurd rfl h
  | cons t l => exact ⟨_, rfl⟩

theorem extent_mono {l m : List ℚ} {a b : ℚ} (hs : ∀ x ∈ l, x ∈ m) (hl : extent l = some a) (hm : extent m = some b) :
    a ≤ b := by
  obtain ⟨lo, hlo, hi, hhi, rfl, _⟩ := extent_some hl
  obtain ⟨lo', _, hi', _, rfl, h'⟩ := extent_some hm
  have h1 := (h' lo (hs _ hlo)).1
  have h2 := (h' hi (hs _ hhi)).2
  linarith

variable {O R N V : Type} [DecidableEq N]

theorem worst_zero (c : Ctx O R N V) : worst c 0 = [] := by
  unfold worst
  rw [Nat.sub_zero, List.drop_length]
  rfl

theorem worst_subset (c : Ctx O R N V) (k : Nat) : ∀ x ∈ worst c k, x ∈ worst c (k + 1) := by
  intro x hx
  unfold worst at hx ⊢
  rw [List.mem_filterMap] at hx ⊢
  obtain ⟨i, hi, h⟩ := hx
  refine ⟨i, ?_, h⟩
  have : c.order.length - k = (c.order.length - (k + 1)) + (c.order.length - k - (c.order.length - (k + 1))) := by omega
  rw [this, ← List.drop_drop] at hi
  exact List.mem_of_mem_drop hi

theorem masked_mono {α : Type} (c : Ctx O R N V) (r r' : List N) (h : ∀ x ∈ r, x ∈ r') (col : List α) :
    ∀ x ∈ masked c r' col, x ∈ masked c r col := by
  intro x hx
  unfold masked at hx ⊢
  rw [List.mem_map] at hx ⊢
  obtain ⟨p, hp, rfl⟩ := hx
  refine ⟨p, ?_, rfl⟩
  rw [List.mem_filter] at hp ⊢
  refine ⟨hp.1, ?_⟩
  have := hp.2
  simp only [Bool.not_eq_true', decide_eq_false_iff_not] at this ⊢
  exact fun hc => this (h _ hc)

/-- The arc left after removing the `k` worst observations is too short. -/
def Bad (c : Ctx O R N V) (k : Nat) : Prop := ∀ a, extent (masked c (worst c k) c.ephTimes) = some a → a < c.minArc

theorem bad_succ (c : Ctx O R N V) (k : Nat) (h : Bad c k) : Bad c (k + 1) := by
  intro a ha
  have hsub := masked_mono c _ _ (worst_subset c k) c.ephTimes
  have hne : masked c (worst c k) c.ephTimes ≠ [] := by
    intro he
    obtain ⟨lo, hlo, _⟩ := extent_some ha
    have := hsub lo hlo
    rw [he] at this
    cases this
  obtain ⟨b, hb⟩ := extent_isSome hne
  exact lt_of_le_of_lt (extent_mono hsub ha hb) (h b hb)

/-- The invariant of the loop. -/
structure Inv (c : Ctx O R N V) (fuel : Nat) (s : St O R N V) : Prop where
  removed : s.removed = worst c s.tried
  found : s.found = false
  tried : s.tried ≤ c.maxOut ∨ Bad c s.tried
  last : s.tried = c.maxOut → s.maxIterI = c.maxIter * (c.maxOut + 1) ∨ Bad c s.tried
  improved : s.improved = true → c.le s.rchi2 (rchi0 c) = true
  first : s.first = true → s.improved = false
  count : s.iter + fuel = c.maxIter * (c.maxOut + 1)

/-- A state in which the loop has converged. -/
structure Conv (c : Ctx O R N V) (oracle : Nat → Option (Cand O R)) (s : St O R N V) : Prop where
  removed : s.removed = worst c s.tried
  tried : s.tried ≤ c.maxOut
  cand : ∃ x, oracle s.iter = some x ∧ s.orbit = x.orbit ∧ s.resid = x.resid ∧
    s.chi2Total = (masked c s.removed x.chi2).sum
  reduced : s.rchi2 = c.div s.chi2Total (2 * numObs c s.removed - 6)
  threshold : c.le s.rchi2 c.threshold = true
  arc : extent (masked c s.removed c.ephTimes) = some s.arc
  long : c.minArc ≤ s.arc
  improved : s.improved = true ↔ c.le s.rchi2 (rchi0 c) = true
  bounded : 1 ≤ s.iter ∧ s.iter ≤ c.maxIter * (c.maxOut + 1)

theorem loop_spec (c : Ctx O R N V) (hf : FloatOrder c.lt c.le) (oracle : Nat → Option (Cand O R)) (fuel : Nat)
    (s : St O R N V) (h : Inv c fuel s) (s' : St O R N V) (hs : loop c oracle fuel s = .ok s') :
    s'.found = false ∨ Conv c oracle s' := by
  induction fuel generalizing s with
  | zero =>
    unfold loop at hs
    cases hs
    exact Or.inl h.found
  | succ fuel ih =>
    unfold loop at hs
    split at hs
    · cases hs
      exact Or.inl h.found
    · have hI : ∀ s2 : St O R N V, s2.removed = s.removed → s2.found = s.found → s2.tried = s.tried →
          s2.maxIterI = s.maxIterI → s2.improved = s.improved → s2.rchi2 = s.rchi2 → s2.iter = s.iter + 1 →
          s2.first = s.first → Inv c fuel s2 := by
        intro s2 h1 h2 h3 h4 h5 h6 h7 h8
        have := h.count
        exact ⟨by rw [h1, h3]; exact h.removed, by rw [h2]; exact h.found, by rw [h3]; exact h.tried,
          by rw [h3, h4]; exact h.last, by rw [h5, h6]; exact h.improved, by rw [h5, h8]; exact h.first, by rw [h7]; omega⟩
      cases ho : oracle (s.iter + 1) with
      | none =>
        rw [ho] at hs
        simp only at hs
        exact ih _ (by apply hI <;> rfl) hs
      | some x =>
        rw [ho] at hs
        simp only at hs
        cases hj : judge c { s with iter := s.iter + 1 } x with
        | error e => rw [hj] at hs; cases hs
        | ok p =>
          rw [hj] at hs
          unfold judge at hj
          simp only at hj
          cases he : extent (masked c s.removed c.ephTimes) with
          | none => rw [he] at hj; cases hj
          | some arc =>
            rw [he] at hj
            simp only at hj
            split at hj
            · rename_i hacc
              rw [Bool.and_eq_true, Bool.or_eq_true, decide_eq_true_eq] at hacc
              obtain ⟨hlt, harc⟩ := hacc
              have htried : s.tried ≤ c.maxOut := by
                rcases h.tried with ht | hb
                · exact ht
                · have := hb arc (by rw [← h.removed]; exact he)
                  linarith
              have himp : ∀ r, (c.lt r s.rchi2 = true ∨ s.first = true) →
                  (s.improved || c.le r (rchi0 c)) = true → c.le r (rchi0 c) = true := by
                intro r hr hi
                rw [Bool.or_eq_true] at hi
                rcases hi with hi | hi
                · rcases hr with hl | hn
                  · exact hf.trans _ _ _ hl (h.improved hi)
                  · rw [h.first hn] at hi; cases hi
                · exact hi
              generalize hr : c.div (masked c s.removed x.chi2).sum (2 * numObs c s.removed - 6) = r at *
              by_cases hth : c.le r c.threshold = true
              · rw [hth] at hj
                cases hj
                simp only [Except.ok.injEq] at hs
                right
                subst hs
                have hc := h.count
                refine ⟨h.removed, htried, ⟨x, ho, rfl, rfl, rfl⟩, hr.symm, hth, he, harc, ?_, ?_⟩
                · simp only
                  constructor
                  · exact himp _ hlt
                  · intro hi; rw [hi, Bool.or_true]
                · simp only
                  omega
              · rw [Bool.not_eq_true] at hth
                rw [hth] at hj
                cases hj
                refine ih _ ?_ hs
                have hc := h.count
                refine ⟨h.removed, by simp [h.found], h.tried, h.last, himp _ hlt, by simp, by simp only; omega⟩
            · split at hj
              · rename_i hout
                simp only [Bool.and_eq_true, decide_eq_true_eq] at hout
                obtain ⟨⟨⟨hpos, htr⟩, hit⟩, _⟩ := hout
                cases he' : extent (masked c (worst c (s.tried + 1)) c.ephTimes) with
                | none => rw [he'] at hj; cases hj
                | some arc' =>
                  rw [he'] at hj
                  simp only at hj
                  cases hj
                  simp only at hs
                  refine ih _ ?_ hs
                  have hc := h.count
                  have hbad : s.tried = c.maxOut → Bad c (s.tried + 1) := by
                    intro heq
                    rcases h.last heq with hm | hb
                    · exfalso
                      rw [hm] at hit
                      omega
                    · exact bad_succ c _ hb
                  refine ⟨rfl, h.found, ?_, ?_, ?_, h.first, by simp only; omega⟩
                  · by_cases heq : s.tried = c.maxOut
                    · exact Or.inr (hbad heq)
                    · left; simp only; omega
                  · intro heq
                    simp only at heq ⊢
                    split
                    · left; rw [heq]
                    · rename_i hn
                      right
                      intro a ha
                      rw [he'] at ha
                      cases ha
                      exact lt_of_not_ge hn
                  · intro hi
                    exact hf.number _ _ (h.improved hi)
              · cases hj
                simp only at hs
                exact ih _ (by apply hI <;> rfl) hs

theorem worst_mem (c : Ctx O R N V) (hi : (c.obs.map Obs.id).Nodup) (k i : Nat) (o : Obs N) (ho : c.obs[i]? = some o) :
    o.id ∈ worst c k ↔ i ∈ c.order.drop (c.order.length - k) := by
  unfold worst
  rw [List.mem_filterMap]
  constructor
  · rintro ⟨j, hj, h⟩
    cases hjo : c.obs[j]? with
    | none => rw [hjo] at h; cases h
    | some o' =>
      rw [hjo] at h
      simp only [Option.map_some, Option.some.injEq] at h
      have hil : i < (c.obs.map Obs.id).length := by
        rw [List.length_map]; exact (List.getElem?_eq_some_iff.mp ho).1
      have : i = j := by
        apply (List.getElem?_inj hil hi).mp
        rw [List.getElem?_map, List.getElem?_map, ho, hjo, Option.map_some, Option.map_some, h]
      rw [this]
      exact hj
  · intro h
    exact ⟨i, h, by rw [ho]; rfl⟩

theorem worst_nodup (c : Ctx O R N V) (hi : (c.obs.map Obs.id).Nodup) (ho : c.order.Perm (List.range c.obs.length))
    (k : Nat) : (worst c k).Nodup := by
  unfold worst
  apply List.Nodup.filterMap
  · intro i j a h1 h2
    have e1 : (c.obs.map Obs.id)[i]? = some a := by rw [List.getElem?_map]; exact h1
    have e2 : (c.obs.map Obs.id)[j]? = some a := by rw [List.getElem?_map]; exact h2
    exact (List.getElem?_inj (List.getElem?_eq_some_iff.mp e1).1 hi).mp (e1.trans e2.symm)
  · exact List.Nodup.sublist (List.drop_sublist _ _) (ho.nodup_iff.mpr List.nodup_range)

theorem worst_length (c : Ctx O R N V) (k : Nat) :
    (worst c k).length ≤ k := by
  unfold worst
  refine (List.length_filterMap_le _ _).trans ?_
  rw [List.length_drop]
  omega

theorem worst_ids (c : Ctx O R N V) (k : Nat) : ∀ x ∈ worst c k, x ∈ c.obs.map Obs.id := by
  intro x hx
  unfold worst at hx
  rw [List.mem_filterMap] at hx
  obtain ⟨i, _, h⟩ := hx
  cases hjo : c.obs[i]? with
  | none => rw [hjo] at h; cases h
  | some o =>
    rw [hjo] at h
    simp only [Option.map_some, Option.some.injEq] at h
    exact List.mem_map.mpr ⟨o, List.mem_of_getElem? hjo, h⟩

theorem count_removed (ids removed : List N) (hi : ids.Nodup) (hr : removed.Nodup) (hs : ∀ x ∈ removed, x ∈ ids) :
    (ids.filter fun x => decide (x ∈ removed)).length = removed.length := by
  apply List.Perm.length_eq
  rw [List.perm_ext_iff_of_nodup (hi.filter _) hr]
  intro a
  rw [List.mem_filter, decide_eq_true_eq]
  exact ⟨fun h => h.2, fun h => ⟨hs a h, h⟩⟩

theorem filter_length_add {α : Type} (l : List α) (p : α → Bool) :
    (l.filter p).length + (l.filter fun x => !p x).length = l.length := by
  induction l with
  | nil => rfl
  | cons a l ih => cases h : p a <;> simp [h] <;> omega

end Verif.Od
