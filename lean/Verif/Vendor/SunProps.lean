import Verif.Vendor.CurveProps
import Verif.Vendor.TemplateProps

/-! # The solar spectrum: the properties -/

set_option linter.unusedSectionVars false

namespace Verif.Vendor.Props

open Verif Sched Band

variable {K : Type} [Field K] [LinearOrder K] [IsStrictOrderedRing K]

theorem solar_perm {order : List Nat} {sun : Curve K} (h : IsOrder order (sun.map Prod.fst)) : (solar order sun).Perm sun := by
  unfold solar
  split
  · exact reorder_perm h
  · exact List.Perm.refl _

theorem solar_pairwise {order : List Nat} {sun : Curve K} (h : IsOrder order (sun.map Prod.fst)) :
    (solar order sun).Pairwise fun p q => p.1 ≤ q.1 := by
  unfold solar
  split
  · exact reorder_sorted h
  · rename_i hn
    push Not at hn
    have : sun.Pairwise fun a b => a.1 < b.1 := by
      refine (zip_tail_pairwise (fun a b : K × K => a.1 < b.1) (fun _ _ _ => lt_trans) sun).mp ?_
      intro p hp
      by_contra hc
      apply hn.2
      rw [List.any_eq_true]
      refine ⟨p, hp, ?_⟩
      rw [decide_eq_true_eq]
      exact sub_nonpos.mpr (not_lt.mp hc)
    exact this.imp fun h => h.le

/-- The order of the rows of the solar spectrum does not matter if its wavelengths are distinct: the integrals are those of the spectrum
with increasing wavelengths. -/
theorem C156_order {order : List Nat} {sun sun' : Curve K} (hp : sun.Perm sun') (hs : sun'.Pairwise fun a b => a.1 < b.1)
    (ho : IsOrder order (sun.map Prod.fst)) (templates filters : List (Str × Curve K)) :
    buildIntegrals order sun templates filters =
      templates.flatMap fun t => filters.map fun f => (t.1, f.1, integral sun' t.2 f.2) := by
  have hn : (sun'.map Prod.fst).Nodup := by
    rw [List.Nodup, List.pairwise_map]
    exact hs.imp fun h => h.ne
  have e : solar order sun = sun' := by
    refine sorted_unique ((solar_perm ho).trans hp) ?_ (solar_pairwise ho) (hs.imp fun h => h.le)
    exact (((solar_perm ho).trans hp).map Prod.fst).nodup_iff.mpr hn
  unfold buildIntegrals
  rw [e]

/-- The packaged spectrum has the rows of the file between 3000 and 12000 Angstrom, in their order, in nanometres, with fluxes divided by the
greatest of them; without such rows there is a ValueError. -/
theorem C156_spectrum (rows : Curve K) :
    let kept := rows.filter fun p => decide (3000 ≤ p.1) && decide (p.1 ≤ 12000)
    (buildSun rows = .error .valueError ↔ ∀ p ∈ rows, p.1 < 3000 ∨ 12000 < p.1) ∧
    ∀ out, buildSun rows = .ok out → ∀ m, (∃ p ∈ kept, p.2 = m) → (∀ p ∈ kept, p.2 ≤ m) →
      out.length = kept.length ∧ (∀ (i : Nat) (p : K × K), kept[i]? = some p → out[i]? = some (p.1 / 10, if m = 0 then none else some (p.2 / m))) ∧
      (0 < m → (∀ q ∈ out, ∃ y, q.2 = some y ∧ y ≤ 1) ∧ ∃ q ∈ out, q.2 = some 1) := by
  intro kept
  have h10 : (0 : K) < 10 := by norm_num
  have hk : ((rows.map fun p => (p.1 / 10, p.2)).filter fun p => decide (300 ≤ p.1) && decide (p.1 ≤ 1200)) =
      kept.map fun p => (p.1 / 10, p.2) := by
    rw [List.filter_map]
    congr 1
    apply List.filter_congr
    intro p _
    simp only [Function.comp_apply]
    have h1 : (300 ≤ p.1 / 10) ↔ 3000 ≤ p.1 := by
      rw [le_div_iff₀ h10]; norm_num
    have h2 : (p.1 / 10 ≤ 1200) ↔ p.1 ≤ 12000 := by
      rw [div_le_iff₀ h10]; norm_num
    simp only [h1, h2]
  constructor
  · unfold buildSun
    simp only [hk, List.map_eq_nil_iff]
    constructor
    · intro h p hp
      split at h
      · rename_i hn
        by_contra hc
        push Not at hc
        have : p ∈ kept := List.mem_filter.mpr ⟨hp, by simp [hc.1, hc.2]⟩
        rw [hn] at this
        cases this
      · cases h
    · intro h
      rw [if_pos]
      apply List.filter_eq_nil_iff.mpr
      intro p hp
      rcases h p hp with h | h
      · simp [not_le.mpr h]
      · simp [not_le.mpr h]
  · intro out hout m hm hle
    unfold buildSun at hout
    simp only [hk, List.map_eq_nil_iff] at hout
    split at hout
    · cases hout
    rename_i hne
    have ht : top (kept.map fun p => (p.1 / 10, p.2)) = m := by
      obtain ⟨q, hq, hqt⟩ := top_mem (kept.map fun p => (p.1 / 10, p.2)) (by simpa using hne)
      obtain ⟨p, hp, rfl⟩ := List.mem_map.mp hq
      obtain ⟨p', hp', hpm⟩ := hm
      apply le_antisymm
      · rw [← hqt]; exact hle p hp
      · rw [← hpm]; exact top_ge _ (p'.1 / 10, p'.2) (List.mem_map.mpr ⟨p', hp', rfl⟩)
    rw [ht] at hout
    injection hout with hout
    subst hout
    refine ⟨by simp, ?_, ?_⟩
    · intro i p hi
      rw [List.getElem?_map, List.getElem?_map, hi]
      rfl
    · intro h0
      have hm0 : m ≠ 0 := h0.ne'
      simp only [if_neg hm0]
      constructor
      · intro q hq
        obtain ⟨q', hq', rfl⟩ := List.mem_map.mp hq
        obtain ⟨p, hp, rfl⟩ := List.mem_map.mp hq'
        exact ⟨_, rfl, (div_le_one h0).mpr (hle p hp)⟩
      · obtain ⟨p, hp, hpm⟩ := hm
        refine ⟨(p.1 / 10, some 1), List.mem_map.mpr ⟨(p.1 / 10, p.2), List.mem_map.mpr ⟨p, hp, rfl⟩, ?_⟩, rfl⟩
        simp only
        rw [hpm, div_self hm0]

/-- A spectrum in decreasing order, and the order that sorts it. -/
example : IsOrder [2, 1, 0] (([(3, 1), (2, 5), (1, 4)] : Curve ℚ).map Prod.fst) ∧
    ([(3, 1), (2, 5), (1, 4)] : Curve ℚ).Perm [(1, 4), (2, 5), (3, 1)] :=
  ⟨⟨by decide +kernel, by decide +kernel⟩, by decide +kernel⟩

/-- Two of three rows are kept. -/
example : buildSun ([(2999, 9), (3000, 2), (12000, 4)] : Curve ℚ) = .ok [(300, some (1 / 2)), (1200, some 1)] := by decide +kernel

end Verif.Vendor.Props
