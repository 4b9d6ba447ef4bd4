import Verif.Rot.FitProps
import Mathlib.Analysis.InnerProductSpace.Projection.Minimal
import Mathlib.Analysis.InnerProductSpace.PiL2

/-! # Least squares can be solved: the hypotheses of C71 are met -/

namespace Verif.Rot.Props

open Verif

/-- The map that a matrix is. -/
noncomputable def apply (n : Nat) (a : List (List ℝ)) : (Fin n → ℝ) →ₗ[ℝ] EuclideanSpace ℝ (Fin a.length) where
  toFun x := WithLp.toLp 2 fun i => ∑ j : Fin n, (a.get i).getD j 0 * x j
  map_add' x y := by
    ext i
    simp [mul_add, Finset.sum_add_distrib]
  map_smul' c x := by
    ext i
    simp only [Pi.smul_apply, smul_eq_mul, RingHom.id_apply, PiLp.smul_apply, Finset.mul_sum]
    exact Finset.sum_congr rfl fun j _ => by ring

theorem dot_ofFn (n : Nat) {row : List ℝ} (h : row.length = n) (x : Fin n → ℝ) : dot row (List.ofFn x) = ∑ j : Fin n, row.getD j 0 * x j := by
  rw [dot_eq_sum, h, ← List.ofFn_get (List.range n), List.map_ofFn, List.sum_ofFn]
  simp only [List.get_eq_getElem, Function.comp, List.getElem_range]
  refine Fintype.sum_equiv (finCongr (by simp)) _ _ fun j => ?_
  have hj : (j : Nat) < n := by simpa using j.2
  simp only [List.getD_eq_getElem?_getD, List.getElem?_ofFn, hj, dite_true, Option.getD_some]
  rfl

theorem sum_zipWith_eq {α β : Type} (g : α → β → ℝ) (a : List α) (b : List β) (h : a.length = b.length) :
    (List.zipWith g a b).sum = ∑ i : Fin a.length, g (a.get i) (b.get (i.cast h)) := by
  rw [← List.sum_ofFn]
  congr 1
  refine List.ext_getElem (by simp [h]) fun i h1 h2 => by simp

theorem exists_least (n : Nat) (a : List (List ℝ)) (b : List ℝ) (h : a.length = b.length) (ha : ∀ row ∈ a, row.length = n) :
    ∃ c : List ℝ, c.length = n ∧ ∀ x : List ℝ, x.length = n →
      (List.zipWith (fun row y => (y - dot row c) ^ 2) a b).sum ≤ (List.zipWith (fun row y => (y - dot row x) ^ 2) a b).sum := by
  obtain ⟨v, hv, hmin⟩ := (LinearMap.range (apply n a)).exists_norm_eq_iInf_of_complete_subspace
    (Submodule.complete_of_finiteDimensional _) (WithLp.toLp 2 fun i => b.get (i.cast h))
  obtain ⟨c, rfl⟩ := hv
  have key : ∀ x : Fin n → ℝ, (List.zipWith (fun row y => (y - dot row (List.ofFn x)) ^ 2) a b).sum =
      ‖(WithLp.toLp 2 fun i => b.get (i.cast h) : EuclideanSpace ℝ (Fin a.length)) - apply n a x‖ ^ 2 := by
    intro x
    rw [sum_zipWith_eq _ _ _ h, EuclideanSpace.norm_sq_eq]
    refine Finset.sum_congr rfl fun i _ => ?_
    rw [dot_ofFn n (ha _ (List.get_mem _ _))]
    simp [apply]
  refine ⟨List.ofFn c, by simp, fun x hx => ?_⟩
  obtain ⟨x, rfl⟩ : ∃ y : Fin n → ℝ, x = List.ofFn y := ⟨fun j => x.get (j.cast hx.symm), by
    subst hx; simp⟩
  rw [key, key, hmin]
  refine pow_le_pow_left₀ (Real.iInf_nonneg fun _ => norm_nonneg _) ?_ 2
  exact ciInf_le ⟨0, by rintro _ ⟨_, rfl⟩; exact norm_nonneg _⟩ (⟨apply n a x, LinearMap.mem_range_self _ _⟩ : LinearMap.range (apply n a))

/-- There is a solution of least squares: the hypothesis of `C71_least` can be met. -/
theorem exists_leastSquares : ∃ lstsq, LeastSquares lstsq := by
  classical
  have : ∀ e : List (List ℝ) × List ℝ, ∃ c : List ℝ, ∀ n, e.1 ≠ [] → e.1.length = e.2.length → (∀ row ∈ e.1, row.length = n) →
      c.length = n ∧ ∀ x : List ℝ, x.length = n →
        (List.zipWith (fun row y => (y - dot row c) ^ 2) e.1 e.2).sum ≤ (List.zipWith (fun row y => (y - dot row x) ^ 2) e.1 e.2).sum := by
    rintro ⟨a, b⟩
    by_cases h : ∃ n, a ≠ [] ∧ a.length = b.length ∧ ∀ row ∈ a, row.length = n
    · obtain ⟨n, h1, h2, h3⟩ := h
      obtain ⟨c, hc⟩ := exists_least n a b h2 h3
      refine ⟨c, fun m _ _ h4 => ?_⟩
      obtain ⟨row, hrow⟩ := List.exists_mem_of_ne_nil a h1
      rw [← h4 row hrow, h3 row hrow]
      exact hc
    · exact ⟨[], fun n h1 h2 h3 => absurd ⟨n, h1, h2, h3⟩ h⟩
  choose g hg using this
  exact ⟨fun a b => g (a, b), fun n a b h1 h2 h3 => hg (a, b) n h1 h2 h3⟩

/-- A problem that meets the other hypotheses: eight observations, a zero point and two coefficients of the phase angle. -/
noncomputable def sample : Problem where
  points := (List.range 8).map fun i : Nat => ⟨i / 10, (i : ℝ) ^ 2, [1, 5 + i, (5 + i) ^ 2], 1 + i⟩
  nFixed := 3
  weighted := true
  priors := ((0.02, 100), (0, 1000000))

theorem sample_ok : sample.Ok := by
  refine ⟨by decide, fun q hq => ?_, fun q hq => ?_, by norm_num [sample], by norm_num [sample]⟩
  · obtain ⟨i, -, rfl⟩ := List.mem_map.1 hq
    rfl
  · obtain ⟨i, -, rfl⟩ := List.mem_map.1 hq
    simp only [Problem.weight, sample, if_true]
    positivity

/-- Without clipping the sample has a fit of order 2, for every solution of least squares. -/
example (lstsq : List (List ℝ) → List ℝ → List ℝ) (f : ℝ) : ∃ r, fitUnclipped lstsq sample f 2 = some r := by
  cases h : fitUnclipped lstsq sample f 2 with
  | some r => exact ⟨r, rfl⟩
  | none =>
    exfalso
    rcases (C71_unclipped sample_ok).2.1 h with h | ⟨-, h⟩
    · simp [sample] at h
    · simp [sample, List.range_succ] at h
      norm_num at h

/-- C71: without weights, a threshold of at least the root of the degrees of freedom clips nothing. -/
theorem C71_loose {lstsq : List (List ℝ) → List ℝ → List ℝ} {p : Problem} {f : ℝ} {order : Nat} {clip : ℝ} (hp : p.Ok) (hw : p.weighted = false)
    (hc : 0 ≤ clip) (h : (p.points.length : ℝ) - (p.nFixed + 2 * order) ≤ clip ^ 2) (maxIterations : ℤ) :
    fitFrequency lstsq p f order clip maxIterations = fitUnclipped lstsq p f order := by
  unfold fitFrequency fitUnclipped lastFit
  by_cases hn : p.points.length ≤ p.nFixed + 2 * order
  · rw [if_pos hn, if_pos hn]
  rw [if_neg hn, if_neg hn]
  obtain ⟨k, hk⟩ : ∃ k, (max 1 maxIterations).toNat = k + 1 := ⟨(max 1 maxIterations).toNat - 1, by omega⟩
  rw [hk]
  unfold clipLoop
  rw [if_neg hn]
  cases hs : sigmaOf p f order p.points (solve lstsq p f order p.points) with
  | none => exact absurd (sigmaOf_none.1 hs).1 (by simp [hw])
  | some s =>
    obtain ⟨h1, h2, -⟩ := sigmaOf_some hp (fun q hq => hq) (by omega) hs
    simp only [hs]
    rw [if_pos]
    · rfl
    rw [List.all_eq_true]
    intro q hq
    refine decide_eq_true ?_
    rw [residual_eq (hp.rows q hq), h1]
    have hdf : (0 : ℝ) < (p.points.length : ℝ) - (p.nFixed + 2 * order) := by
      have : ((p.nFixed + 2 * order : Nat) : ℝ) < p.points.length := by exact_mod_cast not_le.1 hn
      push_cast at this
      linarith
    have hle : (q.y - modelMag p.nFixed f order (solve lstsq p f order p.points) q) ^ 2 ≤
        (p.points.map fun q => p.weight q * (q.y - modelMag p.nFixed f order (solve lstsq p f order p.points) q) ^ 2).sum := by
      refine List.single_le_sum (fun x hx => ?_) _ (List.mem_map.2 ⟨q, hq, by simp [Problem.weight, hw]⟩)
      obtain ⟨q, hq, rfl⟩ := List.mem_map.1 hx
      exact mul_nonneg (hp.weights q hq) (sq_nonneg _)
    unfold scatter
    refine abs_le_of_sq_le_sq ?_ (mul_nonneg hc (Real.sqrt_nonneg _))
    rw [mul_pow, Real.sq_sqrt]
    · simp only [hw, Bool.false_eq_true, if_false, one_mul]
      refine hle.trans ?_
      rw [← mul_div_assoc, le_div_iff₀ hdf, mul_comm]
      exact mul_le_mul_of_nonneg_right h (le_trans (sq_nonneg _) hle)
    · simp only [hw, Bool.false_eq_true, if_false, one_mul]
      exact div_nonneg (le_trans (sq_nonneg _) hle) hdf.le

/-- Fewer numbers than `d` are beyond the root of their sum of squares over `d`. -/
theorem beyond_lt {α : Type} (l : List α) (r : α → ℝ) {d clip : ℝ} (hd : 0 < d) (hc : 1 ≤ clip) (b : α → Bool)
    (hb : ∀ q ∈ l, b q = true → clip * Real.sqrt ((l.map fun q => r q ^ 2).sum / d) < |r q|) : ((l.filter b).length : ℝ) < d := by
  set S := (l.map fun q => r q ^ 2).sum with hS
  have hS0 : 0 ≤ S := List.sum_nonneg fun x hx => by
    obtain ⟨q, -, rfl⟩ := List.mem_map.1 hx
    exact sq_nonneg _
  have hsub : ((l.filter b).map fun q => r q ^ 2).sum ≤ S := by
    refine List.Sublist.sum_le_sum ((List.filter_sublist).map _) fun x hx => ?_
    obtain ⟨q, -, rfl⟩ := List.mem_map.1 hx
    exact sq_nonneg _
  have hbig : ∀ q ∈ l.filter b, S / d < r q ^ 2 := by
    intro q hq
    obtain ⟨h1, h2⟩ := List.mem_filter.1 hq
    have h3 := hb q h1 h2
    have h4 : Real.sqrt (S / d) < |r q| := lt_of_le_of_lt (le_mul_of_one_le_left (Real.sqrt_nonneg _) hc) h3
    have h5 := pow_lt_pow_left₀ h4 (Real.sqrt_nonneg _) two_ne_zero
    rwa [Real.sq_sqrt (div_nonneg hS0 hd.le), sq_abs] at h5
  rcases List.eq_nil_or_concat (l.filter b) with h0 | ⟨l', a, h0⟩
  · rw [h0]
    simpa using hd
  · have hlt : (((l.filter b).length : ℝ)) * (S / d) < ((l.filter b).map fun q => r q ^ 2).sum := by
      have := List.sum_lt_sum (fun _ => S / d) (fun q => r q ^ 2) (l := l.filter b) (fun q hq => (hbig q hq).le) ⟨a, by rw [h0]; simp, hbig a (by rw [h0]; simp)⟩
      simpa using this
    have h1 := lt_of_lt_of_le hlt hsub
    have hpos : 0 < S := by
      rcases hS0.lt_or_eq with h | h
      · exact h
      · rw [← h] at h1
        simp at h1
    rw [← mul_div_assoc, div_lt_iff₀ hd, mul_comm] at h1
    exact lt_of_mul_lt_mul_left h1 hpos.le

/-- C71: without weights, and with a threshold of at least 1, there is a fit exactly if there are more observations than parameters: clipping
never removes as many as would leave none to spare. -/
theorem C71_exists {lstsq : List (List ℝ) → List ℝ → List ℝ} {p : Problem} {f : ℝ} {order : Nat} {clip : ℝ} (hp : p.Ok) (hw : p.weighted = false)
    (hc : 1 ≤ clip) (maxIterations : ℤ) :
    fitFrequency lstsq p f order clip maxIterations = none ↔ p.points.length ≤ p.nFixed + 2 * order := by
  refine ⟨fun h => ?_, C71_few maxIterations⟩
  by_contra hn
  obtain ⟨n, -, -, -, h1⟩ := C71_rounds (lstsq := lstsq) (f := f) (order := order) (clip := clip) hp maxIterations
  have key : ∀ i, p.nFixed + 2 * order < ((round lstsq p f order clip)^[i] p.points).length := by
    intro i
    induction i with
    | zero => exact not_le.1 hn
    | succ i ih =>
      rw [Function.iterate_succ_apply']
      generalize (round lstsq p f order clip)^[i] p.points = kept at ih ⊢
      have hdf : (0 : ℝ) < (kept.length : ℝ) - (p.nFixed + 2 * order) := by
        have : ((p.nFixed + 2 * order : Nat) : ℝ) < kept.length := by exact_mod_cast ih
        push_cast at this
        linarith
      have hr := beyond_lt kept (fun q => q.y - modelMag p.nFixed f order (solve lstsq p f order kept) q) hdf hc
        (open Classical in fun q => !decide (|q.y - modelMag p.nFixed f order (solve lstsq p f order kept) q| ≤ clip * scatter p f order kept (solve lstsq p f order kept))) (by
          intro q _ h
          simp only [Bool.not_eq_true', decide_eq_false_iff_not, not_le] at h
          refine lt_of_eq_of_lt ?_ h
          unfold scatter
          simp [hw, Problem.weight])
      have hlen := List.length_eq_length_filter_add (l := kept)
        (open Classical in fun q => decide (|q.y - modelMag p.nFixed f order (solve lstsq p f order kept) q| ≤ clip * scatter p f order kept (solve lstsq p f order kept)))
      unfold round
      have h2 := congrArg (Nat.cast : Nat → ℝ) hlen
      rw [Nat.cast_add] at h2
      have h3 : ((p.nFixed + 2 * order : Nat) : ℝ) < _ := lt_of_lt_of_eq (show ((p.nFixed + 2 * order : Nat) : ℝ) < (kept.length : ℝ) - _ by
        rw [h2] at hr ⊢
        push_cast
        linarith) (sub_eq_of_eq_add h2)
      exact_mod_cast h3
  rcases h1 h with h2 | ⟨h2, -⟩
  · exact absurd (key n) (not_lt.2 h2)
  · rw [hw] at h2
    cases h2

/-- The sample without weights, fitted with order 2 and a threshold of 1, has a fit. -/
example (lstsq : List (List ℝ) → List ℝ → List ℝ) (f : ℝ) : ∃ r, fitFrequency lstsq { sample with weighted := false } f 2 1 8 = some r := by
  have ok : Problem.Ok { sample with weighted := false } :=
    ⟨sample_ok.two, sample_ok.rows, fun q _ => by simp [Problem.weight], sample_ok.priors⟩
  rw [C71_loose ok rfl zero_le_one (by simp [sample]; norm_num)]
  cases h : fitUnclipped lstsq { sample with weighted := false } f 2 with
  | some r => exact ⟨r, rfl⟩
  | none =>
    exfalso
    rcases (C71_unclipped ok).2.1 h with h | ⟨h, -⟩
    · simp [sample] at h
    · simp at h

end Verif.Rot.Props
