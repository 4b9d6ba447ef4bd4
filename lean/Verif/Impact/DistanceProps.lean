import Verif.Impact.Distance
import Verif.Resid.Props
import Mathlib.Analysis.Matrix.PosDef

/-! # Properties of the distance between two orbits (C173) -/

namespace Verif.Impact.DistanceProps

open Verif Verif.Resid Verif.Resid.Props Verif.Impact.Distance Matrix

variable {D : Nat}

/-- An orbit with all coordinates and covariances. -/
def full (x : Fin D → ℝ) : Vec D := fun i => some (x i)

/-- All covariances. -/
def fullCov (C : Matrix (Fin D) (Fin D) ℝ) : Resid.Cov D := fun i j => some (C i j)

/-- One orbit as a table of Cartesian coordinates. -/
def orbit (a f : Str) (v : Vec D) (c : Resid.Cov D) : Table D := ⟨.cartesian, [a], f, [v], [c]⟩

theorem calc_single (cdf : ℝ → Nat → ℝ) (a f : Str) (v w : Vec D) (c q : Resid.Cov D)
    (h : NoCov (⟨v, residual .cartesian v w, totalCov .cartesian true v c q⟩ : Row D) ∨
      Invertible (⟨v, residual .cartesian v w, totalCov .cartesian true v c q⟩ : Row D)) :
    mahalanobis cdf (orbit a f v c) (orbit a f w q) =
      .ok [npSqrt (chi2In [⟨v, residual .cartesian v w, totalCov .cartesian true v c q⟩]
        ⟨v, residual .cartesian v w, totalCov .cartesian true v c q⟩)] := by
  have hl : rowList .cartesian true [v] [c] [w] [q] = [⟨v, residual .cartesian v w, totalCov .cartesian true v c q⟩] := rfl
  have : calculate cdf (orbit a f v c) (orbit a f w q) false true =
      .ok ((rowList .cartesian true [v] [c] [w] [q]).map (answer cdf (rowList .cartesian true [v] [c] [w] [q]))) := by
    refine calculate_ok.mpr ⟨⟨Or.inr ⟨rfl, rfl⟩, rfl, by simp [orbit, originsDiffer], rfl⟩, [w], [q], rfl, rfl, ?_, rfl⟩
    intro r hr
    change Fine (rowList .cartesian true [v] [c] [w] [q]) r
    change r ∈ rowList .cartesian true [v] [c] [w] [q] at hr
    rw [hl] at hr ⊢
    rw [List.mem_singleton.mp hr]
    exact fine_single.mpr h
  unfold mahalanobis
  rw [this, hl]
  rfl

/-- All places have values. -/
def everywhere (x : Fin D → ℝ) : {i : Fin D // mask (full x) i = true} ≃ Fin D := Equiv.subtypeUnivEquiv fun _ => rfl

/-- The row of two complete orbits whose covariances sum to an invertible matrix. -/
theorem complete_row (x y : Fin D → ℝ) (C Q : Matrix (Fin D) (Fin D) ℝ) (hdet : (C + Q).det ≠ 0) :
    Invertible (⟨full x, residual .cartesian (full x) (full y), totalCov .cartesian true (full x) (fullCov C) (fullCov Q)⟩ : Row D) := by
  classical
  refine ⟨fun i => by change some _ ≠ none; simp, ?_⟩
  have hsub : Resid.sub (mask (full x)) (totalCov .cartesian true (full x) (fullCov C) (fullCov Q)) = (C + Q).submatrix (everywhere x) (everywhere x) := by
    ext i j
    rfl
  change (Resid.sub (mask (full x)) _).det ≠ 0
  rw [hsub, det_submatrix_equiv_self]
  exact hdet

/-- The distance of two complete orbits whose covariances sum to an invertible matrix. -/
theorem distance_eq (cdf : ℝ → Nat → ℝ) (a f : Str) (x y : Fin D → ℝ) (C Q : Matrix (Fin D) (Fin D) ℝ) (hD : 0 < D) (hdet : (C + Q).det ≠ 0) :
    mahalanobis cdf (orbit a f (full x) (fullCov C)) (orbit a f (full y) (fullCov Q)) =
      .ok [npSqrt (some ((x - y) ⬝ᵥ ((C + Q)⁻¹ *ᵥ (x - y))))] := by
  classical
  set r : Row D := ⟨full x, residual .cartesian (full x) (full y), totalCov .cartesian true (full x) (fullCov C) (fullCov Q)⟩ with hr
  have hcov : ∀ i j, r.cov i j = some (C i j + Q i j) := fun i j => rfl
  have hres : ∀ i, r.resid i = some (x i - y i) := fun i => rfl
  have hsub : Resid.sub (mask (full x)) r.cov = (C + Q).submatrix (everywhere x) (everywhere x) := by
    ext i j
    simp only [Resid.sub, hcov, submatrix_apply, Matrix.add_apply]
    rfl
  have hinv : Invertible r := by
    refine ⟨fun i => by rw [hcov]; simp, ?_⟩
    change (Resid.sub (mask (full x)) r.cov).det ≠ 0
    rw [hsub, det_submatrix_equiv_self]
    exact hdet
  have hno : ¬ BatchNoCov [r] r := by
    intro h
    have := h r List.mem_cons_self rfl ⟨⟨0, hD⟩, rfl⟩ ⟨⟨0, hD⟩, rfl⟩
    rw [hcov] at this
    cases this
  rw [calc_single cdf a f _ _ _ _ (.inr hinv), ← hr]
  unfold chi2In
  rw [if_neg hno]
  unfold chi2Row
  rw [if_pos (fun i => by rw [hres]; rfl)]
  congr 3
  change some (∑ i, ∑ j, ((r.resid i.1).getD 0) * (Resid.sub (mask (full x)) r.cov)⁻¹ i j * ((r.resid j.1).getD 0)) = _
  congr 1
  rw [hsub, inv_submatrix_equiv]
  simp only [hres, Option.getD_some, submatrix_apply, dotProduct, mulVec]
  rw [← Equiv.sum_comp (everywhere x) (fun i => (x - y) i * ∑ j, (C + Q)⁻¹ i j * (x - y) j)]
  refine Finset.sum_congr rfl fun i _ => ?_
  rw [← Equiv.sum_comp (everywhere x) (fun j => (C + Q)⁻¹ (everywhere x i) j * (x - y) j), Finset.mul_sum]
  refine Finset.sum_congr rfl fun j _ => ?_
  simp only [Pi.sub_apply]
  change (x i.1 - y i.1) * _ * (x j.1 - y j.1) = (x i.1 - y i.1) * (_ * (x j.1 - y j.1))
  ring

/-- Two orbits to be compared: states and covariances. -/
abbrev Pair (D : Nat) : Type := ((Fin D → ℝ) × Matrix (Fin D) (Fin D) ℝ) × ((Fin D → ℝ) × Matrix (Fin D) (Fin D) ℝ)

/-- Complete orbits of one origin as a table of Cartesian coordinates. -/
def orbits (a f : Str) (l : List ((Fin D → ℝ) × Matrix (Fin D) (Fin D) ℝ)) : Table D :=
  ⟨.cartesian, l.map fun _ => a, f, l.map fun o => full o.1, l.map fun o => fullCov o.2⟩

/-- Of tables of complete orbits, each distance is that of the two orbits in its row alone. -/
theorem C173_rows (cdf : ℝ → Nat → ℝ) (a f : Str) (l : List (Pair D)) (hl : l ≠ []) (hD : 0 < D) (hdet : ∀ p ∈ l, (p.1.2 + p.2.2).det ≠ 0) :
    ∃ ds, mahalanobis cdf (orbits a f (l.map Prod.fst)) (orbits a f (l.map Prod.snd)) = .ok ds ∧
      List.Forall₂ (fun p d => mahalanobis cdf (orbit a f (full p.1.1) (fullCov p.1.2)) (orbit a f (full p.2.1) (fullCov p.2.2)) = .ok [d]) l ds := by
  classical
  set row : Pair D → Row D := fun p => ⟨full p.1.1, residual .cartesian (full p.1.1) (full p.2.1),
    totalCov .cartesian true (full p.1.1) (fullCov p.1.2) (fullCov p.2.2)⟩ with hrow
  have hR : rowList .cartesian true ((l.map Prod.fst).map fun o => full o.1) ((l.map Prod.fst).map fun o => fullCov o.2)
      ((l.map Prod.snd).map fun o => full o.1) ((l.map Prod.snd).map fun o => fullCov o.2) = l.map row := by
    clear hl hdet
    induction l with
    | nil => rfl
    | cons p l ih =>
      rw [List.map_cons]
      exact congrArg (row p :: ·) ih
  have hinv : ∀ p ∈ l, Invertible (row p) := fun p hp => complete_row p.1.1 p.2.1 p.1.2 p.2.2 (hdet p hp)
  have hno : ∀ p ∈ l, ∀ R : List (Row D), row p ∈ R → ¬ BatchNoCov R (row p) := by
    intro p hp R hm h
    have := h (row p) hm rfl ⟨⟨0, hD⟩, rfl⟩ ⟨⟨0, hD⟩, rfl⟩
    cases this
  have hbr : ∀ (A : Type) (x : List A), broadcastTo x.length x = .ok x := by
    intro A x
    rcases x with _ | ⟨x, _ | ⟨y, t⟩⟩ <;> simp [broadcastTo]
  have hc : calculate cdf (orbits a f (l.map Prod.fst)) (orbits a f (l.map Prod.snd)) false true =
      .ok ((l.map row).map (answer cdf (l.map row))) := by
    refine calculate_ok.mpr ⟨⟨Or.inr ⟨rfl, rfl⟩, rfl, ?_, rfl⟩, (l.map Prod.snd).map fun o => full o.1, (l.map Prod.snd).map fun o => fullCov o.2, ?_, ?_, ?_, ?_⟩
    · cases l with
      | nil => exact absurd rfl hl
      | cons p l => simp [orbits, originsDiffer]
    · have := hbr _ ((l.map Prod.snd).map fun o => full (D := D) o.1)
      simpa [orbits] using this
    · have := hbr _ ((l.map Prod.snd).map fun o => fullCov (D := D) o.2)
      simpa [orbits] using this
    · change ∀ r ∈ rowList .cartesian true ((l.map Prod.fst).map fun o => full o.1) ((l.map Prod.fst).map fun o => fullCov o.2)
        ((l.map Prod.snd).map fun o => full o.1) ((l.map Prod.snd).map fun o => fullCov o.2), Fine (rowList .cartesian true
        ((l.map Prod.fst).map fun o => full o.1) ((l.map Prod.fst).map fun o => fullCov o.2)
        ((l.map Prod.snd).map fun o => full o.1) ((l.map Prod.snd).map fun o => fullCov o.2)) r
      rw [hR]
      intro r _
      right
      intro r' hr' _
      obtain ⟨p, hp, rfl⟩ := List.mem_map.mp hr'
      exact hinv p hp
    · change _ = (rowList .cartesian true ((l.map Prod.fst).map fun o => full o.1) ((l.map Prod.fst).map fun o => fullCov o.2)
        ((l.map Prod.snd).map fun o => full o.1) ((l.map Prod.snd).map fun o => fullCov o.2)).map (answer cdf (rowList .cartesian true
        ((l.map Prod.fst).map fun o => full o.1) ((l.map Prod.fst).map fun o => fullCov o.2)
        ((l.map Prod.snd).map fun o => full o.1) ((l.map Prod.snd).map fun o => fullCov o.2)))
      rw [hR]
  refine ⟨l.map fun p => npSqrt (chi2In (l.map row) (row p)), ?_, ?_⟩
  · unfold mahalanobis
    rw [hc]
    simp only [List.map_map]
    rfl
  · rw [List.forall₂_map_right_iff, List.forall₂_same]
    intro p hp
    rw [calc_single cdf a f _ _ _ _ (.inr (hinv p hp))]
    congr 3
    unfold chi2In
    rw [if_neg (hno p hp _ List.mem_cons_self), if_neg (hno p hp _ (List.mem_map_of_mem hp))]

/-- Two orbits with all coordinates whose covariances sum to a positive definite matrix `S`: there is one distance `d`, at least zero, with
`d² = Δ · z` where `S z = Δ` is the difference of the states; it is zero exactly if the states are the same. -/
theorem C173_distance (cdf : ℝ → Nat → ℝ) (a f : Str) (x y : Fin D → ℝ) (C Q : Matrix (Fin D) (Fin D) ℝ) (hD : 0 < D) (hpos : (C + Q).PosDef) :
    ∃ (d : ℝ) (z : Fin D → ℝ), mahalanobis cdf (orbit a f (full x) (fullCov C)) (orbit a f (full y) (fullCov Q)) = .ok [some d] ∧ 0 ≤ d ∧
      (C + Q) *ᵥ z = x - y ∧ d ^ 2 = (x - y) ⬝ᵥ z ∧ (d = 0 ↔ x = y) := by
  classical
  have hdet : (C + Q).det ≠ 0 := (Matrix.PosDef.det_pos hpos).ne'
  have hnn : 0 ≤ (x - y) ⬝ᵥ ((C + Q)⁻¹ *ᵥ (x - y)) := by
    have := hpos.inv.posSemidef.dotProduct_mulVec_nonneg (x - y)
    rwa [star_trivial] at this
  refine ⟨√((x - y) ⬝ᵥ ((C + Q)⁻¹ *ᵥ (x - y))), (C + Q)⁻¹ *ᵥ (x - y), ?_, Real.sqrt_nonneg _, ?_, Real.sq_sqrt hnn, ?_⟩
  · rw [distance_eq cdf a f x y C Q hD hdet]
    rw [npSqrt, Option.bind_some, if_neg (not_lt.mpr hnn)]
  · rw [mulVec_mulVec, mul_nonsing_inv _ (isUnit_iff_ne_zero.mpr hdet), one_mulVec]
  · rw [Real.sqrt_eq_zero hnn]
    constructor
    · intro h0
      by_contra hne
      have := hpos.inv.dotProduct_mulVec_pos (sub_ne_zero.mpr hne)
      rw [star_trivial, h0] at this
      exact lt_irrefl _ this
    · rintro rfl
      simp

/-- Of two orbits with all coordinates and covariances, it does not matter which is the observed one. -/
theorem C173_symmetric (cdf : ℝ → Nat → ℝ) (a f : Str) (x y : Fin D → ℝ) (C Q : Matrix (Fin D) (Fin D) ℝ) (hD : 0 < D) (hdet : (C + Q).det ≠ 0) :
    mahalanobis cdf (orbit a f (full x) (fullCov C)) (orbit a f (full y) (fullCov Q)) =
      mahalanobis cdf (orbit a f (full y) (fullCov Q)) (orbit a f (full x) (fullCov C)) := by
  rw [distance_eq cdf a f x y C Q hD hdet, distance_eq cdf a f y x Q C hD (by rwa [add_comm])]
  congr 4
  rw [add_comm Q C, ← neg_sub x y, mulVec_neg, dotProduct_neg, neg_dotProduct, neg_neg]

/-- The distance does not depend on the units or axes: under an invertible linear change of the coordinates of both orbits, with their covariances,
it is the same. -/
theorem C173_linear (cdf : ℝ → Nat → ℝ) (a f f' : Str) (x y : Fin D → ℝ) (C Q L : Matrix (Fin D) (Fin D) ℝ) (hD : 0 < D)
    (hdet : (C + Q).det ≠ 0) (hL : L.det ≠ 0) :
    mahalanobis cdf (orbit a f' (full (L *ᵥ x)) (fullCov (L * C * Lᵀ))) (orbit a f' (full (L *ᵥ y)) (fullCov (L * Q * Lᵀ))) =
      mahalanobis cdf (orbit a f (full x) (fullCov C)) (orbit a f (full y) (fullCov Q)) := by
  have hS : L * C * Lᵀ + L * Q * Lᵀ = L * (C + Q) * Lᵀ := by rw [Matrix.mul_add, Matrix.add_mul]
  have hdet' : (L * (C + Q) * Lᵀ).det ≠ 0 := by
    rw [det_mul, det_mul, det_transpose]
    exact mul_ne_zero (mul_ne_zero hL hdet) hL
  rw [distance_eq cdf a f' _ _ _ _ hD (by rwa [hS]), distance_eq cdf a f x y C Q hD hdet, hS]
  congr 4
  have hu : IsUnit L.det := isUnit_iff_ne_zero.mpr hL
  have hut : IsUnit (Lᵀ).det := by rw [det_transpose]; exact hu
  rw [← mulVec_sub, Matrix.mul_inv_rev, Matrix.mul_inv_rev, mulVec_mulVec, Matrix.mul_assoc, Matrix.mul_assoc, nonsing_inv_mul _ hu,
    Matrix.mul_one, ← mulVec_mulVec, dotProduct_mulVec, ← mulVec_transpose, mulVec_mulVec, ← transpose_nonsing_inv,
    transpose_transpose, nonsing_inv_mul _ hu, one_mulVec]

/-- Not true: that it never matters which orbit is the observed one. Missing covariances of the predicted orbit count as zero, those of the observed one
leave no distance. -/
theorem C173_symmetric_false (cdf : ℝ → Nat → ℝ) : ∃ (o p : Table 1) (d : ℝ), mahalanobis cdf o p = .ok [some d] ∧ mahalanobis cdf p o = .ok [none] := by
  classical
  refine ⟨orbit [] [] (full fun _ => 1) (fullCov 1), orbit [] [] (full fun _ => 0) (fun _ _ => none), 1, ?_, ?_⟩
  · have e : mahalanobis cdf (orbit [] [] (full fun _ : Fin 1 => (1 : ℝ)) (fullCov 1)) (orbit [] [] (full fun _ => 0) (fun _ _ => none)) =
        mahalanobis cdf (orbit [] [] (full fun _ : Fin 1 => (1 : ℝ)) (fullCov 1)) (orbit [] [] (full fun _ => 0) (fullCov 0)) := by
      have ht : totalCov .cartesian true (full fun _ : Fin 1 => (1 : ℝ)) (fullCov 1) (fun _ _ => none) =
          totalCov .cartesian true (full fun _ : Fin 1 => (1 : ℝ)) (fullCov 1) (fullCov 0) := by
        funext i j
        rfl
      have hinv : Invertible (⟨full fun _ : Fin 1 => (1 : ℝ), residual .cartesian (full fun _ => 1) (full fun _ => 0),
          totalCov .cartesian true (full fun _ => 1) (fullCov 1) (fullCov 0)⟩ : Row 1) := by
        refine ⟨fun i => by simp [totalCov, fullCov, zeroed, lift2], ?_⟩
        have : Resid.sub (mask (full fun _ : Fin 1 => (1 : ℝ))) (totalCov .cartesian true (full fun _ => 1) (fullCov 1) (fullCov 0)) =
            (1 : Matrix (Fin 1) (Fin 1) ℝ).submatrix (everywhere fun _ => 1) (everywhere fun _ => 1) := by
          ext i j
          have e : i = j := Subtype.ext (Subsingleton.elim _ _)
          subst e
          simp [Resid.sub, totalCov, fullCov, zeroed, lift2]
        change (Resid.sub (mask (full fun _ : Fin 1 => (1 : ℝ))) _).det ≠ 0
        rw [this, det_submatrix_equiv_self, det_one]
        norm_num
      rw [calc_single _ _ _ _ _ _ _ (.inr (by rw [ht]; exact hinv)), calc_single _ _ _ _ _ _ _ (.inr hinv), ht]
    rw [e, distance_eq cdf _ _ _ _ _ _ (by norm_num) (by simp)]
    simp [npSqrt, dotProduct]
  · have hn : NoCov (⟨full fun _ : Fin 1 => (0 : ℝ), residual .cartesian (full fun _ => 0) (full fun _ => 1),
        totalCov .cartesian true (full fun _ => 0) (fun _ _ => none) (fullCov 1)⟩ : Row 1) := fun _ _ => rfl
    rw [calc_single _ _ _ _ _ _ _ (.inl hn)]
    unfold chi2In
    rw [if_pos]
    · rfl
    · intro r hr _
      rw [List.mem_singleton.mp hr]
      exact hn

/-- A concrete case: one coordinate, two orbits 6 apart with variances 1 and 3, are 3 apart. -/
theorem C173_case (cdf : ℝ → Nat → ℝ) : mahalanobis cdf (orbit [] [] (full fun _ : Fin 1 => (7 : ℝ)) (fullCov 1))
    (orbit [] [] (full fun _ => 1) (fullCov ((3 : ℝ) • (1 : Matrix (Fin 1) (Fin 1) ℝ)))) = .ok [some 3] := by
  have hS : (1 : Matrix (Fin 1) (Fin 1) ℝ) + (3 : ℝ) • 1 = (4 : ℝ) • 1 := by ext i j; fin_cases i; fin_cases j; norm_num
  have hdet : ((4 : ℝ) • (1 : Matrix (Fin 1) (Fin 1) ℝ)).det ≠ 0 := by simp
  rw [distance_eq cdf _ _ _ _ _ _ (by norm_num) (by rw [hS]; exact hdet), hS]
  have hi : ((4 : ℝ) • (1 : Matrix (Fin 1) (Fin 1) ℝ))⁻¹ = (1 / 4 : ℝ) • 1 := by
    apply inv_eq_right_inv
    rw [smul_mul_smul_comm]
    norm_num
  rw [hi, npSqrt]
  have : ((fun _ : Fin 1 => (7 : ℝ)) - fun _ => 1) ⬝ᵥ (((1 / 4 : ℝ) • (1 : Matrix (Fin 1) (Fin 1) ℝ)) *ᵥ ((fun _ : Fin 1 => (7 : ℝ)) - fun _ => 1)) =
      3 ^ 2 := by
    simp [dotProduct, smul_mulVec]
    norm_num
  rw [this]
  simp only [Option.bind_some]
  rw [if_neg (by norm_num), Real.sqrt_sq (by norm_num)]

end Verif.Impact.DistanceProps
