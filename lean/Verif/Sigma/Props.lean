import Verif.Sigma.Model
import Mathlib.Analysis.Matrix.PosDef
import Mathlib.Analysis.Matrix.Order

/-! # Properties of sigma points (C48), of the repair of covariances (C103), and of variants of coordinates (C104) -/

namespace Verif.Sigma.Props

open Verif Verif.Sigma Matrix

variable {D : Nat}

/-! ## C48: sigma points -/

theorem zip_replicate {α : Type} (l : List α) (w : ℝ) (n : Nat) (h : l.length = n) :
    l.zip (List.replicate n w) = l.map fun x => (x, w) := by
  subst h
  induction l with
  | nil => rfl
  | cons a l ih => simp [List.replicate_succ, ih]

theorem ofFn_map_sum {β : Type} [AddCommMonoid β] {α : Type} (f : Fin D → α) (g : α → β) :
    ((List.ofFn f).map g).sum = ∑ i, g (f i) := by
  rw [List.map_ofFn, List.sum_ofFn]
  rfl

/-- The samples with their weights, as a list of pairs. -/
theorem zip_points (mean : Vec D) (L : Mat D) (w0 w : ℝ) :
    (mean :: (List.ofFn fun i => mean + L i) ++ List.ofFn fun i => mean - L i).zip (w0 :: List.replicate (2 * D) w) =
      (mean, w0) :: ((List.ofFn fun i => mean + L i) ++ List.ofFn fun i => mean - L i).map fun x => (x, w) := by
  rw [List.cons_append, List.zip_cons_cons, zip_replicate]
  simp; omega

/-- C48. There is an error exactly when `D + λ = α² (D + κ)` is zero. -/
theorem C48_error (sqrtm : Mat D → Mat D) (mean : Vec D) (cov : Mat D) (alpha beta kappa : ℝ) :
    (∃ e, sigmaPoints sqrtm mean cov alpha beta kappa = .error e) ↔ alpha = 0 ∨ (D : ℝ) + kappa = 0 := by
  unfold sigmaPoints
  simp only
  rw [show (D : ℝ) + (alpha ^ 2 * (D + kappa) - D) = alpha ^ 2 * (D + kappa) by ring]
  have hiff : alpha ^ 2 * ((D : ℝ) + kappa) = 0 ↔ alpha = 0 ∨ (D : ℝ) + kappa = 0 := by simp
  constructor
  · rintro ⟨e, h⟩
    split at h
    · rename_i h'; exact hiff.mp h'
    · cases h
  · intro h
    exact ⟨.zeroDivision, by rw [if_pos (hiff.mpr h)]⟩

/-- C48. There are `2 D + 1` points and as many weights of each kind; the first point is the mean. -/
theorem C48_count {sqrtm : Mat D → Mat D} {mean : Vec D} {cov : Mat D} {alpha beta kappa : ℝ} {s : Sampled D}
    (h : sigmaPoints sqrtm mean cov alpha beta kappa = .ok s) :
    s.samples.length = 2 * D + 1 ∧ s.W.length = 2 * D + 1 ∧ s.Wcov.length = 2 * D + 1 ∧ s.samples.head? = some mean := by
  unfold sigmaPoints at h
  simp only at h
  split at h
  · cases h
  injection h with h
  subst h
  simp
  omega

/-- C48. The weights for the mean add up to one; those for the covariance to `2 - α² + β`. -/
theorem C48_weights {sqrtm : Mat D → Mat D} {mean : Vec D} {cov : Mat D} {alpha beta kappa : ℝ} {s : Sampled D}
    (h : sigmaPoints sqrtm mean cov alpha beta kappa = .ok s) : s.W.sum = 1 ∧ s.Wcov.sum = 2 - alpha ^ 2 + beta := by
  unfold sigmaPoints at h
  simp only at h
  split at h
  · cases h
  rename_i hne
  injection h with h
  subst h
  simp only [List.sum_cons, List.sum_replicate, nsmul_eq_mul]
  push_cast
  generalize alpha ^ 2 * ((D : ℝ) + kappa) - D = l at *
  constructor
  · field_simp; ring
  · field_simp; ring

/-- C48. The weighted mean of the points is the mean, whatever the square root. -/
theorem C48_mean {sqrtm : Mat D → Mat D} {mean : Vec D} {cov : Mat D} {alpha beta kappa : ℝ} {s : Sampled D}
    (h : sigmaPoints sqrtm mean cov alpha beta kappa = .ok s) : weightedMean s.samples s.W = mean := by
  have hw := (C48_weights h).1
  unfold sigmaPoints at h
  simp only at h
  split at h
  · cases h
  injection h with h
  subst h
  simp only [List.sum_cons, List.sum_replicate, nsmul_eq_mul] at hw
  push_cast at hw
  unfold weightedMean
  simp only
  rw [zip_points, List.map_cons, List.sum_cons, List.map_map, List.map_append, List.sum_append, ofFn_map_sum, ofFn_map_sum]
  simp only [Function.comp]
  ext j
  simp only [Pi.add_apply, Pi.smul_apply, Finset.sum_apply, smul_eq_mul, Pi.sub_apply]
  rw [← Finset.sum_add_distrib]
  have : ∀ (w : ℝ) (c : Fin D), w * (mean j + (sqrtm (((D : ℝ) + (alpha ^ 2 * (D + kappa) - D)) • cov)) c j) +
      w * (mean j - (sqrtm (((D : ℝ) + (alpha ^ 2 * (D + kappa) - D)) • cov)) c j) = 2 * w * mean j := by
    intro w c; ring
  simp only [this, Finset.sum_const, Finset.card_univ, Fintype.card_fin, nsmul_eq_mul]
  linear_combination mean j * hw

/-- C48. The weighted covariance of the points about the mean is the covariance, if `sqrtm` gives a symmetric square root of
`(D + λ) cov`. -/
theorem C48_covariance {sqrtm : Mat D → Mat D} {mean : Vec D} {cov : Mat D} {alpha beta kappa : ℝ} {s : Sampled D}
    (h : sigmaPoints sqrtm mean cov alpha beta kappa = .ok s)
    (hsym : (sqrtm ((alpha ^ 2 * (D + kappa)) • cov))ᵀ = sqrtm ((alpha ^ 2 * (D + kappa)) • cov))
    (hsq : sqrtm ((alpha ^ 2 * (D + kappa)) • cov) * sqrtm ((alpha ^ 2 * (D + kappa)) • cov) =
      (alpha ^ 2 * (D + kappa)) • cov) :
    weightedCovariance mean s.samples s.Wcov = cov := by
  unfold sigmaPoints at h
  simp only at h
  rw [show (D : ℝ) + (alpha ^ 2 * (D + kappa) - D) = alpha ^ 2 * (D + kappa) by ring] at h
  split at h
  · cases h
  rename_i hne
  injection h with h
  subst h
  set M := alpha ^ 2 * ((D : ℝ) + kappa) with hM
  set L := sqrtm (M • cov) with hL
  ext i j
  unfold weightedCovariance
  simp only
  rw [zip_points, List.map_cons, List.sum_cons, List.map_map, List.map_append, List.sum_append, ofFn_map_sum, ofFn_map_sum]
  simp only [Function.comp, sub_self, Pi.zero_apply, mul_zero, zero_add, add_sub_cancel_left, sub_sub_cancel_left,
    Pi.neg_apply]
  rw [← Finset.sum_add_distrib]
  have hij := congrFun (congrFun hsq i) j
  rw [Matrix.mul_apply] at hij
  have hsym' : ∀ k, L i k = L k i := fun k => by
    have := congrFun (congrFun hsym i) k
    rw [Matrix.transpose_apply] at this
    exact this.symm
  simp only [hsym'] at hij
  have : ∀ k, 1 / (2 * M) * L k i * L k j + 1 / (2 * M) * -L k i * -L k j = 1 / M * (L k i * L k j) := by
    intro k; field_simp; ring
  simp only [this]
  rw [← Finset.mul_sum, hij, Matrix.smul_apply, smul_eq_mul]
  field_simp

/-- C48. A positive semidefinite covariance has such a square root, when `α ≠ 0` and `D + κ > 0`. -/
theorem C48_root_exists {cov : Mat D} (hcov : cov.PosSemidef) {alpha kappa : ℝ} (hk : 0 ≤ (D : ℝ) + kappa) :
    ∃ L : Mat D, Lᵀ = L ∧ L * L = (alpha ^ 2 * (D + kappa)) • cov := by
  have hM : 0 ≤ alpha ^ 2 * ((D : ℝ) + kappa) := mul_nonneg (sq_nonneg _) hk
  have hp : ((alpha ^ 2 * ((D : ℝ) + kappa)) • cov).PosSemidef := hcov.smul hM
  set A := (alpha ^ 2 * ((D : ℝ) + kappa)) • cov
  set U : Mat D := (hp.1.eigenvectorUnitary : Mat D)
  have hU : star U * U = 1 := Unitary.coe_star_mul_self _
  have hsp : A = U * diagonal (fun i => hp.1.eigenvalues i) * star U := by
    have := hp.1.spectral_theorem
    rw [Unitary.conjStarAlgAut_apply] at this
    simpa [Function.comp_def] using this
  refine ⟨U * diagonal (fun i => √(hp.1.eigenvalues i)) * star U, ?_, ?_⟩
  · have : star U = Uᵀ := by ext i j; simp [Matrix.star_apply]
    rw [this, Matrix.transpose_mul, Matrix.transpose_mul, Matrix.transpose_transpose, Matrix.diagonal_transpose, Matrix.mul_assoc]
  · calc U * diagonal (fun i => √(hp.1.eigenvalues i)) * star U * (U * diagonal (fun i => √(hp.1.eigenvalues i)) * star U)
        = U * diagonal (fun i => √(hp.1.eigenvalues i)) * (star U * U) * diagonal (fun i => √(hp.1.eigenvalues i)) * star U := by
          simp only [Matrix.mul_assoc]
      _ = U * (diagonal (fun i => √(hp.1.eigenvalues i)) * diagonal (fun i => √(hp.1.eigenvalues i))) * star U := by
          rw [hU]; simp only [Matrix.mul_assoc, Matrix.one_mul]
      _ = A := by
          rw [Matrix.diagonal_mul_diagonal]
          simp only [Real.mul_self_sqrt (hp.eigenvalues_nonneg _)]
          exact hsp.symm

/-- The hypotheses of C48 are met by every positive semidefinite covariance with the default parameters. -/
example {cov : Mat 6} (hcov : cov.PosSemidef) (mean : Vec 6) : ∃ (sqrtm : Mat 6 → Mat 6) (s : Sampled 6),
    sigmaPoints sqrtm mean cov 1 0 0 = .ok s ∧ weightedMean s.samples s.W = mean ∧
    weightedCovariance mean s.samples s.Wcov = cov := by
  obtain ⟨L, h1, h2⟩ := C48_root_exists hcov (alpha := 1) (kappa := 0) (by norm_num)
  have hne : ¬ ∃ e, sigmaPoints (fun _ => L) mean cov 1 0 0 = .error e := by rw [C48_error]; norm_num
  cases h : sigmaPoints (fun _ => L) mean cov 1 0 0 with
  | error e => exact absurd ⟨e, h⟩ hne
  | ok s => exact ⟨_, s, h, C48_mean h, C48_covariance h h1 h2⟩

/-- C48. An affine map of samples maps their weighted mean (if the weights add up to one) and covariance the same way: sigma
points carry mean and covariance exactly through every linear transformation. -/
theorem C48_affine {E : Nat} (A : Matrix (Fin E) (Fin D) ℝ) (b : Vec E) (samples : List (Vec D)) (W Wcov : List ℝ)
    (hlen : samples.length = W.length) (hW : W.sum = 1) (mean : Vec D) :
    weightedMean (samples.map fun x => A *ᵥ x + b) W = A *ᵥ weightedMean samples W + b ∧
    weightedCovariance (A *ᵥ mean + b) (samples.map fun x => A *ᵥ x + b) Wcov =
      A * weightedCovariance mean samples Wcov * Aᵀ := by
  constructor
  · have key : ∀ (samples : List (Vec D)) (W : List ℝ), samples.length = W.length →
        weightedMean (samples.map fun x => A *ᵥ x + b) W = A *ᵥ weightedMean samples W + W.sum • b := by
      intro samples
      induction samples with
      | nil =>
        intro W h
        have : W = [] := List.length_eq_zero_iff.mp h.symm
        subst this
        simp [weightedMean]
      | cons x samples ih =>
        intro W h
        cases W with
        | nil => simp at h
        | cons w W =>
          have := ih W (by simpa using h)
          unfold weightedMean at this ⊢
          simp only [List.map_cons, List.zip_cons_cons, List.sum_cons] at this ⊢
          rw [this, Matrix.mulVec_add, Matrix.mulVec_smul, smul_add, add_smul]
          abel
    rw [key samples W hlen, hW, one_smul]
  · ext i j
    have hr : ∀ x : Vec D, A *ᵥ x + b - (A *ᵥ mean + b) = A *ᵥ (x - mean) := by
      intro x; rw [Matrix.mulVec_sub]; abel
    rw [Matrix.mul_apply]
    simp only [Matrix.mul_apply, Matrix.transpose_apply, weightedCovariance]
    rw [List.zip_map_left, List.map_map]
    simp only [Function.comp_def, Prod.map_fst, Prod.map_snd, id_eq, hr]
    induction samples.zip Wcov with
    | nil => simp
    | cons p l ih =>
      simp only [List.map_cons, List.sum_cons]
      rw [ih]
      simp only [mul_add, add_mul, Finset.sum_add_distrib]
      congr 1
      simp only [Matrix.mulVec, dotProduct]
      rw [mul_assoc, Finset.sum_mul_sum]
      simp only [Finset.mul_sum, Finset.sum_mul]
      rw [Finset.sum_comm]
      refine Finset.sum_congr rfl fun k _ => Finset.sum_congr rfl fun l _ => ?_
      ring

/-! ## C103: the repair of covariances, and random samples -/

/-- `l` is an eigenvalue. -/
def HasEig (A : Mat D) (l : ℝ) : Prop := ∃ v : Vec D, v ≠ 0 ∧ A *ᵥ v = l • v

theorem star_real (U : Mat D) : star U = Uᵀ := by ext i j; simp [Matrix.star_apply]

theorem spectral {A : Mat D} (h : A.IsHermitian) :
    A = (h.eigenvectorUnitary : Mat D) * diagonal (fun i => h.eigenvalues i) * (h.eigenvectorUnitary : Mat D)ᵀ := by
  have := h.spectral_theorem
  rw [Unitary.conjStarAlgAut_apply] at this
  rw [← star_real]
  simpa [Function.comp_def] using this

theorem unitary_left {A : Mat D} (h : A.IsHermitian) : (h.eigenvectorUnitary : Mat D)ᵀ * (h.eigenvectorUnitary : Mat D) = 1 := by
  rw [← star_real]; exact Unitary.coe_star_mul_self _

theorem unitary_right {A : Mat D} (h : A.IsHermitian) : (h.eigenvectorUnitary : Mat D) * (h.eigenvectorUnitary : Mat D)ᵀ = 1 := by
  rw [← star_real]; exact Unitary.coe_mul_star_self _

/-- The eigenvalues of `U diag(d) Uᵀ`, for `U` orthogonal. -/
theorem hasEig_diag {U : Mat D} (hl : Uᵀ * U = 1) (hr : U * Uᵀ = 1) (d : Fin D → ℝ) (l : ℝ) :
    HasEig (U * diagonal d * Uᵀ) l ↔ ∃ i, d i = l := by
  constructor
  · rintro ⟨v, hv, he⟩
    have hw : Uᵀ *ᵥ v ≠ 0 := by
      intro h0
      apply hv
      have := congrArg (fun w => U *ᵥ w) h0
      simpa [Matrix.mulVec_mulVec, hr] using this
    obtain ⟨i, hi⟩ := Function.ne_iff.mp hw
    refine ⟨i, ?_⟩
    have := congrArg (fun w => Uᵀ *ᵥ w) he
    simp only [Matrix.mulVec_mulVec, Matrix.mulVec_smul] at this
    rw [← Matrix.mul_assoc, ← Matrix.mul_assoc, hl, Matrix.one_mul, ← Matrix.mulVec_mulVec] at this
    have := congrFun this i
    rw [Matrix.mulVec_diagonal, Pi.smul_apply, smul_eq_mul] at this
    exact mul_right_cancel₀ hi this
  · rintro ⟨i, rfl⟩
    refine ⟨U *ᵥ Pi.single i 1, ?_, ?_⟩
    · intro h0
      have := congrArg (fun w => Uᵀ *ᵥ w) h0
      simp only [Matrix.mulVec_mulVec, hl, Matrix.one_mulVec, Matrix.mulVec_zero] at this
      have := congrFun this i
      simp at this
    · rw [Matrix.mulVec_mulVec, Matrix.mul_assoc, hl, Matrix.mul_one, ← Matrix.mulVec_mulVec, ← Matrix.mulVec_smul]
      congr 1
      ext j
      rw [Matrix.mulVec_diagonal]
      by_cases hj : j = i
      · subst hj; simp
      · simp [hj]

theorem hasEig_iff {A : Mat D} (h : A.IsHermitian) (l : ℝ) : HasEig A l ↔ ∃ i, h.eigenvalues i = l := by
  conv_lhs => rw [spectral h]
  exact hasEig_diag (unitary_left h) (unitary_right h) _ l

/-- `xᵀ U diag(d) Uᵀ x`. -/
theorem quadratic {U : Mat D} (d : Fin D → ℝ) (x : Vec D) :
    x ⬝ᵥ ((U * diagonal d * Uᵀ) *ᵥ x) = ∑ i, d i * (Uᵀ *ᵥ x) i ^ 2 := by
  rw [← Matrix.mulVec_mulVec, ← Matrix.mulVec_mulVec, Matrix.dotProduct_mulVec, ← Matrix.mulVec_transpose, dotProduct]
  refine Finset.sum_congr rfl fun i _ => ?_
  rw [Matrix.mulVec_diagonal]
  ring

theorem quadratic_one {U : Mat D} (hr : U * Uᵀ = 1) (x : Vec D) : x ⬝ᵥ x = ∑ i, (Uᵀ *ᵥ x) i ^ 2 := by
  have := quadratic (U := U) (fun _ => 1) x
  rw [Matrix.diagonal_one, Matrix.mul_one, hr, Matrix.one_mulVec] at this
  rw [this]
  simp

/-- C103. The repair fails exactly if an eigenvalue is below `-tol`. -/
theorem C103_error {cov : Mat D} (h : cov.IsHermitian) (tol : ℝ) :
    makePositiveSemidefinite cov h tol = .error .valueError ↔ ∃ l < -tol, HasEig cov l := by
  unfold makePositiveSemidefinite
  have : (∃ i, h.eigenvalues i < -tol) ↔ ∃ l < -tol, HasEig cov l := by
    constructor
    · rintro ⟨i, hi⟩; exact ⟨_, hi, (hasEig_iff h _).mpr ⟨i, rfl⟩⟩
    · rintro ⟨l, hl, he⟩
      obtain ⟨i, rfl⟩ := (hasEig_iff h _).mp he
      exact ⟨i, hl⟩
  rw [← this]
  split
  · rename_i h'; simp [h']
  · rename_i h'; simp [h']

/-- C103. A positive semidefinite matrix is not changed. -/
theorem C103_unchanged {cov : Mat D} (h : cov.PosSemidef) {tol : ℝ} (ht : 0 ≤ tol) :
    makePositiveSemidefinite cov h.1 tol = .ok cov := by
  have hn := h.eigenvalues_nonneg
  unfold makePositiveSemidefinite
  rw [if_neg (by rintro ⟨i, hi⟩; linarith [hn i])]
  congr 1
  have : (fun i => flip tol (h.1.eigenvalues i)) = fun i => h.1.eigenvalues i := by
    ext i
    unfold flip
    rw [if_neg (by rintro ⟨h1, -⟩; linarith [hn i])]
  rw [this]
  exact (spectral h.1).symm

theorem flip_le {tol l : ℝ} (ht : 0 ≤ tol) : 0 ≤ flip tol l - l ∧ flip tol l - l ≤ 2 * tol := by
  unfold flip
  split
  · rename_i h
    rw [abs_of_neg h.1] at h
    constructor <;> linarith [h.1, h.2]
  · constructor <;> linarith

/-- C103. What is returned differs little from the matrix given: in every direction the variance grows by at most twice the
tolerance and never shrinks. -/
theorem C103_close {cov r : Mat D} (h : cov.IsHermitian) {tol : ℝ} (ht : 0 ≤ tol)
    (hr : makePositiveSemidefinite cov h tol = .ok r) (x : Vec D) :
    rᵀ = r ∧ 0 ≤ x ⬝ᵥ (r *ᵥ x) - x ⬝ᵥ (cov *ᵥ x) ∧ x ⬝ᵥ (r *ᵥ x) - x ⬝ᵥ (cov *ᵥ x) ≤ 2 * tol * (x ⬝ᵥ x) := by
  unfold makePositiveSemidefinite at hr
  split at hr
  · cases hr
  injection hr with hr
  have hc : x ⬝ᵥ (cov *ᵥ x) = ∑ i, h.eigenvalues i * ((h.eigenvectorUnitary : Mat D)ᵀ *ᵥ x) i ^ 2 := by
    conv_lhs => rw [spectral h]
    exact quadratic _ x
  rw [hc, ← hr, quadratic, quadratic_one (unitary_right h), ← Finset.sum_sub_distrib]
  refine ⟨?_, ?_, ?_⟩
  · rw [Matrix.transpose_mul, Matrix.transpose_mul, Matrix.transpose_transpose, Matrix.diagonal_transpose, Matrix.mul_assoc]
  · refine Finset.sum_nonneg fun i _ => ?_
    rw [← sub_mul]
    exact mul_nonneg (flip_le ht).1 (sq_nonneg _)
  · rw [Finset.mul_sum]
    refine Finset.sum_le_sum fun i _ => ?_
    rw [← sub_mul]
    exact mul_le_mul_of_nonneg_right (flip_le ht).2 (sq_nonneg _)

/-- C103. What is returned is positive semidefinite exactly if `-tol` itself is not an eigenvalue: an eigenvalue at the tolerance is
neither refused nor repaired. -/
theorem C103_psd {cov r : Mat D} (h : cov.IsHermitian) {tol : ℝ} (ht : 0 < tol)
    (hr : makePositiveSemidefinite cov h tol = .ok r) : (∀ x : Vec D, 0 ≤ x ⬝ᵥ (r *ᵥ x)) ↔ ¬ HasEig cov (-tol) := by
  unfold makePositiveSemidefinite at hr
  split at hr
  · cases hr
  rename_i hno
  injection hr with hr
  rw [hasEig_iff h, ← hr]
  constructor
  · rintro hx ⟨i, hi⟩
    have hE : HasEig ((h.eigenvectorUnitary : Mat D) * diagonal (fun i => flip tol (h.eigenvalues i)) *
        (h.eigenvectorUnitary : Mat D)ᵀ) (-tol) := by
      rw [hasEig_diag (unitary_left h) (unitary_right h)]
      refine ⟨i, ?_⟩
      rw [hi]; unfold flip
      rw [if_neg]
      rintro ⟨-, h2⟩
      rw [abs_neg, abs_of_pos ht] at h2
      exact lt_irrefl _ h2
    obtain ⟨v, hv, he⟩ := hE
    have := hx v
    rw [he, dotProduct_smul, smul_eq_mul] at this
    have hpos : 0 < v ⬝ᵥ v := by
      obtain ⟨k, hk⟩ := Function.ne_iff.mp hv
      have h1 : 0 ≤ v ⬝ᵥ v := Finset.sum_nonneg fun i _ => mul_self_nonneg _
      refine lt_of_le_of_ne h1 fun h0 => hk ?_
      have := (Finset.sum_eq_zero_iff_of_nonneg (fun i _ => mul_self_nonneg (v i))).mp h0.symm k (Finset.mem_univ _)
      exact mul_self_eq_zero.mp this
    nlinarith
  · intro hne x
    rw [quadratic]
    refine Finset.sum_nonneg fun i _ => mul_nonneg ?_ (sq_nonneg _)
    unfold flip
    split
    · rename_i h'; linarith [h'.1]
    · rename_i h'
      by_contra hlt
      have hlt := not_le.mp hlt
      have h2 : tol ≤ |h.eigenvalues i| := by
        by_contra h3
        exact h' ⟨hlt, not_le.mp h3⟩
      rw [abs_of_neg hlt] at h2
      have h3 : ¬ h.eigenvalues i < -tol := fun h4 => hno ⟨i, h4⟩
      exact hne ⟨i, by linarith [not_lt.mp h3]⟩

/-- C103. Random sampling fails (for at least one sample) exactly if an eigenvalue is below the smaller of the tolerance given and
1e-15. -/
theorem C103_random_error {σ : Type} (rvs : Vec D → Mat D → Nat → σ → List (Vec D)) (entropy : σ) (mean : Vec D) {cov : Mat D}
    (h : cov.IsHermitian) {n : Nat} (hn : n ≠ 0) (seed : Option σ) {tol : ℝ} (ht : 0 ≤ tol) :
    (∃ e, sampleRandom rvs entropy mean cov h n seed tol = .error e) ↔ ∃ l < -min tol 1e-15, HasEig cov l := by
  have hb : ∀ t, eigBelow cov t ↔ ∃ l < t, HasEig cov l := fun t => Iff.rfl
  unfold sampleRandom
  simp only [if_neg hn]
  constructor
  · rintro ⟨e, he⟩
    split at he
    · split at he
      · rename_i h2
        obtain ⟨l, hl, hE⟩ := h2
        exact ⟨l, by have := min_le_left tol 1e-15; linarith, hE⟩
      · cases hm : makePositiveSemidefinite cov h 1e-15 with
        | error e' =>
          have : e' = .valueError := by
            unfold makePositiveSemidefinite at hm
            split at hm
            · injection hm with hm; exact hm.symm
            · cases hm
          subst this
          obtain ⟨l, hl, hE⟩ := (C103_error h _).mp hm
          exact ⟨l, by have := min_le_right tol (1e-15 : ℝ); linarith, hE⟩
        | ok r => rw [hm] at he; simp at he
    · simp at he
  · rintro ⟨l, hl, hE⟩
    have hm0 : 0 ≤ min tol (1e-15 : ℝ) := le_min ht (by norm_num)
    rw [if_pos ⟨l, by linarith, hE⟩]
    by_cases h2 : eigBelow cov (-tol)
    · exact ⟨.valueError, by rw [if_pos h2]⟩
    · rw [if_neg h2]
      have hl2 : l < -(1e-15 : ℝ) := by
        have h3 : ¬ l < -tol := fun h4 => h2 ⟨l, h4, hE⟩
        rcases min_choice tol (1e-15 : ℝ) with h5 | h5
        · rw [h5] at hl; exact absurd hl h3
        · rwa [h5] at hl
      have := (C103_error h (1e-15)).mpr ⟨l, hl2, hE⟩
      exact ⟨.valueError, by rw [this]⟩

/-- A variance slightly below zero. -/
noncomputable def slightly : Mat 1 := Matrix.of fun _ _ => -1e-10

theorem slightly_eig (l : ℝ) : HasEig slightly l ↔ l = -1e-10 := by
  constructor
  · rintro ⟨v, hv, he⟩
    have h0 := congrFun he 0
    simp only [slightly, Matrix.mulVec, dotProduct, Finset.univ_unique, Fin.default_eq_zero, Finset.sum_singleton, Pi.smul_apply,
      smul_eq_mul, Matrix.of_apply] at h0
    have hv0 : v 0 ≠ 0 := by
      intro h'
      apply hv
      ext i
      rw [Subsingleton.elim i 0, h']; rfl
    exact (mul_right_cancel₀ hv0 h0).symm
  · rintro rfl
    refine ⟨fun _ => 1, fun h' => ?_, ?_⟩
    · have := congrFun h' 0
      simp at this
    · ext i
      simp [slightly, Matrix.mulVec, dotProduct]

/-- C103. So the tolerance cannot be widened: a covariance with the eigenvalue -1e-10 is refused with a tolerance of 1e-6. -/
theorem C103_tolerance_false : ¬ ∀ (rvs : Vec 1 → Mat 1 → Nat → Nat → List (Vec 1)) (cov : Mat 1) (h : cov.IsHermitian) (tol : ℝ),
    0 ≤ tol → (¬ ∃ l < -tol, HasEig cov l) → ∃ s, sampleRandom rvs 0 0 cov h 10 none tol = .ok s := by
  intro hall
  have hh : slightly.IsHermitian := by ext i j; rfl
  obtain ⟨s, hs⟩ := hall (fun _ _ _ _ => []) slightly hh 1e-6 (by norm_num) (by
    rintro ⟨l, hl, he⟩
    rw [slightly_eig] at he
    rw [he] at hl
    norm_num at hl)
  obtain ⟨e, he⟩ := (C103_random_error (fun _ _ _ _ => []) (0 : Nat) 0 hh (n := 10) (by norm_num) none (tol := 1e-6)
    (by norm_num)).mpr ⟨-1e-10, by norm_num, (slightly_eig _).mpr rfl⟩
  rw [hs] at he
  cases he

/-- C103. The draws for a positive semidefinite covariance are those of that covariance, all with the same weight, adding up to
one; with a seed they do not depend on anything else. -/
theorem C103_random {σ : Type} (rvs : Vec D → Mat D → Nat → σ → List (Vec D)) (entropy : σ) (mean : Vec D) {cov : Mat D}
    (h : cov.PosSemidef) {n : Nat} (hn : n ≠ 0) (seed : Option σ) (tol : ℝ) :
    ∃ s, sampleRandom rvs entropy mean cov h.1 n seed tol = .ok s ∧ s.samples = rvs mean cov n (seed.getD entropy) ∧
      s.W = s.Wcov ∧ s.W.length = n ∧ s.W.sum = 1 ∧ ∀ w ∈ s.W, w = 1 / n := by
  have hno : ¬ eigBelow cov 0 := by
    rintro ⟨l, hl, hE⟩
    obtain ⟨i, hi⟩ := (hasEig_iff h.1 l).mp hE
    linarith [h.eigenvalues_nonneg i]
  unfold sampleRandom
  simp only [if_neg hn, if_neg hno]
  refine ⟨_, rfl, rfl, rfl, by simp, ?_, fun w hw => List.eq_of_mem_replicate hw⟩
  have : (n : ℝ) ≠ 0 := by exact_mod_cast hn
  simp only [List.sum_replicate, nsmul_eq_mul]
  field_simp

end Verif.Sigma.Props
