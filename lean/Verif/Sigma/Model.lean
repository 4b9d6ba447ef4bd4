import Mathlib.Analysis.Matrix.Spectrum
import Verif.Basic

/-! # Sampling of covariances (coordinates/covariances.py, coordinates/variants.py)

Numbers are exact reals instead of float64; `none` is NaN. What `scipy` computes (matrix square root, random draws) is a
parameter. -/

namespace Verif.Sigma

open Classical Matrix

variable {D : Nat}

/-- A row of numbers, and a matrix. Used for covariances.py:362-379. -/
abbrev Vec (D : Nat) := Fin D → ℝ
/-- Used for covariances.py:382-410. -/
abbrev Mat (D : Nat) := Matrix (Fin D) (Fin D) ℝ

/-- Samples, their weights for the mean, their weights for the covariance. Used for covariances.py:278-359. -/
structure Sampled (D : Nat) where
  samples : List (Vec D)
  W : List ℝ
  Wcov : List ℝ

/-- `weighted_mean`: `np.dot(W, samples)`. covariances.py:362-379. -/
def weightedMean (samples : List (Vec D)) (W : List ℝ) : Vec D :=
  ((samples.zip W).map fun p => p.2 • p.1).sum

/-- `weighted_covariance`: `(W_cov * residual.T) @ residual`. covariances.py:382-410. -/
def weightedCovariance (mean : Vec D) (samples : List (Vec D)) (Wcov : List ℝ) : Mat D :=
  fun i j => ((samples.zip Wcov).map fun p => p.2 * (p.1 - mean) i * (p.1 - mean) j).sum

/-- `sample_covariance_sigma_points`. `sqrtm` is the matrix square root of scipy. Division by the Python number 0 is an error.
covariances.py:278-359. -/
noncomputable def sigmaPoints (sqrtm : Mat D → Mat D) (mean : Vec D) (cov : Mat D) (alpha beta kappa : ℝ) :
    Except PyErr (Sampled D) :=
  let lambd := alpha ^ 2 * (D + kappa) - D
  if (D : ℝ) + lambd = 0 then .error .zeroDivision
  else
    let W0 := lambd / (D + lambd)
    let L := sqrtm (((D : ℝ) + lambd) • cov)
    let w := 1 / (2 * (D + lambd))
    .ok ⟨mean :: (List.ofFn fun i => mean + L i) ++ List.ofFn fun i => mean - L i,
      W0 :: List.replicate (2 * D) w, (W0 + (1 - alpha ^ 2 + beta)) :: List.replicate (2 * D) w⟩

/-- `np.any(np.linalg.eigvals(cov) < t)`, for a matrix whose eigenvalues are real (a symmetric one). covariances.py:260-261. -/
def eigBelow (cov : Mat D) (t : ℝ) : Prop := ∃ l < t, ∃ v : Vec D, v ≠ 0 ∧ cov *ᵥ v = l • v

/-- The eigenvalues after the flip. covariances.py:210-211. -/
noncomputable def flip (tol l : ℝ) : ℝ := if l < 0 ∧ |l| < tol then -l else l

/-- `make_positive_semidefinite`, for a symmetric matrix (`eigh` reads only the lower triangle). covariances.py:183-213. -/
noncomputable def makePositiveSemidefinite (cov : Mat D) (h : cov.IsHermitian) (tol : ℝ) : Except PyErr (Mat D) :=
  if ∃ i, h.eigenvalues i < -tol then .error .valueError
  else .ok ((h.eigenvectorUnitary : Mat D) * diagonal (fun i => flip tol (h.eigenvalues i)) *
    (h.eigenvectorUnitary : Mat D)ᵀ)

/-- `sample_covariance_random`, for a symmetric matrix. `rvs mean cov n seed` are the rows drawn by scipy, where `seed` is what the
generator starts from: the seed, or else entropy from the operating system. A single draw comes as one row of numbers, not as a
table; with no draws the weight is a division by 0. covariances.py:216-275. -/
noncomputable def sampleRandom {σ : Type} (rvs : Vec D → Mat D → Nat → σ → List (Vec D)) (entropy : σ) (mean : Vec D) (cov : Mat D)
    (h : cov.IsHermitian) (numSamples : Nat) (seed : Option σ) (semidefTol : ℝ) : Except PyErr (Sampled D) :=
  let draw := fun cov : Mat D =>
    if numSamples = 0 then Except.error PyErr.zeroDivision
    else
      let W := List.replicate numSamples (1 / (numSamples : ℝ))
      .ok ⟨rvs mean cov numSamples (seed.getD entropy), W, W⟩
  if eigBelow cov 0 then
    if eigBelow cov (-semidefTol) then .error .valueError
    else
      match makePositiveSemidefinite cov h 1e-15 with
      | .error e => .error e
      | .ok cov => draw cov
  else draw cov

/-! ### variants of coordinates -/

/-- The three methods, and any other string. Used for coordinates/variants.py:141-143, 161-163, 179. -/
inductive Method | sigmaPoint | monteCarlo | auto | other

/-- A row of coordinates: its six values and covariances, where each may be missing, with what travels along.
Used for coordinates/variants.py:168-184. -/
structure Coord (τ : Type) where
  values : Fin 6 → Option ℝ
  cov : Fin 6 → Fin 6 → Option ℝ
  origin : τ
  time : τ

/-- A row of the table of variants. coordinates/variants.py:103-107. -/
structure Variant (τ : Type) where
  index : Nat
  values : Vec 6
  origin : τ
  time : τ
  weight : ℝ
  weightCov : ℝ

/-- The parameters of `create_coordinate_variants`, and the two functions of scipy.
Used for coordinates/variants.py:141-143, 161-163, 179. -/
structure Params (σ : Type) where
  sqrtm : Mat 6 → Mat 6
  rvs : Vec 6 → Mat 6 → Nat → σ → List (Vec 6)
  entropy : σ
  method : Method
  numSamples : Nat
  alpha : ℝ
  beta : ℝ
  kappa : ℝ
  seed : Option σ

/-- `sample_covariance_random` as called from `create_coordinate_variants`; the sixth column of a single draw does not exist.
coordinates/variants.py:141-143, 161-163, 179. -/
noncomputable def random {σ : Type} (p : Params σ) (mean : Vec 6) (cov : Mat 6) (h : cov.IsHermitian) (seed : Option σ) :
    Except PyErr (Sampled 6) :=
  match sampleRandom p.rvs p.entropy mean cov h p.numSamples seed 1e-15 with
  | .error e => .error e
  | .ok s => if p.numSamples = 1 then .error .indexError else .ok s

/-- The samples of one row. coordinates/variants.py:135-166. -/
noncomputable def sampleRow {σ : Type} (p : Params σ) (mean : Vec 6) (cov : Mat 6) (h : cov.IsHermitian) :
    Except PyErr (Sampled 6) :=
  match p.method with
  | .sigmaPoint => sigmaPoints p.sqrtm mean cov p.alpha p.beta p.kappa
  | .monteCarlo => random p mean cov h p.seed
  | .auto =>
    match sigmaPoints p.sqrtm mean cov p.alpha p.beta p.kappa with
    | .error e => .error e
    | .ok s =>
      let meanSg := weightedMean s.samples s.W
      let covSg := weightedCovariance meanSg s.samples s.Wcov
      if (∃ i, |meanSg i - mean i| ≥ 1e-12) ∨ ∃ i j, |covSg i j - cov i j| ≥ 1e-12 then random p mean cov h none else .ok s
  | .other => .error .valueError

/-- The rows of one coordinate. coordinates/variants.py:168-184. -/
def rowsOf {τ : Type} (i : Nat) (c : Coord τ) (s : Sampled 6) : List (Variant τ) :=
  (s.samples.zip (s.W.zip s.Wcov)).map fun q => ⟨i, q.1, c.origin, c.time, q.2.1, q.2.2⟩

/-- One pass of the loop. A covariance that is not symmetric is not modelled. coordinates/variants.py:123-184. -/
noncomputable def variantsOf {σ τ : Type} (p : Params σ) (i : Nat) (c : Coord τ)
    (hs : ∀ i j, c.cov i j = c.cov j i) : Except PyErr (List (Variant τ)) :=
  if ∃ i j, c.cov i j = none then .error .valueError
  else if ∃ i, c.values i = none then .error .valueError
  else
    match sampleRow p (fun i => (c.values i).getD 0) (fun i j => (c.cov i j).getD 0)
      (by ext i j; show star ((c.cov j i).getD 0) = (c.cov i j).getD 0; rw [hs i j]; rfl) with
    | .error e => .error e
    | .ok s => .ok (rowsOf i c s)

/-- The first error, or the rows one after the other. coordinates/variants.py:121, 186. -/
def appendRows {τ : Type} : Except PyErr (List (Variant τ)) → Except PyErr (List (Variant τ)) → Except PyErr (List (Variant τ))
  | .error e, _ => .error e
  | .ok _, .error e => .error e
  | .ok rows, .ok rest => .ok (rows ++ rest)

/-- The loop, from row `i` on. coordinates/variants.py:120-186. -/
noncomputable def variantsFrom {σ τ : Type} (p : Params σ) : Nat → (cs : List (Coord τ)) →
    (∀ c ∈ cs, ∀ i j, c.cov i j = c.cov j i) → Except PyErr (List (Variant τ))
  | _, [], _ => .ok []
  | i, c :: cs, h =>
    appendRows (variantsOf p i c (h c List.mem_cons_self)) (variantsFrom p (i + 1) cs fun d hd => h d (List.mem_cons_of_mem _ hd))

/-- `create_coordinate_variants`, for coordinates of one of the four supported types. coordinates/variants.py:42-186. -/
noncomputable def createVariants {σ τ : Type} (p : Params σ) (cs : List (Coord τ))
    (h : ∀ c ∈ cs, ∀ i j, c.cov i j = c.cov j i) : Except PyErr (List (Variant τ)) :=
  if ∀ c ∈ cs, ∀ i j, c.cov i j = none then .error .valueError
  else variantsFrom p 0 cs h

end Verif.Sigma
