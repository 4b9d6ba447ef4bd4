import Verif.Cart.Model
import Verif.Univ.Spec
import Mathlib.Analysis.Calculus.MeanValue
import Mathlib.Analysis.Calculus.Deriv.Mul
import Mathlib.Analysis.Calculus.Deriv.Add
import Mathlib.Analysis.Calculus.FDeriv.WithLp
import Mathlib.Analysis.Matrix.PosDef
import Mathlib.Algebra.Order.Star.Real

/-! # Properties of magnitudes and uncertainties of Cartesian rows (C174) -/

namespace Verif.Cart.Props

open Verif Verif.Cart Matrix

/-- A row with all six numbers. -/
def row (x : Fin 6 → ℝ) : Row := fun i => some (x i)

/-- Position or velocity as a vector of space. -/
noncomputable def part (vel : Bool) (x : Fin 6 → ℝ) : Univ.E3 := WithLp.toLp 2 fun i => x (col vel i)

theorem three_some {f : Fin 3 → Option ℝ} {a b c : ℝ} (h0 : f 0 = some a) (h1 : f 1 = some b) (h2 : f 2 = some c) : three f = some ⟨a, b, c⟩ := by
  unfold three
  rw [h0, h1, h2]

theorem three_none (f : Fin 3 → Option ℝ) : three f = none ↔ ∃ i, f i = none := by
  constructor
  · intro h
    by_contra hn
    push Not at hn
    obtain ⟨a, ha⟩ := Option.ne_none_iff_exists'.mp (hn 0)
    obtain ⟨b, hb⟩ := Option.ne_none_iff_exists'.mp (hn 1)
    obtain ⟨c, hc⟩ := Option.ne_none_iff_exists'.mp (hn 2)
    rw [three_some ha hb hc] at h
    cases h
  · rintro ⟨i, hi⟩
    unfold three
    split
    · rename_i h0 h1 h2
      fin_cases i
      · exact absurd (h0.symm.trans hi) (by simp)
      · exact absurd (h1.symm.trans hi) (by simp)
      · exact absurd (h2.symm.trans hi) (by simp)
    · rfl

theorem three_map (f : Fin 3 → Option ℝ) (g : ℝ → ℝ) : three (fun i => (f i).map g) = (three f).map fun a => ⟨g a.x, g a.y, g a.z⟩ := by
  unfold three
  beta_reduce
  cases f 0 <;> cases f 1 <;> cases f 2 <;> rfl

theorem norm_part (vel : Bool) (x : Fin 6 → ℝ) :
    ‖part vel x‖ = √(x (col vel 0) ^ 2 + x (col vel 1) ^ 2 + x (col vel 2) ^ 2) := by
  rw [EuclideanSpace.norm_eq, Fin.sum_univ_three]
  simp [part]

/-- `r_mag` and `v_mag` are the lengths, missing exactly if one of the three coordinates is. -/
theorem C174_magnitude (vel : Bool) : (∀ x, mag vel (row x) = some ‖part vel x‖) ∧ ∀ s, mag vel s = none ↔ ∃ i, s (col vel i) = none := by
  refine ⟨fun x => ?_, fun s => ?_⟩
  · rw [norm_part]
    rfl
  · unfold mag vec
    rw [Option.map_eq_none_iff, three_none]

/-- `r_hat` and `v_hat` are of length one in the direction of the vector; the vector zero has none. -/
theorem C174_direction (vel : Bool) (x : Fin 6 → ℝ) :
    (part vel x = 0 → hat vel (row x) = none) ∧
    (part vel x ≠ 0 → ∃ y : Fin 6 → ℝ, hat vel (row x) = some ⟨y (col vel 0), y (col vel 1), y (col vel 2)⟩ ∧ ‖part vel y‖ = 1 ∧
      ‖part vel x‖ • part vel y = part vel x) := by
  have hm := (C174_magnitude vel).1 x
  have hh : hat vel (row x) = if ‖part vel x‖ = 0 then none else
      some ⟨x (col vel 0) / ‖part vel x‖, x (col vel 1) / ‖part vel x‖, x (col vel 2) / ‖part vel x‖⟩ := by
    unfold hat
    rw [hm]
    rfl
  constructor
  · intro h
    rw [hh, if_pos (by rw [h, norm_zero])]
  · intro h
    have hne : ‖part vel x‖ ≠ 0 := norm_ne_zero_iff.mpr h
    refine ⟨fun i => x i / ‖part vel x‖, by rw [hh, if_neg hne], ?_, ?_⟩
    · have : part vel (fun i => x i / ‖part vel x‖) = (‖part vel x‖)⁻¹ • part vel x := by
        ext i
        simp [part, div_eq_inv_mul]
      rw [this, norm_smul, norm_inv, norm_norm, inv_mul_cancel₀ hne]
    · ext i
      change ‖part vel x‖ * (x (col vel i) / ‖part vel x‖) = x (col vel i)
      field_simp

/-- `h` is at right angles to position and velocity, and its length is that of the parallelogram they span. -/
theorem C174_momentum (x : Fin 6 → ℝ) :
    ∃ a : V3, h (row x) = some a ∧ a.x * x 0 + a.y * x 1 + a.z * x 2 = 0 ∧ a.x * x 3 + a.y * x 4 + a.z * x 5 = 0 ∧
      hMag (row x) = some (√(‖part false x‖ ^ 2 * ‖part true x‖ ^ 2 - (x 0 * x 3 + x 1 * x 4 + x 2 * x 5) ^ 2)) := by
  refine ⟨⟨x 1 * x 5 - x 2 * x 4, x 2 * x 3 - x 0 * x 5, x 0 * x 4 - x 1 * x 3⟩, rfl, by ring, by ring, ?_⟩
  rw [norm_part, norm_part, Real.sq_sqrt (by positivity), Real.sq_sqrt (by positivity)]
  change some (√((x 1 * x 5 - x 2 * x 4) ^ 2 + (x 2 * x 3 - x 0 * x 5) ^ 2 + (x 0 * x 4 - x 1 * x 3) ^ 2)) =
    some (√((x 0 ^ 2 + x 1 ^ 2 + x 2 ^ 2) * (x 3 ^ 2 + x 4 ^ 2 + x 5 ^ 2) - (x 0 * x 3 + x 1 * x 4 + x 2 * x 5) ^ 2))
  congr 2
  ring

/-- The state of a motion as a row. -/
noncomputable def stateRow (p q : Univ.E3) : Fin 6 → ℝ := ![p 0, p 1, p 2, q 0, q 1, q 2]

/-- `h` is the same at all times of a motion about a centre of attraction. -/
theorem C174_momentum_constant {mu : ℝ} {p q : ℝ → Univ.E3} (hm : Univ.IsMotion mu p q) (t u : ℝ) :
    h (row (stateRow (p t) (q t))) = h (row (stateRow (p u) (q u))) := by
  have hp : ∀ (i : Fin 3) t, HasDerivAt (fun t => p t i) (q t i) t := fun i t =>
    ((EuclideanSpace.proj (𝕜 := ℝ) i : Univ.E3 →L[ℝ] ℝ).hasFDerivAt).comp_hasDerivAt t (hm t).1
  have hq : ∀ (i : Fin 3) t, HasDerivAt (fun t => q t i) (-(mu / ‖p t‖ ^ 3) * p t i) t := fun i t =>
    ((EuclideanSpace.proj (𝕜 := ℝ) i : Univ.E3 →L[ℝ] ℝ).hasFDerivAt).comp_hasDerivAt t (hm t).2
  have hc : ∀ i j : Fin 3, p t i * q t j - p t j * q t i = p u i * q u j - p u j * q u i := by
    intro i j
    have hd : ∀ s, HasDerivAt (fun s => p s i * q s j - p s j * q s i) 0 s := by
      intro s
      have := ((hp i s).mul (hq j s)).sub ((hp j s).mul (hq i s))
      refine this.congr_deriv ?_
      ring
    exact is_const_of_deriv_eq_zero (fun s => (hd s).differentiableAt) (fun s => (hd s).deriv) t u
  change some (⟨p t 1 * q t 2 - p t 2 * q t 1, p t 2 * q t 0 - p t 0 * q t 2, p t 0 * q t 1 - p t 1 * q t 0⟩ : V3) =
    some ⟨p u 1 * q u 2 - p u 2 * q u 1, p u 2 * q u 0 - p u 0 * q u 2, p u 0 * q u 1 - p u 1 * q u 0⟩
  rw [hc 1 2, hc 2 0, hc 0 1]

/-! ### uncertainties -/

/-- A covariance with all numbers. -/
def full (C : Matrix (Fin 6) (Fin 6) ℝ) : Cov := fun i j => some (C i j)

/-- The covariance of position or velocity alone. -/
def block (vel : Bool) (C : Matrix (Fin 6) (Fin 6) ℝ) : Matrix (Fin 3) (Fin 3) ℝ := C.submatrix (col vel) (col vel)

theorem sigmaMag_eq (vel : Bool) (C : Matrix (Fin 6) (Fin 6) ℝ) (hd : ∀ i, 0 ≤ block vel C i i) :
    sigmaMag vel (full C) = some (√(block vel C).trace) := by
  have hs : ∀ i, sigma (full C) (col vel i) = some (√(block vel C i i)) := by
    intro i
    have := hd i
    unfold sigma
    change (if block vel C i i < 0 then none else some (√(block vel C i i))) = _
    rw [if_neg (not_lt.mpr this)]
  unfold sigmaMag
  rw [three_some (hs 0) (hs 1) (hs 2)]
  simp only [Option.map_some, Real.sq_sqrt (hd 0), Real.sq_sqrt (hd 1), Real.sq_sqrt (hd 2)]
  rw [Matrix.trace, Fin.sum_univ_three]
  rfl

theorem diag_nonneg {vel : Bool} {C : Matrix (Fin 6) (Fin 6) ℝ} (hC : (block vel C).PosSemidef) (i : Fin 3) : 0 ≤ block vel C i i :=
  hC.diag_nonneg

/-- A covariance with a negative or missing diagonal entry of the position has no `sigma_r_mag`, every other has. -/
theorem C174_sigma_missing (vel : Bool) (c : Cov) : sigmaMag vel c = none ↔ ∃ i : Fin 3, ∀ x, c (col vel i) (col vel i) = some x → x < 0 := by
  have h1 : ∀ i : Fin 3, sigma c (col vel i) = none ↔ ∀ x, c (col vel i) (col vel i) = some x → x < 0 := by
    intro i
    unfold sigma
    cases hx : c (col vel i) (col vel i) with
    | none => simp
    | some x => simp
  simp only [← h1]
  unfold sigmaMag
  rw [Option.map_eq_none_iff, three_none]

/-- `sigma_r_mag` is the root mean square length of the error: for every weighted sample of errors with the given covariance. -/
theorem C174_mean_square {n : Nat} (vel : Bool) (w : Fin n → ℝ) (d : Fin n → Fin 3 → ℝ) (C : Matrix (Fin 6) (Fin 6) ℝ) (hw : ∀ k, 0 ≤ w k)
    (hC : block vel C = ∑ k, w k • vecMulVec (d k) (d k)) :
    sigmaMag vel (full C) = some (√(∑ k, w k * (d k ⬝ᵥ d k))) := by
  have hps : (block vel C).PosSemidef := by
    rw [hC]
    refine posSemidef_sum _ fun k _ => ?_
    have := posSemidef_vecMulVec_self_star (d k)
    rw [star_trivial] at this
    exact this.smul (hw k)
  rw [sigmaMag_eq vel C (diag_nonneg hps), hC, trace_sum]
  congr 3
  funext k
  rw [trace_smul, trace_vecMulVec, smul_eq_mul]

/-- It is at least the uncertainty in every direction, in particular along the line of sight. -/
theorem C174_directions (vel : Bool) (C : Matrix (Fin 6) (Fin 6) ℝ) (hC : (block vel C).PosSemidef) :
    ∃ s, sigmaMag vel (full C) = some s ∧ 0 ≤ s ∧ ∀ u : Fin 3 → ℝ, u ⬝ᵥ u = 1 → √(u ⬝ᵥ (block vel C *ᵥ u)) ≤ s := by
  refine ⟨_, sigmaMag_eq vel C (diag_nonneg hC), Real.sqrt_nonneg _, fun u hu => Real.sqrt_le_sqrt ?_⟩
  have hk : ∀ k : Fin 3, 0 ≤ (Pi.single k 1 - u k • u) ⬝ᵥ (block vel C *ᵥ (Pi.single k 1 - u k • u)) := by
    intro k
    have := hC.dotProduct_mulVec_nonneg (Pi.single k 1 - u k • u)
    rwa [star_trivial] at this
  have e : ∑ k : Fin 3, (Pi.single k 1 - u k • u) ⬝ᵥ (block vel C *ᵥ (Pi.single k 1 - u k • u)) = (block vel C).trace - u ⬝ᵥ (block vel C *ᵥ u) := by
    simp only [dotProduct, mulVec, Fin.sum_univ_three, Pi.sub_apply, Pi.smul_apply, smul_eq_mul, Matrix.trace, diag_apply] at hu ⊢
    simp only [Pi.single_eq_same, Pi.single_eq_of_ne (show (0 : Fin 3) ≠ 1 by decide), Pi.single_eq_of_ne (show (1 : Fin 3) ≠ 0 by decide),
      Pi.single_eq_of_ne (show (0 : Fin 3) ≠ 2 by decide), Pi.single_eq_of_ne (show (2 : Fin 3) ≠ 0 by decide),
      Pi.single_eq_of_ne (show (1 : Fin 3) ≠ 2 by decide), Pi.single_eq_of_ne (show (2 : Fin 3) ≠ 1 by decide)]
    linear_combination (u 0 * (block vel C 0 0 * u 0 + block vel C 0 1 * u 1 + block vel C 0 2 * u 2) +
      u 1 * (block vel C 1 0 * u 0 + block vel C 1 1 * u 1 + block vel C 1 2 * u 2) +
      u 2 * (block vel C 2 0 * u 0 + block vel C 2 1 * u 1 + block vel C 2 2 * u 2)) * hu
  have := Finset.sum_nonneg fun k (_ : k ∈ Finset.univ) => hk k
  rw [e] at this
  linarith

/-- It does not depend on the axes. -/
theorem C174_rotation (vel : Bool) (C C' : Matrix (Fin 6) (Fin 6) ℝ) (R : Matrix (Fin 3) (Fin 3) ℝ) (hR : Rᵀ * R = 1) (hC : (block vel C).PosSemidef)
    (hC' : block vel C' = R * block vel C * Rᵀ) : sigmaMag vel (full C') = sigmaMag vel (full C) := by
  have hps : (block vel C').PosSemidef := by
    rw [hC', ← conjTranspose_eq_transpose_of_trivial]
    exact hC.mul_mul_conjTranspose_same R
  rw [sigmaMag_eq vel C (diag_nonneg hC), sigmaMag_eq vel C' (diag_nonneg hps), hC', trace_mul_comm, ← Matrix.mul_assoc, hR, Matrix.one_mul]

/-- Not true: that `sigma_r_mag` is the uncertainty of `r_mag`. For an error across the line of sight only, the position has an uncertainty though to
first order the distance has none. -/
theorem C174_distance_false : ∃ (x : Fin 6 → ℝ) (C : Matrix (Fin 6) (Fin 6) ℝ) (u : Fin 3 → ℝ), (block false C).PosSemidef ∧
    hat false (row x) = some ⟨u 0, u 1, u 2⟩ ∧ u ⬝ᵥ (block false C *ᵥ u) = 0 ∧ sigmaMag false (full C) = some 1 := by
  have hb : block false (diagonal ![0, 1, 0, 0, 0, 0]) = diagonal ![0, 1, 0] := by
    ext i j
    fin_cases i <;> fin_cases j <;> rfl
  have hps : (block false (diagonal ![0, 1, 0, 0, 0, 0] : Matrix (Fin 6) (Fin 6) ℝ)).PosSemidef := by
    rw [hb]
    refine PosSemidef.diagonal fun i => ?_
    fin_cases i <;> simp
  refine ⟨![1, 0, 0, 0, 0, 0], diagonal ![0, 1, 0, 0, 0, 0], ![1, 0, 0], hps, ?_, ?_, ?_⟩
  · change (if √((1 : ℝ) ^ 2 + 0 ^ 2 + 0 ^ 2) = 0 then none else some (⟨1 / √((1 : ℝ) ^ 2 + 0 ^ 2 + 0 ^ 2), 0 / √((1 : ℝ) ^ 2 + 0 ^ 2 + 0 ^ 2),
      0 / √((1 : ℝ) ^ 2 + 0 ^ 2 + 0 ^ 2)⟩ : V3)) = some ⟨1, 0, 0⟩
    norm_num
  · rw [hb]
    simp [dotProduct, mulVec, Fin.sum_univ_three, diagonal]
  · rw [sigmaMag_eq _ _ (diag_nonneg hps), hb, trace_diagonal, Fin.sum_univ_three]
    simp

/-! ### kilometres -/

/-- Lengths in km are the lengths in au times the kilometres of an au, speeds likewise; missing values stay missing. -/
theorem C174_km (u : Units.Consts ℝ) (hu : 0 < u.kmPerAu) (hs : 0 < u.secondsPerDay) (vel : Bool) (s : Row) :
    mag vel (valuesKm u s) = (mag vel s).map (· * (u.kmPerAu / if vel then u.secondsPerDay else 1)) := by
  have hcol : ∀ i : Fin 3, valuesKm u s (col vel i) = (s (col vel i)).map (· * (u.kmPerAu / if vel then u.secondsPerDay else 1)) := by
    intro i
    unfold valuesKm
    congr 1
    funext x
    cases vel
    · rw [if_pos (by simp [col])]
      simp [Units.auToKm]
    · rw [if_neg (by simp [col])]
      simp [Units.auDayToKmS, mul_div_assoc]
  set k := u.kmPerAu / (if vel then u.secondsPerDay else 1) with hk
  have hk0 : 0 ≤ k := by
    rw [hk]
    split <;> positivity
  have ht : vec vel (valuesKm u s) = (vec vel s).map fun a => ⟨a.x * k, a.y * k, a.z * k⟩ := by
    unfold vec
    rw [← three_map (fun i => s (col vel i)) (· * k)]
    exact congrArg three (funext hcol)
  unfold mag
  rw [ht, Option.map_map, Option.map_map]
  congr 1
  funext a
  simp only [Function.comp_apply]
  rw [show (a.x * k) ^ 2 + (a.y * k) ^ 2 + (a.z * k) ^ 2 = (a.x ^ 2 + a.y ^ 2 + a.z ^ 2) * k ^ 2 by ring, Real.sqrt_mul (by positivity),
    Real.sqrt_sq hk0]

/-- The uncertainty of the covariance in km is that in au times the kilometres of an au, likewise for speeds. -/
theorem C174_covariance_km (u : Units.Consts ℝ) (hu : 0 < u.kmPerAu) (hs : 0 < u.secondsPerDay) (vel : Bool) (c : Cov) :
    sigmaMag vel (covarianceKm u c) = (sigmaMag vel c).map (· * (u.kmPerAu / if vel then u.secondsPerDay else 1)) := by
  set k := u.kmPerAu / (if vel then u.secondsPerDay else 1) with hk
  have hk0 : 0 < k := by
    rw [hk]
    split <;> positivity
  have hv : ∀ i : Fin 3, Units.vecToKm u (col vel i) = k := by
    intro i
    rw [hk]
    cases vel <;> fin_cases i <;> simp [Units.vecToKm, col]
  have hsig : ∀ i : Fin 3, sigma (covarianceKm u c) (col vel i) = (sigma c (col vel i)).map (· * k) := by
    intro i
    unfold sigma covarianceKm
    rw [hv]
    cases c (col vel i) (col vel i) with
    | none => rfl
    | some x =>
      simp only [Option.map_some, Option.bind_some]
      by_cases hx : x < 0
      · rw [if_pos hx, if_pos (by nlinarith [mul_pos hk0 hk0])]
        rfl
      · rw [if_neg hx, if_neg (by have := mul_pos hk0 hk0; nlinarith)]
        rw [Option.map_some, Real.sqrt_mul (not_lt.mp hx), Real.sqrt_mul_self hk0.le]
  have ht : three (fun i => sigma (covarianceKm u c) (col vel i)) = (three fun i => sigma c (col vel i)).map fun a => ⟨a.x * k, a.y * k, a.z * k⟩ := by
    rw [← three_map (fun i => sigma c (col vel i)) (· * k)]
    exact congrArg three (funext hsig)
  unfold sigmaMag
  rw [ht, Option.map_map, Option.map_map]
  congr 1
  funext a
  simp only [Function.comp_apply]
  rw [show (a.x * k) ^ 2 + (a.y * k) ^ 2 + (a.z * k) ^ 2 = (a.x ^ 2 + a.y ^ 2 + a.z ^ 2) * k ^ 2 by ring, Real.sqrt_mul (by positivity),
    Real.sqrt_sq hk0.le]

/-- `covariance_km` is the covariance of `values_km`: if the entries of the covariance are weighted sums of products of
deviations in au and au/d, then those of `covariance_km` are the same sums for the deviations that `values_km` gives.
Missing entries stay missing. -/
theorem C174_covariance_of_km (u : Units.Consts ℝ) {n : Nat} (w : Fin n → ℝ) (a b : Fin n → Fin 6 → ℝ)
    (hb : ∀ k i, valuesKm u (fun i => some (a k i)) i = some (b k i)) (c : Cov) (i j : Fin 6) :
    (c i j = some (∑ k, w k * a k i * a k j) → covarianceKm u c i j = some (∑ k, w k * b k i * b k j)) ∧
    (c i j = none → covarianceKm u c i j = none) := by
  have hf : ∀ k i, b k i = a k i * Units.vecToKm u i := by
    intro k i
    have h := hb k i
    unfold valuesKm at h
    rw [Option.map_some, Option.some.injEq] at h
    rw [← h]
    fin_cases i <;> simp [Units.auToKm, Units.auDayToKmS, Units.vecToKm, mul_div_assoc]
  refine ⟨fun h => ?_, fun h => by unfold covarianceKm; rw [h]; rfl⟩
  unfold covarianceKm
  rw [h, Option.map_some, Option.some.injEq, Finset.sum_mul]
  refine Finset.sum_congr rfl fun k _ => ?_
  rw [hf, hf]
  ring

/-- A concrete case. -/
theorem C174_case : mag false (row ![3, 4, 0, 0, 0, 2]) = some 5 ∧ hMag (row ![3, 4, 0, 0, 0, 2]) = some 10 ∧ mag true (row ![3, 4, 0, 0, 0, 2]) = some 2 := by
  refine ⟨?_, ?_, ?_⟩
  · change some (√((3 : ℝ) ^ 2 + 4 ^ 2 + 0 ^ 2)) = _
    rw [show ((3 : ℝ) ^ 2 + 4 ^ 2 + 0 ^ 2) = 5 ^ 2 by norm_num, Real.sqrt_sq (by norm_num)]
  · change some (√(((4 : ℝ) * 2 - 0 * 0) ^ 2 + (0 * 0 - 3 * 2) ^ 2 + (3 * 0 - 4 * 0) ^ 2)) = _
    rw [show (((4 : ℝ) * 2 - 0 * 0) ^ 2 + (0 * 0 - 3 * 2) ^ 2 + (3 * 0 - 4 * 0) ^ 2) = 10 ^ 2 by norm_num, Real.sqrt_sq (by norm_num)]
  · change some (√((0 : ℝ) ^ 2 + 0 ^ 2 + 2 ^ 2)) = _
    rw [show ((0 : ℝ) ^ 2 + 0 ^ 2 + 2 ^ 2) = 2 ^ 2 by norm_num, Real.sqrt_sq (by norm_num)]

end Verif.Cart.Props
