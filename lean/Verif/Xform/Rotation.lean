import Verif.Xform.Props
import Mathlib.Algebra.Order.BigOperators.Group.Finset

/-! # C45 (frame rotations) -/

namespace Verif.Xform.Rotation

open Verif Sched Matrix Xform.Spec Xform.Props Classical

variable {τ : Type}

/-! ### matrices -/

theorem eq2ec_mul (w : World τ) : eq2ec w * ec2eq w = 1 := by
  have h := Real.sin_sq_add_cos_sq w.obliquity
  unfold ec2eq eq2ec
  ext i j
  fin_cases i <;> fin_cases j <;> simp [Matrix.mul_apply, Fin.sum_univ_six] <;> first | ring1 | nlinarith

theorem ec2eq_mul (w : World τ) : ec2eq w * eq2ec w = 1 := mul_eq_one_comm.mp (eq2ec_mul w)

theorem complete_get {v : Vals} (h : Complete v) (i : Fin 6) : v i = some ((v i).getD 0) := by
  have := h i
  cases hv : v i with
  | none => rw [hv] at this; cases this
  | some x => rfl

theorem rotateVals_complete {R : Matrix (Fin 6) (Fin 6) ℝ} {v : Vals} (h : Complete v) :
    rotateVals R v = fun k => some (∑ j, R k j * (v j).getD 0) := by
  funext k
  unfold rotateVals
  rw [if_neg]
  intro hn
  have := h 0
  rw [hn 0] at this
  cases this

theorem rotate_back {A B : Matrix (Fin 6) (Fin 6) ℝ} (h : A * B = 1) {v : Vals} (hv : Complete v ∨ ∀ i, v i = none) :
    rotateVals A (rotateVals B v) = v := by
  rcases hv with hv | hv
  · rw [rotateVals_complete hv, rotateVals_complete (v := fun k => some (∑ j, B k j * (v j).getD 0)) (fun _ => rfl)]
    funext k
    rw [complete_get hv k]
    congr 1
    have e : (A * B).mulVec (fun j => (v j).getD 0) k = (v k).getD 0 := by rw [h, Matrix.one_mulVec]
    rw [← Matrix.mulVec_mulVec] at e
    simp only [Option.getD_some]
    exact e
  · have e : ∀ R, rotateVals R v = fun _ => none := by
      intro R
      funext k
      unfold rotateVals
      rw [if_pos hv]
    rw [e]
    funext k
    unfold rotateVals
    rw [if_pos fun _ => rfl, hv]

/-! ### the transformation between the two frames -/

theorem to_ecliptic {w : World τ} {c : Coords τ} (hk : c.kind = .cartesian) (hf : c.frame = "equatorial".toList) :
    transform w (.coords c) none (some "ecliptic".toList) none
      = .ok ⟨.cartesian, "ecliptic".toList, c.rows.map (rotateRow (eq2ec w))⟩ := by
  obtain ⟨k, f, R⟩ := c
  simp only at hk hf
  subst hk hf
  rfl

theorem to_equatorial {w : World τ} {c : Coords τ} (hk : c.kind = .cartesian) (hf : c.frame = "ecliptic".toList) :
    transform w (.coords c) none (some "equatorial".toList) none
      = .ok ⟨.cartesian, "equatorial".toList, c.rows.map (rotateRow (ec2eq w))⟩ := by
  obtain ⟨k, f, R⟩ := c
  simp only at hk hf
  subst hk hf
  rfl

/-- **C45**: a Cartesian table taken from one of the two inertial frames to the other and back has its positions and velocities,
times and origins again. Rows must be complete or wholly missing. -/
theorem C45_round_trip (w : World τ) (c : Coords τ) (hk : c.kind = .cartesian)
    (hf : c.frame = "equatorial".toList ∨ c.frame = "ecliptic".toList)
    (hc : ∀ r ∈ c.rows, Complete r.vals ∨ ∀ i, r.vals i = none) :
    ∃ other d e, (other = "equatorial".toList ∨ other = "ecliptic".toList) ∧ other ≠ c.frame ∧
      transform w (.coords c) none (some other) none = .ok d ∧
      transform w (.coords d) none (some c.frame) none = .ok e ∧
      d.frame = other ∧ e.frame = c.frame ∧
      List.Forall₂ (fun r r' => r'.vals = r.vals ∧ r'.time = r.time ∧ r'.origin = r.origin) c.rows e.rows := by
  rcases hf with hf | hf
  · refine ⟨_, _, _, .inr rfl, by rw [hf]; decide, to_ecliptic hk hf, by rw [hf]; exact to_equatorial rfl rfl, rfl, hf.symm, ?_⟩
    rw [List.map_map, List.forall₂_map_right_iff, List.forall₂_same]
    intro r hr
    exact ⟨rotate_back (ec2eq_mul w) (hc r hr), rfl, rfl⟩
  · refine ⟨_, _, _, .inl rfl, by rw [hf]; decide, to_equatorial hk hf, by rw [hf]; exact to_ecliptic rfl rfl, rfl, hf.symm, ?_⟩
    rw [List.map_map, List.forall₂_map_right_iff, List.forall₂_same]
    intro r hr
    exact ⟨rotate_back (eq2ec_mul w) (hc r hr), rfl, rfl⟩

theorem pos_rotate (w : World τ) {v : Vals} (h : Complete v) :
    pos (rotateVals (eq2ec w) v) = toEcliptic w.obliquity (pos v) ∧ vel (rotateVals (eq2ec w) v) = toEcliptic w.obliquity (vel v) := by
  rw [rotateVals_complete h]
  unfold pos vel toEcliptic eq2ec
  constructor <;> ext <;> simp [Fin.sum_univ_six]

theorem pos_rotate' (w : World τ) {v : Vals} (h : Complete v) :
    pos (rotateVals (ec2eq w) v) = toEcliptic (-w.obliquity) (pos v) ∧
      vel (rotateVals (ec2eq w) v) = toEcliptic (-w.obliquity) (vel v) := by
  rw [rotateVals_complete h]
  unfold pos vel toEcliptic ec2eq eq2ec
  constructor <;> ext <;> simp [Fin.sum_univ_six]

/-- **C45**: from the equator to the ecliptic a complete row is turned about the x axis by the obliquity, from the ecliptic to
the equator by the opposite angle; both the position and the velocity. -/
theorem C45_rotation (w : World τ) (c : Coords τ) (hk : c.kind = .cartesian) (hc : ∀ r ∈ c.rows, Complete r.vals) :
    (c.frame = "equatorial".toList → ∃ d, transform w (.coords c) none (some "ecliptic".toList) none = .ok d ∧
      List.Forall₂ (fun r r' => Complete r'.vals ∧ pos r'.vals = toEcliptic w.obliquity (pos r.vals) ∧
        vel r'.vals = toEcliptic w.obliquity (vel r.vals)) c.rows d.rows) ∧
    (c.frame = "ecliptic".toList → ∃ d, transform w (.coords c) none (some "equatorial".toList) none = .ok d ∧
      List.Forall₂ (fun r r' => Complete r'.vals ∧ pos r'.vals = toEcliptic (-w.obliquity) (pos r.vals) ∧
        vel r'.vals = toEcliptic (-w.obliquity) (vel r.vals)) c.rows d.rows) := by
  constructor
  · intro hf
    refine ⟨_, to_ecliptic hk hf, ?_⟩
    rw [List.forall₂_map_right_iff, List.forall₂_same]
    intro r hr
    refine ⟨?_, pos_rotate w (hc r hr)⟩
    change Complete (rotateVals _ _)
    rw [rotateVals_complete (hc r hr)]
    exact fun _ => rfl
  · intro hf
    refine ⟨_, to_equatorial hk hf, ?_⟩
    rw [List.forall₂_map_right_iff, List.forall₂_same]
    intro r hr
    refine ⟨?_, pos_rotate' w (hc r hr)⟩
    change Complete (rotateVals _ _)
    rw [rotateVals_complete (hc r hr)]
    exact fun _ => rfl

/-- **C45**: that rotation keeps dot products, norms and distances, and takes cross products to cross products: in particular
the angular momentum is rotated with the state. -/
theorem C45_preserves (ε : ℝ) (a b : V3) :
    V3.dot (toEcliptic ε a) (toEcliptic ε b) = V3.dot a b ∧ V3.norm (toEcliptic ε a) = V3.norm a ∧
    V3.norm (V3.sub (toEcliptic ε a) (toEcliptic ε b)) = V3.norm (V3.sub a b) ∧
    V3.cross (toEcliptic ε a) (toEcliptic ε b) = toEcliptic ε (V3.cross a b) := by
  have h := Real.sin_sq_add_cos_sq ε
  have hd : ∀ a b : V3, V3.dot (toEcliptic ε a) (toEcliptic ε b) = V3.dot a b := by
    intro a b
    unfold V3.dot toEcliptic
    linear_combination (a.y * b.y + a.z * b.z) * h
  have hn : ∀ a : V3, V3.norm (toEcliptic ε a) = V3.norm a := fun a => congrArg Real.sqrt (hd a a)
  refine ⟨hd a b, hn a, ?_, ?_⟩
  · have e : V3.sub (toEcliptic ε a) (toEcliptic ε b) = toEcliptic ε (V3.sub a b) := by
      unfold V3.sub toEcliptic
      ext <;> simp only <;> ring
    rw [e, hn]
  · unfold V3.cross toEcliptic
    ext <;> simp only
    · linear_combination (a.y * b.z - a.z * b.y) * h
    · ring
    · ring

/-! ### covariances -/

/-- `x` with the values below the tolerance set to zero. -/
theorem clip_near (x : ℝ) : |(if |x| < 1e-25 then 0 else x) - x| ≤ 1e-25 := by
  by_cases h : |x| < 1e-25
  · rw [if_pos h, zero_sub, abs_neg]; exact h.le
  · rw [if_neg h, sub_self, abs_zero]; norm_num

theorem rotateCov_complete {R : Matrix (Fin 6) (Fin 6) ℝ} {c : Cov} (h : CompleteCov c) (i j : Fin 6) :
    rotateCov R c i j = some (if |(R * mat c * Rᵀ) i j| < 1e-25 then 0 else (R * mat c * Rᵀ) i j) := by
  unfold rotateCov
  have := h i j
  cases hc : c i j with
  | none => rw [hc] at this; cases this
  | some x => rfl

theorem mat_rotate {R : Matrix (Fin 6) (Fin 6) ℝ} {c : Cov} (h : CompleteCov c) (i j : Fin 6) :
    mat (rotateCov R c) i j = if |(R * mat c * Rᵀ) i j| < 1e-25 then 0 else (R * mat c * Rᵀ) i j := by
  change (rotateCov R c i j).getD 0 = _
  rw [rotateCov_complete h]
  rfl

/-- **C45**: by any matrix, a complete covariance Σ becomes R Σ Rᵀ, up to 1e-25 in every entry, and it stays complete. An entry
differs only if it was smaller than 1e-25, and is then zero. The exact R Σ Rᵀ is symmetric and positive semidefinite if Σ is, and
the result is symmetric. -/
theorem C45_covariance (R : Matrix (Fin 6) (Fin 6) ℝ) (c : Cov) (h : CompleteCov c) :
    CompleteCov (rotateCov R c) ∧
    (∀ i j, |mat (rotateCov R c) i j - (R * mat c * Rᵀ) i j| ≤ 1e-25) ∧
    (∀ i j, mat (rotateCov R c) i j ≠ (R * mat c * Rᵀ) i j → mat (rotateCov R c) i j = 0 ∧ |(R * mat c * Rᵀ) i j| < 1e-25) ∧
    ((mat c).IsSymm → (mat (rotateCov R c)).IsSymm) ∧
    ((mat c).PosSemidef → (R * mat c * Rᵀ).PosSemidef) := by
  have hm : ∀ i j, mat (rotateCov R c) i j = if |(R * mat c * Rᵀ) i j| < 1e-25 then 0 else (R * mat c * Rᵀ) i j :=
    mat_rotate h
  refine ⟨?_, ?_, ?_, ?_, ?_⟩
  · intro i j
    rw [rotateCov_complete h]
    rfl
  · intro i j
    rw [hm]
    exact clip_near _
  · intro i j hne
    rw [hm] at hne ⊢
    by_cases hx : |(R * mat c * Rᵀ) i j| < 1e-25
    · rw [if_pos hx]; exact ⟨rfl, hx⟩
    · rw [if_neg hx] at hne; exact absurd rfl hne
  · intro hs
    have hr : (R * mat c * Rᵀ).IsSymm := by
      unfold Matrix.IsSymm
      rw [Matrix.transpose_mul, Matrix.transpose_mul, Matrix.transpose_transpose, hs.eq, Matrix.mul_assoc]
    apply Matrix.IsSymm.ext
    intro i j
    rw [hm, hm, hr.apply i j]
  · intro hp
    have := hp.mul_mul_conjTranspose_same R
    rwa [Matrix.conjTranspose_eq_transpose_of_trivial] at this

/-- **C45**: missing entries of a covariance stay missing and no others become missing. -/
theorem C45_covariance_missing (R : Matrix (Fin 6) (Fin 6) ℝ) (c : Cov) (i j : Fin 6) : rotateCov R c i j = none ↔ c i j = none := by
  unfold rotateCov
  cases c i j <;> simp

theorem col_sum (w : World τ) (i : Fin 6) : ∑ k, |(eq2ec w) k i| ≤ 3 / 2 ∧ ∑ k, |(ec2eq w) k i| ≤ 3 / 2 := by
  have h := Real.sin_sq_add_cos_sq w.obliquity
  have hs := sq_abs (Real.sin w.obliquity)
  have hc := sq_abs (Real.cos w.obliquity)
  have hb : |Real.sin w.obliquity| + |Real.cos w.obliquity| ≤ 3 / 2 := by
    nlinarith [sq_nonneg (|Real.sin w.obliquity| - |Real.cos w.obliquity|), abs_nonneg (Real.sin w.obliquity),
      abs_nonneg (Real.cos w.obliquity)]
  unfold ec2eq eq2ec
  fin_cases i <;> simp [Fin.sum_univ_six] <;> linarith

/-- The sum of an error of at most ε in every entry. -/
theorem error_bound {A E : Matrix (Fin 6) (Fin 6) ℝ} {δ : ℝ} (hE : ∀ i j, |E i j| ≤ δ) (hA : ∀ i, ∑ k, |A i k| ≤ 3 / 2) (hδ : 0 ≤ δ)
    (i j : Fin 6) : |(A * E * Aᵀ) i j| ≤ 9 / 4 * δ := by
  rw [Matrix.mul_apply]
  have h1 : ∀ l, |(A * E) i l| ≤ 3 / 2 * δ := by
    intro l
    rw [Matrix.mul_apply]
    calc |∑ k, A i k * E k l| ≤ ∑ k, |A i k * E k l| := Finset.abs_sum_le_sum_abs _ _
      _ ≤ ∑ k, |A i k| * δ := Finset.sum_le_sum fun k _ => by
          rw [abs_mul]; exact mul_le_mul_of_nonneg_left (hE k l) (abs_nonneg _)
      _ = (∑ k, |A i k|) * δ := by rw [Finset.sum_mul]
      _ ≤ 3 / 2 * δ := mul_le_mul_of_nonneg_right (hA i) hδ
  calc |∑ l, (A * E) i l * Aᵀ l j| ≤ ∑ l, |(A * E) i l * Aᵀ l j| := Finset.abs_sum_le_sum_abs _ _
    _ ≤ ∑ l, 3 / 2 * δ * |A j l| := Finset.sum_le_sum fun l _ => by
        rw [abs_mul]; exact mul_le_mul_of_nonneg_right (h1 l) (abs_nonneg _)
    _ = 3 / 2 * δ * ∑ l, |A j l| := by rw [Finset.mul_sum]
    _ ≤ 3 / 2 * δ * (3 / 2) := mul_le_mul_of_nonneg_left (hA j) (by positivity)
    _ = 9 / 4 * δ := by ring

theorem cov_back {A B : Matrix (Fin 6) (Fin 6) ℝ} (h : A * B = 1) (hA : ∀ i, ∑ k, |A i k| ≤ 3 / 2) {c : Cov} (hc : CompleteCov c)
    (i j : Fin 6) : |mat (rotateCov A (rotateCov B c)) i j - mat c i j| ≤ 4e-25 := by
  obtain ⟨h1, h2, -⟩ := C45_covariance B c hc
  obtain ⟨-, h3, -⟩ := C45_covariance A (rotateCov B c) h1
  have e : A * (B * mat c * Bᵀ) * Aᵀ = mat c := by
    have h' : Bᵀ * Aᵀ = 1 := by rw [← Matrix.transpose_mul, h, Matrix.transpose_one]
    rw [← Matrix.mul_assoc, ← Matrix.mul_assoc, h, Matrix.one_mul, Matrix.mul_assoc, h', Matrix.mul_one]
  have hb := error_bound (A := A) (E := mat (rotateCov B c) - B * mat c * Bᵀ) (δ := 1e-25) h2 hA (by norm_num) i j
  rw [Matrix.mul_sub, Matrix.sub_mul, e, Matrix.sub_apply] at hb
  have ha := h3 i j
  have e2 : mat (rotateCov A (rotateCov B c)) i j - mat c i j
      = (mat (rotateCov A (rotateCov B c)) i j - (A * mat (rotateCov B c) * Aᵀ) i j)
        + ((A * mat (rotateCov B c) * Aᵀ) i j - mat c i j) := by ring
  rw [e2]
  refine (abs_add_le _ _).trans ?_
  norm_num at ha hb ⊢
  linarith

/-- **C45**: a complete covariance taken to the other inertial frame and back differs by at most 4e-25 in every entry. -/
theorem C45_covariance_round_trip (w : World τ) (c : Cov) (hc : CompleteCov c) (i j : Fin 6) :
    |mat (rotateCov (eq2ec w) (rotateCov (ec2eq w) c)) i j - mat c i j| ≤ 4e-25 ∧
    |mat (rotateCov (ec2eq w) (rotateCov (eq2ec w) c)) i j - mat c i j| ≤ 4e-25 :=
  ⟨cov_back (eq2ec_mul w) (fun i => (col_sum w i).2) hc i j, cov_back (ec2eq_mul w) (fun i => (col_sum w i).1) hc i j⟩

/-- **C45, negation**: the covariances do not always stay positive semidefinite. The variance of x is 0.9e-25, its covariance with
vx is 1e-13, and the variance of vx is 1; at any obliquity the first is set to zero and the second is not. -/
theorem C45_psd_false (w : World τ) : ∃ c : Cov, CompleteCov c ∧ (mat c).PosSemidef ∧ ¬ (mat (rotateCov (eq2ec w) c)).PosSemidef := by
  let M : Matrix (Fin 6) (Fin 6) ℝ :=
    !![9e-26, 0, 0, 1e-13, 0, 0; 0, 0, 0, 0, 0, 0; 0, 0, 0, 0, 0, 0; 1e-13, 0, 0, 1, 0, 0; 0, 0, 0, 0, 0, 0; 0, 0, 0, 0, 0, 0]
  refine ⟨fun i j => some (M i j), fun _ _ => rfl, ?_, ?_⟩
  · have e : mat (fun i j => some (M i j)) = M := rfl
    rw [e]
    refine Matrix.PosSemidef.of_dotProduct_mulVec_nonneg ?_ ?_
    · ext i j
      fin_cases i <;> fin_cases j <;> simp [M]
    · intro x
      simp [M, Matrix.mulVec, dotProduct, Fin.sum_univ_six]
      nlinarith [sq_nonneg (x 3 + 1e-13 * x 0), sq_nonneg (x 0)]
  · intro hp
    have h00 : mat (rotateCov (eq2ec w) fun i j => some (M i j)) 0 0 = 0 := by
      rw [mat_rotate fun _ _ => rfl]
      have e : (eq2ec w * mat (fun i j => some (M i j)) * (eq2ec w)ᵀ) 0 0 = 9e-26 := by
        rw [show mat (fun i j => some (M i j)) = M from rfl]
        simp [eq2ec, M, Matrix.mul_apply, Fin.sum_univ_six]
      rw [e, if_pos]
      rw [abs_of_nonneg] <;> norm_num
    have h03 : mat (rotateCov (eq2ec w) fun i j => some (M i j)) 0 3 = 1e-13 := by
      rw [mat_rotate fun _ _ => rfl]
      have e : (eq2ec w * mat (fun i j => some (M i j)) * (eq2ec w)ᵀ) 0 3 = 1e-13 := by
        rw [show mat (fun i j => some (M i j)) = M from rfl]
        simp [eq2ec, M, Matrix.mul_apply, Fin.sum_univ_six]
      rw [e, if_neg]
      rw [abs_of_nonneg] <;> norm_num
    have h30 : mat (rotateCov (eq2ec w) fun i j => some (M i j)) 3 0 = 1e-13 := by
      rw [mat_rotate fun _ _ => rfl]
      have e : (eq2ec w * mat (fun i j => some (M i j)) * (eq2ec w)ᵀ) 3 0 = 1e-13 := by
        rw [show mat (fun i j => some (M i j)) = M from rfl]
        simp [eq2ec, M, Matrix.mul_apply, Fin.sum_univ_six]
      rw [e, if_neg]
      rw [abs_of_nonneg] <;> norm_num
    have h33 : mat (rotateCov (eq2ec w) fun i j => some (M i j)) 3 3 = 1 := by
      rw [mat_rotate fun _ _ => rfl]
      have e : (eq2ec w * mat (fun i j => some (M i j)) * (eq2ec w)ᵀ) 3 3 = 1 := by
        rw [show mat (fun i j => some (M i j)) = M from rfl]
        simp [eq2ec, M, Matrix.mul_apply, Fin.sum_univ_six]
      rw [e, if_neg]
      rw [abs_of_nonneg] <;> norm_num
    have := hp.dotProduct_mulVec_nonneg ![1, 0, 0, -1e-13, 0, 0]
    simp [Matrix.mulVec, dotProduct, Fin.sum_univ_six, h00, h03, h30, h33] at this
    norm_num at this

/-- **C45, negation**: a row with some values missing does not keep them missing. A row with only x known, 1 au, gets y, z and the
velocity of zero in the other frame. -/
theorem C45_missing_false (w : World τ) (t : τ) (cv : Cov) (o : Str) :
    ∃ c d : Coords τ, c.rows = [⟨fun i => if i = 0 then some 1 else none, cv, t, o⟩] ∧
      transform w (.coords c) none (some "ecliptic".toList) none = .ok d ∧
      d.rows.map Row.vals = [fun i => if i = 0 then some 1 else some 0] := by
  refine ⟨⟨.cartesian, "equatorial".toList, _⟩, _, rfl, to_ecliptic rfl rfl, ?_⟩
  simp only [List.map_cons, List.map_nil, rotateRow]
  congr 1
  funext k
  unfold rotateVals
  rw [if_neg]
  · rw [Fin.sum_univ_six]
    unfold eq2ec
    fin_cases k <;> simp
  · intro h
    have := h 0
    simp at this

/-! ### the rotating frame -/

/-- **C45**: if the matrices of SPICE for the two directions are inverse to each other at every time, a table of one origin taken
to the rotating frame and back has its positions and velocities again, whatever the times of its rows. -/
theorem C45_rotating (w : World τ) (c : Coords τ) (hk : c.kind = .cartesian)
    (hf : c.frame = "equatorial".toList ∨ c.frame = "ecliptic".toList) (hne : c.rows ≠ [])
    (ho : ∀ r ∈ c.rows, ∀ r' ∈ c.rows, r.origin = r'.origin) (hc : ∀ r ∈ c.rows, Complete r.vals ∨ ∀ i, r.vals i = none)
    (hs : ∀ f t, w.sxform "ITRF93".toList f t * w.sxform f "ITRF93".toList t = 1) (hkm : w.kmPerAu ≠ 0) (hsd : w.secondsPerDay ≠ 0) :
    ∃ d e, transform w (.coords c) none (some "itrf93".toList) none = .ok d ∧
      transform w (.coords d) none (some c.frame) none = .ok e ∧ d.frame = "itrf93".toList ∧ e.frame = c.frame ∧
      List.Forall₂ (fun r r' => r'.vals = r.vals ∧ r'.time = r.time ∧ r'.origin = r.origin) c.rows e.rows := by
  obtain ⟨k, f, R⟩ := c
  simp only at hk hf hne ho hc
  subst hk
  have hu : ∀ g : Row τ → Row τ, (∀ r, (g r).origin = r.origin) → (uniq ((R.map g).map Row.origin)).length = 1 := by
    intro g hg
    rw [uniq_len_one, List.map_map]
    refine ⟨by simpa using hne, ?_⟩
    intro a ha b hb
    obtain ⟨r, hr, rfl⟩ := List.mem_map.mp ha
    obtain ⟨r', hr', rfl⟩ := List.mem_map.mp hb
    simp only [Function.comp_apply, hg]
    exact ho r hr r' hr'
  obtain ⟨fi, hfi⟩ : ∃ fi, spiceFrame f = some fi := spiceFrame_known (.inr hf.symm)
  have h1 : timeVarying w "itrf93".toList ⟨.cartesian, f, R⟩ = .ok ⟨.cartesian, "itrf93".toList,
      R.map fun r => rotateRow (auMatrix w (w.sxform fi "ITRF93".toList r.time)) r⟩ :=
    timeVarying_iff.mpr ⟨by simpa using hu id (fun _ => rfl), "ITRF93".toList, fi, rfl, hfi, rfl⟩
  have h2 : timeVarying w f ⟨.cartesian, "itrf93".toList,
        R.map fun r => rotateRow (auMatrix w (w.sxform fi "ITRF93".toList r.time)) r⟩
      = .ok ⟨.cartesian, f, (R.map fun r => rotateRow (auMatrix w (w.sxform fi "ITRF93".toList r.time)) r).map fun r =>
        rotateRow (auMatrix w (w.sxform "ITRF93".toList fi r.time)) r⟩ :=
    timeVarying_iff.mpr ⟨hu _ (fun _ => rfl), fi, "ITRF93".toList, hfi, rfl, rfl⟩
  refine ⟨⟨.cartesian, "itrf93".toList, R.map fun r => rotateRow (auMatrix w (w.sxform fi "ITRF93".toList r.time)) r⟩,
    ⟨.cartesian, f, (R.map fun r => rotateRow (auMatrix w (w.sxform fi "ITRF93".toList r.time)) r).map fun r =>
        rotateRow (auMatrix w (w.sxform "ITRF93".toList fi r.time)) r⟩, ?_, ?_, rfl, rfl, ?_⟩
  · rw [transform_valid (k := .cartesian) ⟨by simp, by rintro _ ⟨⟩; exact .inr (.inr rfl), by simp⟩ rfl, if_neg]
    · refine steps_iff.mpr ⟨_, _, _, rfl, rfl, ?_, rfl⟩
      rw [← h1]
      rcases hf with rfl | rfl <;> rfl
    · rw [shortcut_iff]
      rintro ⟨-, h, -⟩
      simp only [Option.getD_some] at h
      rcases hf with rfl | rfl <;> exact absurd h (by decide)
  · rw [transform_valid (k := .cartesian) ⟨by simp, by rintro _ ⟨⟩; rcases hf with h | h <;> rw [h]; exacts [.inl rfl, .inr (.inl rfl)], by simp⟩ rfl, if_neg]
    · refine steps_iff.mpr ⟨_, _, _, rfl, rfl, ?_, rfl⟩
      rw [← h2]
      rcases hf with rfl | rfl <;> rfl
    · rw [shortcut_iff]
      rintro ⟨-, h, -⟩
      simp only [Option.getD_some] at h
      rcases hf with rfl | rfl <;> exact absurd h (by decide)
  · simp only
    rw [List.map_map, List.forall₂_map_right_iff, List.forall₂_same]
    intro r hr
    refine ⟨?_, rfl, rfl⟩
    refine rotate_back ?_ (hc r hr)
    unfold auMatrix
    set D : Matrix (Fin 6) (Fin 6) ℝ := Matrix.diagonal fun i => if i.val < 3 then w.kmPerAu else w.kmPerAu / w.secondsPerDay
    have hD : IsUnit D.det := by
      rw [Matrix.det_diagonal]
      apply IsUnit.mk0
      apply Finset.prod_ne_zero_iff.mpr
      intro i _
      split
      · exact hkm
      · exact div_ne_zero hkm hsd
    simp only [rotateRow]
    calc D⁻¹ * w.sxform "ITRF93".toList fi r.time * D * (D⁻¹ * w.sxform fi "ITRF93".toList r.time * D)
        = D⁻¹ * (w.sxform "ITRF93".toList fi r.time * ((D * D⁻¹) * w.sxform fi "ITRF93".toList r.time)) * D := by
          simp only [Matrix.mul_assoc]
      _ = 1 := by rw [Matrix.mul_nonsing_inv _ hD, Matrix.one_mul, hs, Matrix.mul_one, Matrix.nonsing_inv_mul _ hD]

/-- SPICE's names of the three frames. -/
def SpiceName (f g : Str) : Prop :=
  f = "itrf93".toList ∧ g = "ITRF93".toList ∨ f = "ecliptic".toList ∧ g = "ECLIPJ2000".toList ∨ f = "equatorial".toList ∧ g = "J2000".toList

theorem spiceFrame_name {f g : Str} (h : SpiceName f g) : spiceFrame f = some g := by
  rcases h with ⟨rfl, rfl⟩ | ⟨rfl, rfl⟩ | ⟨rfl, rfl⟩ <;> rfl

/-- An au, or an au a day, in km or km/s. -/
noncomputable def kmOf (w : World τ) (i : Fin 6) : ℝ := if i.val < 3 then w.kmPerAu else w.kmPerAu / w.secondsPerDay

theorem auMatrix_apply (w : World τ) (hkm : w.kmPerAu ≠ 0) (hsd : w.secondsPerDay ≠ 0) (M : Matrix (Fin 6) (Fin 6) ℝ) (i j : Fin 6) :
    kmOf w i * auMatrix w M i j = M i j * kmOf w j := by
  have hne : ∀ i, kmOf w i ≠ 0 := by
    intro i
    unfold kmOf
    split
    · exact hkm
    · exact div_ne_zero hkm hsd
  have e : auMatrix w M = (Matrix.diagonal (kmOf w))⁻¹ * M * Matrix.diagonal (kmOf w) := rfl
  have hD : IsUnit (Matrix.diagonal (kmOf w)).det := by
    rw [Matrix.det_diagonal]
    exact IsUnit.mk0 _ (Finset.prod_ne_zero_iff.mpr fun i _ => hne i)
  have h : Matrix.diagonal (kmOf w) * auMatrix w M = M * Matrix.diagonal (kmOf w) := by
    rw [e, Matrix.mul_assoc, ← Matrix.mul_assoc, Matrix.mul_nonsing_inv _ hD, Matrix.one_mul]
  have := congrFun (congrFun h i) j
  rwa [Matrix.diagonal_mul, Matrix.mul_diagonal] at this

/-- **C45**: to and from the rotating frame every complete state, in km and km/s, is multiplied by SPICE's matrix from the frame of the
table to the frame asked for, at the time of its own row. -/
theorem C45_spice {w : World τ} {c d : Coords τ} (hk : c.kind = .cartesian) {out fi fo : Str} (hi : SpiceName c.frame fi)
    (ho : SpiceName out fo) (hr : c.frame = "itrf93".toList ∧ out ≠ "itrf93".toList ∨ c.frame ≠ "itrf93".toList ∧ out = "itrf93".toList)
    (hkm : w.kmPerAu ≠ 0) (hsd : w.secondsPerDay ≠ 0) (h : transform w (.coords c) none (some out) none = .ok d) :
    d.frame = out ∧ List.Forall₂ (fun r r' => r'.time = r.time ∧ r'.origin = r.origin ∧
      ∀ s : Fin 6 → ℝ, (∀ i, r.vals i = some (s i)) →
        ∃ s' : Fin 6 → ℝ, (∀ i, r'.vals i = some (s' i)) ∧
          ∀ i, kmOf w i * s' i = ∑ j, w.sxform fi fo r.time i j * (kmOf w j * s j)) c.rows d.rows := by
  have hne : c.frame ≠ out := by
    rcases hr with ⟨h1, h2⟩ | ⟨h1, h2⟩
    · rw [h1]; exact fun e => h2 e.symm
    · rw [h2]; exact h1
  have hv : out = "equatorial".toList ∨ out = "ecliptic".toList ∨ out = "itrf93".toList := by
    rcases ho with ⟨h, -⟩ | ⟨h, -⟩ | ⟨h, -⟩
    exacts [.inr (.inr h), .inr (.inl h), .inl h]
  rw [transform_valid (k := .cartesian) ⟨by simp, by rintro _ ⟨⟩; exact hv, by simp⟩ (by simp [wantKind, hk]), if_neg] at h
  swap
  · rw [shortcut_iff]
    rintro ⟨-, h, -⟩
    exact hne h
  obtain ⟨x, y, z, h1, h2, h3, h4⟩ := steps_iff.mp h
  have e1 : x = c := by
    unfold step1 at h1
    rw [if_pos hk] at h1
    cases h1; rfl
  subst e1
  have e2 : y = x := by
    unfold step2 at h2
    cases h2; rfl
  subst e2
  have e4 : d = z := by
    unfold step4 at h4
    rw [if_pos rfl] at h4
    cases h4; rfl
  subst e4
  have h5 : timeVarying w out y = .ok d := by
    unfold step3 at h3
    rw [if_pos (by simpa using hne)] at h3
    simp only [Option.getD_some] at h3
    unfold cartesianToFrame at h3
    rcases hr with ⟨g1, g2⟩ | ⟨g1, g2⟩
    · rw [if_neg (by rw [g1]; rintro ⟨-, e⟩; exact absurd e (by decide)), if_neg (by rw [g1]; rintro ⟨-, e⟩; exact absurd e (by decide)),
        if_neg (fun e => g2 e.1), if_pos ⟨g2, g1⟩] at h3
      exact h3
    · rw [if_neg (by rw [g2]; rintro ⟨e, -⟩; exact absurd e (by decide)), if_neg (by rw [g2]; rintro ⟨e, -⟩; exact absurd e (by decide)),
        if_pos ⟨g2, g1⟩] at h3
      exact h3
  obtain ⟨-, fo', fi', ha, hb, rfl⟩ := timeVarying_iff.mp h5
  rw [spiceFrame_name ho] at ha
  rw [spiceFrame_name hi] at hb
  cases ha
  cases hb
  refine ⟨rfl, ?_⟩
  rw [List.forall₂_map_right_iff, List.forall₂_same]
  intro r _
  refine ⟨rfl, rfl, fun s hs => ⟨fun i => ∑ j, auMatrix w (w.sxform fi fo r.time) i j * s j, fun i => ?_, fun i => ?_⟩⟩
  · simp only [rotateRow, rotateVals, hs]
    rw [if_neg (by simp)]
    simp
  · rw [Finset.mul_sum]
    refine Finset.sum_congr rfl fun j _ => ?_
    rw [← mul_assoc, auMatrix_apply w hkm hsd, mul_assoc]

/-- A world whose rotating frame doubles all coordinates. -/
noncomputable def doubling : World ℕ :=
  { axisWorld (fun _ => 0) with
    sxform := fun f g _ => if f = g then 1 else if g = "ITRF93".toList then (2 : ℝ) • 1 else (1 / 2 : ℝ) • 1
    kmPerAu := 3
    secondsPerDay := 4 }

/-- C45_rotating and C45_spice: a row goes to the rotating frame by the matrix for that direction. -/
example : ∃ d, transform doubling (.coords ⟨.cartesian, "ecliptic".toList, [⟨fun _ => some 1, fun _ _ => none, 5, "SUN".toList⟩]⟩) none
    (some "itrf93".toList) none = .ok d ∧ ∀ r ∈ d.rows, r.vals 4 = some 2 := by
  obtain ⟨d, e, h, -⟩ := C45_rotating doubling ⟨.cartesian, "ecliptic".toList, [⟨fun _ => some 1, fun _ _ => none, 5, "SUN".toList⟩]⟩ rfl
    (.inr rfl) (by simp) (by simp) (by simp [Complete])
    (by
      intro f t
      by_cases hf : "ITRF93".toList = f
      · subst hf; simp [doubling]
      · have hf' : ¬ f = "ITRF93".toList := fun e => hf e.symm
        simp only [doubling, if_neg hf, if_neg hf', if_true]
        rw [Matrix.smul_mul, Matrix.one_mul, smul_smul]
        norm_num)
    (by simp [doubling]) (by simp [doubling])
  refine ⟨d, h, ?_⟩
  obtain ⟨-, hrows⟩ := C45_spice rfl (.inr (.inl ⟨rfl, rfl⟩)) (.inl ⟨rfl, rfl⟩) (.inr ⟨by decide, rfl⟩) (by simp [doubling])
    (by simp [doubling]) h
  simp only at hrows
  obtain ⟨r', l, ⟨-, -, hs⟩, hl, hd⟩ := List.forall₂_cons_left_iff.mp hrows
  rw [List.forall₂_nil_left_iff] at hl
  subst hl
  obtain ⟨s', h1, h2⟩ := hs (fun _ => 1) fun _ => rfl
  intro r hr
  rw [hd, List.mem_singleton] at hr
  subst hr
  rw [h1 4]
  have h3 := h2 4
  have hne : ¬ "ECLIPJ2000".toList = "ITRF93".toList := by decide
  simp only [doubling, if_neg hne, if_pos, kmOf, Matrix.smul_apply, Matrix.one_apply, Fin.sum_univ_six] at h3
  norm_num at h3
  rw [Option.some.injEq]
  simp at h3
  linarith

end Verif.Xform.Rotation
