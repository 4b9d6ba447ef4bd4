import Mathlib.Analysis.InnerProductSpace.PiL2
import Mathlib.Analysis.Real.Sqrt
import Mathlib.Tactic.Ring
import Mathlib.Tactic.Linarith

/-! # Rows of three real numbers

The code works on rows of three numbers with explicit sums of products. `toE` reads a row as a vector of Mathlib's Euclidean
space, which the specifications use. -/

namespace Verif

/-- A row `[x, y, z]`. -/
@[ext] structure V3 where
  x : ℝ
  y : ℝ
  z : ℝ

namespace V3

/-- `a - b` -/
def sub (a b : V3) : V3 := ⟨a.x - b.x, a.y - b.y, a.z - b.z⟩
/-- `a + b` -/
def add (a b : V3) : V3 := ⟨a.x + b.x, a.y + b.y, a.z + b.z⟩
/-- `k * a` -/
def smul (k : ℝ) (a : V3) : V3 := ⟨k * a.x, k * a.y, k * a.z⟩
/-- `np.dot(a, b)` -/
def dot (a b : V3) : ℝ := a.x * b.x + a.y * b.y + a.z * b.z
/-- `np.cross(a, b)` -/
def cross (a b : V3) : V3 := ⟨a.y * b.z - a.z * b.y, a.z * b.x - a.x * b.z, a.x * b.y - a.y * b.x⟩
/-- `np.linalg.norm(a)` -/
noncomputable def norm (a : V3) : ℝ := Real.sqrt (a.x * a.x + a.y * a.y + a.z * a.z)

/-- The row as a vector of Euclidean space. -/
noncomputable def toE (a : V3) : EuclideanSpace ℝ (Fin 3) := !₂[a.x, a.y, a.z]

theorem inner_toE (a b : V3) : inner ℝ a.toE b.toE = dot a b := by
  simp [toE, dot, PiLp.inner_apply, Fin.sum_univ_three]; ring

theorem norm_toE (a : V3) : ‖a.toE‖ = norm a := by
  rw [EuclideanSpace.norm_eq]
  simp [toE, norm, Fin.sum_univ_three, sq]

theorem toE_sub (a b : V3) : (sub a b).toE = a.toE - b.toE := by
  ext i; fin_cases i <;> simp [toE, sub]

theorem toE_add (a b : V3) : (add a b).toE = a.toE + b.toE := by
  ext i; fin_cases i <;> simp [toE, add]

theorem toE_smul (k : ℝ) (a : V3) : (smul k a).toE = k • a.toE := by
  ext i; fin_cases i <;> simp [toE, smul]

theorem norm_nonneg (a : V3) : 0 ≤ norm a := Real.sqrt_nonneg _

theorem norm_sq (a : V3) : norm a ^ 2 = dot a a := by
  unfold norm dot
  rw [Real.sq_sqrt]
  nlinarith [sq_nonneg a.x, sq_nonneg a.y, sq_nonneg a.z]

theorem norm_mul_self (a : V3) : norm a * norm a = dot a a := by rw [← norm_sq, sq]

theorem norm_smul (k : ℝ) (a : V3) : norm (smul k a) = |k| * norm a := by
  rw [← norm_toE, toE_smul, _root_.norm_smul, norm_toE, Real.norm_eq_abs]

theorem norm_eq_zero {a : V3} : norm a = 0 ↔ a = ⟨0, 0, 0⟩ := by
  constructor
  · intro h
    have := norm_sq a
    rw [h] at this
    unfold dot at this
    have hx : a.x = 0 := by nlinarith [sq_nonneg a.x, sq_nonneg a.y, sq_nonneg a.z]
    have hy : a.y = 0 := by nlinarith [sq_nonneg a.x, sq_nonneg a.y, sq_nonneg a.z]
    have hz : a.z = 0 := by nlinarith [sq_nonneg a.x, sq_nonneg a.y, sq_nonneg a.z]
    ext <;> assumption
  · rintro rfl; simp [norm]

theorem abs_dot_le (a b : V3) : |dot a b| ≤ norm a * norm b := by
  rw [← inner_toE, ← norm_toE, ← norm_toE]
  exact abs_real_inner_le_norm _ _

end V3
end Verif
