import Verif.Lambert.Transfer
import Mathlib.Analysis.SpecialFunctions.Trigonometric.Arctan

/-! # The time of flight -/

namespace Verif.Lambert

open Verif Verif.Univ

/-- The exact (non-dimensional) time of flight. -/
noncomputable def exactTime (x ll : ℝ) (M : Nat) : ℝ :=
  if x = 1 then 2 / 3 * (1 - ll ^ 3)
  else ((computePsi x (computeY x ll) ll + M * Real.pi) / √|1 - x ^ 2| - x + ll * computeY x ll) / (1 - x ^ 2)

theorem kappa_sq {l x y : ℝ} (hy : y ^ 2 = 1 - l ^ 2 * (1 - x ^ 2)) :
    (x * y + l * (1 - x ^ 2)) ^ 2 + (y - l * x) ^ 2 * (1 - x ^ 2) = 1 := by grind

/-- `psi` for an ellipse. -/
theorem psi_elliptic {x l : ℝ} (hl : l ^ 2 < 1) (h1 : -1 < x) (h2 : x < 1) :
    Real.cos (computePsi x (computeY x l) l) = x * computeY x l + l * (1 - x ^ 2) ∧
    Real.sin (computePsi x (computeY x l) l) = (computeY x l - l * x) * √(1 - x ^ 2) := by
  have hy := y_sq (x := x) hl
  have he := eta_pos x hl
  have hx : 0 < 1 - x ^ 2 := by nlinarith
  have k := kappa_sq hy
  set y := computeY x l
  set kap := x * y + l * (1 - x ^ 2) with hk
  have hk2 : kap ^ 2 ≤ 1 := by nlinarith [mul_nonneg (sq_nonneg (y - l * x)) hx.le]
  have hb := abs_le.mp ((sq_le_one_iff_abs_le_one kap).mp hk2)
  unfold computePsi
  rw [if_pos h2, ← hk, min_eq_right hb.2, max_eq_right hb.1]
  refine ⟨Real.cos_arccos hb.1 hb.2, ?_⟩
  rw [Real.sin_arccos]
  have : 1 - kap ^ 2 = ((y - l * x) * √(1 - x ^ 2)) ^ 2 := by
    rw [mul_pow, Real.sq_sqrt hx.le]; linarith
  rw [this, Real.sqrt_sq (by positivity)]

/-- `psi` for a hyperbola. -/
theorem psi_hyperbolic {x l : ℝ} (hl : l ^ 2 < 1) (h1 : 1 < x) :
    Real.cosh (computePsi x (computeY x l) l) = x * computeY x l + l * (1 - x ^ 2) ∧
    Real.sinh (computePsi x (computeY x l) l) = (computeY x l - l * x) * √(x ^ 2 - 1) := by
  have hy := y_sq (x := x) hl
  have hgt := y_gt x hl
  have hx : 0 < x ^ 2 - 1 := by nlinarith
  have k := kappa_sq hy
  set y := computeY x l
  unfold computePsi
  rw [if_neg (by linarith), if_pos h1, Real.sinh_arsinh, mul_comm x l]
  refine ⟨?_, rfl⟩
  have hkpos : 0 < x * y + l * (1 - x ^ 2) := by
    have h3 : |l| * x < y := by rwa [abs_mul, abs_of_pos (by linarith : (0 : ℝ) < x)] at hgt
    have h4 : x * (|l| * x) < x * y := mul_lt_mul_of_pos_left h3 (by linarith)
    have h5 : l * (x ^ 2 - 1) ≤ |l| * (x ^ 2 - 1) := mul_le_mul_of_nonneg_right (le_abs_self l) hx.le
    have h6 : 0 ≤ |l| := abs_nonneg l
    nlinarith
  have hsq : Real.cosh (Real.arsinh ((y - l * x) * √(x ^ 2 - 1))) ^ 2 = (x * y + l * (1 - x ^ 2)) ^ 2 := by
    rw [Real.cosh_sq, Real.sinh_arsinh, mul_pow, Real.sq_sqrt hx.le]
    linarith
  exact (pow_left_inj₀ (Real.cosh_pos _).le hkpos.le two_ne_zero).mp hsq

section

variable {r1 r2 : V3} {prograde : Bool} {g : Geometry} {rho sg C S : ℝ} (F : Facts r1 r2 prograde g rho sg C S)
  {mu x : ℝ} (hmu : 0 < mu)

include F hmu

/-- The universal anomaly of the transfer. -/
theorem anomaly_transfer {M : Nat} (h1 : -1 < x) (h2 : x < 1 ∨ M = 0) : ∃ chi,
    let y := computeY x g.ll; let a := alpha mu r1 (velocities mu g x y).1
    U2 a chi = g.s * (y - g.ll * x) ^ 2 ∧ U1 a chi = 2 * √(g.s / 2) * (y - g.ll * x) * (x * y + g.ll * (1 - x ^ 2)) ∧
    FF (V3.norm r1) (Univ.sigma mu r1 (velocities mu g x y).1) a chi = g.s * √(g.s / 2) * exactTime x g.ll M ∧
    0 < chi ∧ (x < 1 → 0 < a ∧ ∃ psi, 0 < psi ∧ psi < Real.pi ∧ √a * chi = 2 * (psi + M * Real.pi)) := by
  have hy := y_sq (x := x) F.hl
  have ha := alpha_eq F hmu (x := x)
  obtain ⟨-, -, hG, -⟩ := transfer F hmu (x := x)
  rw [← sigma_eq' F hmu, ← norm_r1 F] at hG
  obtain ⟨hq, hqpos⟩ := halfs F
  have spos := F.spos
  have hell := @psi_elliptic x g.ll F.hl
  have hhyp := @psi_hyperbolic x g.ll F.hl
  have hex : exactTime x g.ll M = if x = 1 then 2 / 3 * (1 - g.ll ^ 3)
    else ((computePsi x (computeY x g.ll) g.ll + M * Real.pi) / √|1 - x ^ 2| - x + g.ll * computeY x g.ll) / (1 - x ^ 2) := rfl
  have hy1 : x = 1 → computeY x g.ll = 1 := by rintro rfl; simp [computeY]
  have he := eta_pos x F.hl
  set y := computeY x g.ll with hydef
  set a := alpha mu r1 (velocities mu g x y).1 with hadef
  set sig := Univ.sigma mu r1 (velocities mu g x y).1
  set q := √(g.s / 2) with hqdef
  have hs2 : g.s = 2 * q ^ 2 := by rw [hq]; ring
  have ha' : a = (1 - x ^ 2) / q ^ 2 := by rw [ha, hq]; field_simp
  have k3 := K3 hy
  clear_value y q
  simp only
  rcases lt_trichotomy x 1 with hx | hx | hx
  · obtain ⟨hcos, hsin⟩ := hell h1 hx
    have hx2 : 0 < 1 - x ^ 2 := by nlinarith
    have hap : 0 < a := by rw [ha']; positivity
    set psi := computePsi x y g.ll
    set w := √(1 - x ^ 2) with hw
    have hwpos : 0 < w := Real.sqrt_pos.mpr hx2
    have hwsq : w ^ 2 = 1 - x ^ 2 := Real.sq_sqrt hx2.le
    have hsa : √a = w / q := by rw [ha', Real.sqrt_div hx2.le, Real.sqrt_sq hqpos.le]
    refine ⟨2 * (psi + M * Real.pi) * q / w, ?_⟩
    obtain ⟨-, u1, u2, u3⟩ := pos_form hap (2 * (psi + M * Real.pi) * q / w)
    have harg : √a * (2 * (psi + M * Real.pi) * q / w) = 2 * psi + M * (2 * Real.pi) := by
      rw [hsa]; field_simp
    rw [harg, Real.cos_add_nat_mul_two_pi, Real.cos_two_mul'] at u2
    rw [harg, Real.sin_add_nat_mul_two_pi, Real.sin_two_mul] at u1 u3
    have hU2 : U2 a (2 * (psi + M * Real.pi) * q / w) = g.s * (y - g.ll * x) ^ 2 := by
      rw [u2, Real.cos_sq', hsin, ha', hs2, mul_pow, hwsq]
      field_simp
      ring
    have hU1 : U1 a (2 * (psi + M * Real.pi) * q / w) = 2 * q * (y - g.ll * x) * (x * y + g.ll * (1 - x ^ 2)) := by
      rw [u1, hsin, hcos, hsa]
      field_simp
    have hpp : 0 < psi ∧ psi < Real.pi := by
      have hsp : 0 < Real.sin psi := by rw [hsin]; exact mul_pos he hwpos
      have h0 : 0 ≤ psi := by simp only [psi]; unfold computePsi; rw [if_pos hx]; exact Real.arccos_nonneg _
      have h1 : psi ≤ Real.pi := by simp only [psi]; unfold computePsi; rw [if_pos hx]; exact Real.arccos_le_pi _
      refine ⟨lt_of_le_of_ne h0 ?_, lt_of_le_of_ne h1 ?_⟩
      · intro e; rw [← e, Real.sin_zero] at hsp; exact lt_irrefl _ hsp
      · intro e; rw [e, Real.sin_pi] at hsp; exact lt_irrefl _ hsp
    refine ⟨hU2, hU1, ?_, ?_, fun _ => ⟨hap, psi, hpp.1, hpp.2, by rw [harg]; ring⟩⟩
    swap
    · have : (0 : ℝ) ≤ M * Real.pi := mul_nonneg (Nat.cast_nonneg M) Real.pi_pos.le
      exact div_pos (mul_pos (mul_pos two_pos (by linarith [hpp.1])) hqpos) hwpos
    unfold FF
    have hU3 : U3 a (2 * (psi + M * Real.pi) * q / w) = (2 * (psi + M * Real.pi) * q / w -
        2 * q * (y - g.ll * x) * (x * y + g.ll * (1 - x ^ 2))) / a := by rw [u3, ← hU1, u1]
    have : sig * U2 a (2 * (psi + M * Real.pi) * q / w) + U3 a (2 * (psi + M * Real.pi) * q / w) +
        V3.norm r1 * U1 a (2 * (psi + M * Real.pi) * q / w) = 2 * q * g.s * (y - g.ll * x) * g.ll +
        U3 a (2 * (psi + M * Real.pi) * q / w) := by rw [hU2, hU1]; linear_combination hG
    rw [this, hU3, ha', hex, if_neg hx.ne, abs_of_pos hx2, ← hw, hs2]
    clear_value w
    have hx0 : 1 - x ^ 2 ≠ 0 := hx2.ne'
    field_simp
    linear_combination w * k3
  · subst hx
    have hy1' := hy1 rfl
    have ha0 : a = 0 := by rw [ha']; norm_num
    rw [← hadef, ha0]
    obtain ⟨-, u1, u2, u3⟩ := zero_form (2 * q * (1 - g.ll))
    refine ⟨2 * q * (1 - g.ll), ?_, ?_, ?_, ?_, fun h => absurd h (lt_irrefl _)⟩
    · rw [u2, hy1', hs2]; ring
    · rw [u1, hy1']; ring
    · unfold FF
      rw [u1, u2, u3, hex, if_pos rfl]
      rw [hy1'] at hG
      show sig * _ + _ + _ = _
      linear_combination hG + (-sig * (1 - g.ll) ^ 2 - 2 / 3 * q * (1 - g.ll ^ 3) + 2 * q * (1 - g.ll) * g.ll) * hs2
    · have := abs_lt.mp ((sq_lt_one_iff_abs_lt_one g.ll).mp F.hl)
      exact mul_pos (mul_pos two_pos hqpos) (by linarith)
  · obtain rfl : M = 0 := h2.resolve_left (by linarith)
    obtain ⟨hcos, hsin⟩ := hhyp hx
    have hx2 : 0 < x ^ 2 - 1 := by nlinarith
    have han : a < 0 := by rw [ha']; exact div_neg_of_neg_of_pos (by linarith) (by positivity)
    set psi := computePsi x y g.ll
    set w := √(x ^ 2 - 1) with hw
    have hwpos : 0 < w := Real.sqrt_pos.mpr hx2
    have hwsq : w ^ 2 = x ^ 2 - 1 := Real.sq_sqrt hx2.le
    have hsa : √(-a) = w / q := by
      rw [ha', ← neg_div, show -(1 - x ^ 2) = x ^ 2 - 1 by ring, Real.sqrt_div hx2.le, Real.sqrt_sq hqpos.le]
    refine ⟨2 * psi * q / w, ?_⟩
    obtain ⟨-, u1, u2, u3⟩ := neg_form han (2 * psi * q / w)
    have harg : √(-a) * (2 * psi * q / w) = 2 * psi := by rw [hsa]; field_simp
    rw [harg, Real.cosh_two_mul, Real.cosh_sq] at u2
    rw [harg, Real.sinh_two_mul] at u1 u3
    have hx0 : 1 - x ^ 2 ≠ 0 := by linarith
    have hU2 : U2 a (2 * psi * q / w) = g.s * (y - g.ll * x) ^ 2 := by
      rw [u2, hsin, ha', hs2, mul_pow, hwsq]
      field_simp
      ring
    have hU1 : U1 a (2 * psi * q / w) = 2 * q * (y - g.ll * x) * (x * y + g.ll * (1 - x ^ 2)) := by
      rw [u1, hsin, hcos, hsa]
      field_simp
    have hpp : 0 < psi := by
      rw [← Real.sinh_pos_iff, hsin]; exact mul_pos he hwpos
    refine ⟨hU2, hU1, ?_, div_pos (mul_pos (mul_pos two_pos hpp) hqpos) hwpos, fun h => absurd h (by linarith)⟩
    unfold FF
    have hU3 : U3 a (2 * psi * q / w) = (2 * psi * q / w -
        2 * q * (y - g.ll * x) * (x * y + g.ll * (1 - x ^ 2))) / a := by rw [u3, ← hU1, u1]
    have : sig * U2 a (2 * psi * q / w) + U3 a (2 * psi * q / w) +
        V3.norm r1 * U1 a (2 * psi * q / w) = 2 * q * g.s * (y - g.ll * x) * g.ll +
        U3 a (2 * psi * q / w) := by rw [hU2, hU1]; linear_combination hG
    rw [this, hU3, ha', hex, if_neg hx.ne', abs_of_neg (by linarith : 1 - x ^ 2 < 0), show -(1 - x ^ 2) = x ^ 2 - 1 by ring, ← hw, hs2]
    clear_value w
    simp only [Nat.cast_zero, zero_mul, add_zero]
    field_simp
    linear_combination w * k3

end

end Verif.Lambert
