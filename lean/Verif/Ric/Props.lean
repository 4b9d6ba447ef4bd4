import Verif.Ric.Model
import Mathlib.LinearAlgebra.Matrix.NonsingularInverse
import Mathlib.Data.Matrix.Mul
import Mathlib.Data.Matrix.Block

/-! # C123: the radial, in-track, cross-track axes -/

namespace Verif.Ric.Props

open Verif

/-! ## Specification -/

/-- The rows are orthogonal unit vectors of positive orientation. -/
structure IsRotation (m : Mat3) : Prop where
  aa : V3.dot m.a m.a = 1
  bb : V3.dot m.b m.b = 1
  cc : V3.dot m.c m.c = 1
  ab : V3.dot m.a m.b = 0
  ac : V3.dot m.a m.c = 0
  bc : V3.dot m.b m.c = 0
  det : V3.dot m.a (V3.cross m.b m.c) = 1

/-! ## Lemmas -/

theorem dot_divBy (x y : V3) (d : ℝ) : V3.dot (divBy x d) y = V3.dot x y / d := by
  unfold divBy V3.dot; ring

theorem lagrange (a b : V3) :
    V3.dot (V3.cross a b) (V3.cross a b) = V3.dot a a * V3.dot b b - V3.dot a b * V3.dot a b := by
  unfold V3.dot V3.cross; ring

theorem norm_pos_of {r v : V3} (h : 0 < V3.norm (V3.cross r v)) : 0 < V3.norm r := by
  rcases (V3.norm_nonneg r).lt_or_eq with h1 | h1
  · exact h1
  · rw [(V3.norm_eq_zero).mp h1.symm] at h
    have : V3.norm (V3.cross ⟨0, 0, 0⟩ v) = 0 := by simp [V3.cross, V3.norm]
    rw [this] at h
    exact absurd h (lt_irrefl _)

theorem hTol_pos : 0 < hTol := by unfold hTol; norm_num

/-- Two unit vectors at a right angle and their cross product. -/
theorem rotation_of (a c : V3) (haa : V3.dot a a = 1) (hcc : V3.dot c c = 1) (hac : V3.dot a c = 0) :
    IsRotation ⟨a, V3.cross c a, c⟩ := by
  have hca : V3.dot c a = 0 := by rw [← hac]; unfold V3.dot; ring
  refine ⟨haa, ?_, hcc, ?_, hac, ?_, ?_⟩
  · rw [lagrange, haa, hcc, hca]; ring
  · unfold V3.dot V3.cross; ring
  · unfold V3.dot V3.cross; ring
  · have : V3.dot a (V3.cross (V3.cross c a) c) = V3.dot a a * V3.dot c c - V3.dot a c * V3.dot a c := by
      unfold V3.dot V3.cross; ring
    rw [this, haa, hcc, hac]; ring

theorem ric3_big {r v : V3} (h : hTol ≤ V3.norm (V3.cross r v)) :
    ric3 r v = ⟨divBy r (V3.norm r), V3.cross (divBy (V3.cross r v) (V3.norm (V3.cross r v))) (divBy r (V3.norm r)),
      divBy (V3.cross r v) (V3.norm (V3.cross r v))⟩ := by
  unfold ric3
  simp only [if_neg (not_lt.mpr h)]

theorem ric3_small {r v : V3} (h : V3.norm (V3.cross r v) < hTol) :
    ric3 r v = ⟨⟨1, 0, 0⟩, V3.cross ⟨0, 0, 1⟩ ⟨1, 0, 0⟩, ⟨0, 0, 1⟩⟩ := by
  unfold ric3
  simp [h, divBy]

theorem unit_divBy {x : V3} (h : 0 < V3.norm x) : V3.dot (divBy x (V3.norm x)) (divBy x (V3.norm x)) = 1 := by
  have h1 : V3.dot (divBy x (V3.norm x)) (divBy x (V3.norm x)) = V3.dot x x / (V3.norm x * V3.norm x) := by
    unfold divBy V3.dot; field_simp
  rw [h1, ← V3.norm_mul_self]
  exact div_self (by positivity)

theorem ext_dot {x y : V3} (h : V3.dot (V3.sub x y) (V3.sub x y) = 0) : x = y := by
  unfold V3.dot V3.sub at h
  simp only at h
  have hx : x.x - y.x = 0 := by nlinarith [sq_nonneg (x.x - y.x), sq_nonneg (x.y - y.y), sq_nonneg (x.z - y.z)]
  have hy : x.y - y.y = 0 := by nlinarith [sq_nonneg (x.x - y.x), sq_nonneg (x.y - y.y), sq_nonneg (x.z - y.z)]
  have hz : x.z - y.z = 0 := by nlinarith [sq_nonneg (x.x - y.x), sq_nonneg (x.y - y.y), sq_nonneg (x.z - y.z)]
  ext <;> linarith

/-- For a rotation the third row is the cross product of the first two, and the second that of the third and the first. -/
theorem rotation_cross {m : Mat3} (h : IsRotation m) : V3.cross m.a m.b = m.c ∧ V3.cross m.c m.a = m.b := by
  have hl := lagrange m.a m.b
  have hl' := lagrange m.c m.a
  have hd := h.det
  rw [h.aa, h.bb, h.ab] at hl
  have hca : V3.dot m.c m.a = 0 := by rw [← h.ac]; unfold V3.dot; ring
  rw [h.cc, h.aa, hca] at hl'
  constructor
  · apply ext_dot
    have e : V3.dot (V3.sub (V3.cross m.a m.b) m.c) (V3.sub (V3.cross m.a m.b) m.c) =
        V3.dot (V3.cross m.a m.b) (V3.cross m.a m.b) - 2 * V3.dot m.a (V3.cross m.b m.c) + V3.dot m.c m.c := by
      unfold V3.dot V3.cross V3.sub; ring
    rw [e, hl, hd, h.cc]; norm_num
  · apply ext_dot
    have e : V3.dot (V3.sub (V3.cross m.c m.a) m.b) (V3.sub (V3.cross m.c m.a) m.b) =
        V3.dot (V3.cross m.c m.a) (V3.cross m.c m.a) - 2 * V3.dot m.a (V3.cross m.b m.c) + V3.dot m.b m.b := by
      unfold V3.dot V3.cross V3.sub; ring
    rw [e, hl', hd, h.bb]; norm_num

/-- The columns of a rotation are orthonormal as well: `mᵀ (m x) = x`. -/
theorem rotation_back {m : Mat3} (h : IsRotation m) (x : V3) :
    V3.add (V3.smul (m.app x).x m.a) (V3.add (V3.smul (m.app x).y m.b) (V3.smul (m.app x).z m.c)) = x := by
  obtain ⟨h1, h2⟩ := rotation_cross h
  have h3 : V3.cross m.b m.c = m.a := by
    apply ext_dot
    have hl := lagrange m.b m.c
    rw [h.bb, h.cc, h.bc] at hl
    have e : V3.dot (V3.sub (V3.cross m.b m.c) m.a) (V3.sub (V3.cross m.b m.c) m.a) =
        V3.dot (V3.cross m.b m.c) (V3.cross m.b m.c) - 2 * V3.dot m.a (V3.cross m.b m.c) + V3.dot m.a m.a := by
      unfold V3.dot V3.cross V3.sub; ring
    rw [e, hl, h.det, h.aa]; norm_num
  have key : ∀ a b c x : V3, V3.add (V3.smul (V3.dot a x) (V3.cross b c)) (V3.add (V3.smul (V3.dot b x) (V3.cross c a))
      (V3.smul (V3.dot c x) (V3.cross a b))) = V3.smul (V3.dot a (V3.cross b c)) x := by
    intro a b c x
    unfold V3.add V3.smul V3.dot V3.cross
    ext <;> ring
  have := key m.a m.b m.c x
  rw [h.det, h1, h2, h3] at this
  unfold Mat3.app
  rw [this]
  simp [V3.smul]

/-! ## C123 -/

/-- Whatever the position and the velocity, the matrix is a rotation: orthogonal axes of unit length and positive orientation. -/
theorem C123_rotation (r v : V3) : IsRotation (ric3 r v) := by
  by_cases h : V3.norm (V3.cross r v) < hTol
  · rw [ric3_small h]
    apply rotation_of <;> norm_num [V3.dot]
  · have h := not_lt.mp h
    have hh := lt_of_lt_of_le hTol_pos h
    rw [ric3_big h]
    apply rotation_of _ _ (unit_divBy (norm_pos_of hh)) (unit_divBy hh)
    have : V3.dot (divBy r (V3.norm r)) (divBy (V3.cross r v) (V3.norm (V3.cross r v))) =
        V3.dot r (V3.cross r v) / (V3.norm r * V3.norm (V3.cross r v)) := by
      unfold divBy V3.dot; field_simp
    rw [this]
    have : V3.dot r (V3.cross r v) = 0 := by unfold V3.dot V3.cross; ring
    rw [this, zero_div]

/-- Unless the angular momentum is below the tolerance, the position lies along the first axis and the velocity has no
cross-track part and a positive in-track part, the angular momentum over the distance. -/
theorem C123_axes (r v : V3) (h : hTol ≤ V3.norm (V3.cross r v)) :
    (ric3 r v).app r = ⟨V3.norm r, 0, 0⟩ ∧
      (ric3 r v).app v = ⟨V3.dot r v / V3.norm r, V3.norm (V3.cross r v) / V3.norm r, 0⟩ ∧
      0 < V3.norm (V3.cross r v) / V3.norm r := by
  have hh := lt_of_lt_of_le hTol_pos h
  have hr := norm_pos_of hh
  rw [ric3_big h]
  refine ⟨?_, ?_, by positivity⟩
  · unfold Mat3.app
    ext
    · show V3.dot (divBy r (V3.norm r)) r = V3.norm r
      rw [dot_divBy, ← V3.norm_mul_self, mul_div_assoc, div_self hr.ne', mul_one]
    · unfold V3.dot V3.cross divBy; field_simp; ring
    · show V3.dot (divBy (V3.cross r v) _) r = 0
      rw [dot_divBy]
      have : V3.dot (V3.cross r v) r = 0 := by unfold V3.dot V3.cross; ring
      rw [this, zero_div]
  · unfold Mat3.app
    ext
    · exact dot_divBy _ _ _
    · have e : V3.dot (V3.cross (divBy (V3.cross r v) (V3.norm (V3.cross r v))) (divBy r (V3.norm r))) v =
          V3.dot (V3.cross r v) (V3.cross r v) / (V3.norm (V3.cross r v) * V3.norm r) := by
        unfold V3.dot divBy V3.cross; field_simp; ring
      show V3.dot (V3.cross _ _) v = _
      rw [e, ← V3.norm_mul_self, mul_div_mul_left _ _ hh.ne']
    · show V3.dot (divBy (V3.cross r v) _) v = 0
      rw [dot_divBy]
      have : V3.dot (V3.cross r v) v = 0 := by unfold V3.dot V3.cross; ring
      rw [this, zero_div]

/-- It is the only rotation that does so. -/
theorem C123_unique (r v : V3) (h : hTol ≤ V3.norm (V3.cross r v)) (m : Mat3) (hm : IsRotation m)
    (hr : (m.app r).y = 0 ∧ (m.app r).z = 0 ∧ 0 < (m.app r).x) (hv : (m.app v).z = 0 ∧ 0 < (m.app v).y) :
    m = ric3 r v := by
  have hh := lt_of_lt_of_le hTol_pos h
  have hrb := rotation_back hm r
  have hvb := rotation_back hm v
  obtain ⟨hab, hca⟩ := rotation_cross hm
  obtain ⟨hr1, hr2, hr3⟩ := hr
  obtain ⟨hv1, hv2⟩ := hv
  rw [hr1, hr2] at hrb
  rw [hv1] at hvb
  generalize (m.app r).x = p at *
  generalize (m.app v).x = s at *
  generalize (m.app v).y = t at *
  have er : r = V3.smul p m.a := by rw [← hrb]; simp [V3.add, V3.smul]
  have ev : v = V3.add (V3.smul s m.a) (V3.smul t m.b) := by rw [← hvb]; simp [V3.add, V3.smul]
  have eh : V3.cross r v = V3.smul (p * t) m.c := by
    rw [er, ev, ← hab]
    unfold V3.cross V3.smul V3.add
    ext <;> simp <;> ring
  have nr : V3.norm r = p := by
    have h1 : V3.norm m.a = 1 := by
      have := V3.norm_sq m.a
      rw [hm.aa] at this
      nlinarith [V3.norm_nonneg m.a]
    rw [er, V3.norm_smul, h1, abs_of_pos hr3, mul_one]
  have nh : V3.norm (V3.cross r v) = p * t := by
    have h1 : V3.norm m.c = 1 := by
      have := V3.norm_sq m.c
      rw [hm.cc] at this
      nlinarith [V3.norm_nonneg m.c]
    rw [eh, V3.norm_smul, h1, abs_of_pos (mul_pos hr3 hv2), mul_one]
  have hpt : p * t ≠ 0 := (mul_pos hr3 hv2).ne'
  have ea : divBy r (V3.norm r) = m.a := by
    rw [nr, er]; unfold divBy V3.smul
    ext <;> simp [hr3.ne']
  have ec : divBy (V3.cross r v) (V3.norm (V3.cross r v)) = m.c := by
    rw [nh, eh]; unfold divBy V3.smul
    ext <;> simp <;> field_simp
  rw [ric3_big h, ea, ec, hca]

/-- The parts along the three axes do not depend on the frame the state is given in: rotating position and velocity rotates the
axes with them. -/
theorem C123_frame (q : Mat3) (hq : IsRotation q) (r v : V3) (h : hTol ≤ V3.norm (V3.cross r v)) (x : V3) :
    (ric3 (q.app r) (q.app v)).app (q.app x) = (ric3 r v).app x := by
  have hdot : ∀ a b, V3.dot (q.app a) (q.app b) = V3.dot a b := by
    intro a b
    have ha := rotation_back hq a
    have e : V3.dot (q.app a) (q.app b) = V3.dot (V3.add (V3.smul (q.app a).x q.a)
        (V3.add (V3.smul (q.app a).y q.b) (V3.smul (q.app a).z q.c))) b := by
      unfold Mat3.app V3.dot V3.add V3.smul; simp; ring
    rw [e, ha]
  have hnorm : V3.norm (V3.cross (q.app r) (q.app v)) = V3.norm (V3.cross r v) := by
    have e : V3.norm (V3.cross (q.app r) (q.app v)) ^ 2 = V3.norm (V3.cross r v) ^ 2 := by
      rw [V3.norm_sq, V3.norm_sq, lagrange, lagrange, hdot, hdot, hdot]
    exact (pow_left_inj₀ (V3.norm_nonneg _) (V3.norm_nonneg _) (by norm_num)).mp e
  have hm := C123_rotation r v
  obtain ⟨hr, hv, hpos⟩ := C123_axes r v h
  have hrpos : 0 < V3.norm r := norm_pos_of (lt_of_lt_of_le hTol_pos h)
  -- the rotated axes
  have hrot : IsRotation ⟨q.app (ric3 r v).a, q.app (ric3 r v).b, q.app (ric3 r v).c⟩ := by
    refine ⟨?_, ?_, ?_, ?_, ?_, ?_, ?_⟩
    · rw [hdot]; exact hm.aa
    · rw [hdot]; exact hm.bb
    · rw [hdot]; exact hm.cc
    · rw [hdot]; exact hm.ab
    · rw [hdot]; exact hm.ac
    · rw [hdot]; exact hm.bc
    · have e : ∀ a b c, V3.dot (q.app a) (V3.cross (q.app b) (q.app c)) =
          V3.dot q.a (V3.cross q.b q.c) * V3.dot a (V3.cross b c) := by
        intro a b c
        unfold Mat3.app V3.dot V3.cross; simp; ring
      show V3.dot (q.app _) (V3.cross (q.app _) (q.app _)) = 1
      rw [e, hq.det, hm.det, one_mul]
  have happ : ∀ y, Mat3.app ⟨q.app (ric3 r v).a, q.app (ric3 r v).b, q.app (ric3 r v).c⟩ (q.app y) = (ric3 r v).app y := by
    intro y
    show (⟨_, _, _⟩ : V3) = ⟨_, _, _⟩
    rw [hdot, hdot, hdot]
  have := C123_unique (q.app r) (q.app v) (by rw [hnorm]; exact h) _ hrot
    (by rw [happ, hr]; exact ⟨rfl, rfl, hrpos⟩) (by rw [happ, hv]; exact ⟨rfl, hpos⟩)
  rw [← this, happ]

/-- Below the tolerance, in particular without motion, at the origin or moving along the line of sight, the axes are those of the
frame. -/
theorem C123_degenerate (r v : V3) (h : V3.norm (V3.cross r v) < hTol) (x : V3) : (ric3 r v).app x = x := by
  rw [ric3_small h]
  simp [Mat3.app, V3.cross, V3.dot]

/-- The tolerance is not scaled: a state with position and velocity at a right angle also gets the axes of the frame if they are
short enough, and then the position is not along the first axis. -/
theorem C123_tolerance_absolute : let r : V3 := ⟨0, 1e-11, 0⟩; let v : V3 := ⟨1e-10, 0, 0⟩
    V3.dot r v = 0 ∧ (ric3 r v).app r = ⟨0, 1e-11, 0⟩ := by
  refine ⟨by norm_num [V3.dot], ?_⟩
  apply C123_degenerate
  unfold V3.norm V3.cross hTol
  rw [show ((1e-11 : ℝ) * 0 - 0 * 0) * (1e-11 * 0 - 0 * 0) + (0 * 1e-10 - 0 * 0) * (0 * 1e-10 - 0 * 0) +
    (0 * 0 - 1e-11 * 1e-10) * (0 * 0 - 1e-11 * 1e-10) = 1e-21 * 1e-21 by norm_num, Real.sqrt_mul_self (by norm_num)]
  norm_num

/-- The 6×6 matrix applies the rotation to position and velocity separately. -/
theorem C123_six (r v x y : V3) :
    (fun i => ∑ j, ric6 r v i j * ![x.x, x.y, x.z, y.x, y.y, y.z] j) =
      ![((ric3 r v).app x).x, ((ric3 r v).app x).y, ((ric3 r v).app x).z, ((ric3 r v).app y).x, ((ric3 r v).app y).y,
        ((ric3 r v).app y).z] := by
  funext i
  fin_cases i <;> simp [ric6, entry, Fin.sum_univ_six, Mat3.app, V3.dot]

/-- An object on the second axis moving against the first: in-track is against the first axis. -/
theorem C123_case : let r : V3 := ⟨0, 2, 0⟩; let v : V3 := ⟨-3, 0, 0⟩
    hTol ≤ V3.norm (V3.cross r v) ∧ (ric3 r v).app ⟨-1, 0, 0⟩ = ⟨0, 1, 0⟩ := by
  have hn : V3.norm (V3.cross ⟨0, 2, 0⟩ ⟨-3, 0, 0⟩) = 6 := by
    unfold V3.norm V3.cross
    rw [show ((2 : ℝ) * 0 - 0 * 0) * (2 * 0 - 0 * 0) + (0 * -3 - 0 * 0) * (0 * -3 - 0 * 0) +
      (0 * 0 - 2 * -3) * (0 * 0 - 2 * -3) = 6 * 6 by norm_num, Real.sqrt_mul_self (by norm_num)]
  have hr : V3.norm ⟨0, 2, 0⟩ = 2 := by
    unfold V3.norm
    rw [show ((0 : ℝ) * 0 + 2 * 2 + 0 * 0) = 2 * 2 by norm_num, Real.sqrt_mul_self (by norm_num)]
  have hb : hTol ≤ V3.norm (V3.cross ⟨0, 2, 0⟩ ⟨-3, 0, 0⟩) := by rw [hn]; unfold hTol; norm_num
  refine ⟨hb, ?_⟩
  rw [ric3_big hb, hn, hr]
  norm_num [Mat3.app, V3.dot, V3.cross, divBy]

end Verif.Ric.Props
