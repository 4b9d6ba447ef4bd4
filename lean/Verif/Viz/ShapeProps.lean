import Verif.Viz.Shapes
import Verif.Ric.Props
import Mathlib.Analysis.SpecialFunctions.Trigonometric.Basic

/-! # C189: spheres and ellipsoids of uncertainty -/

namespace Verif.Viz.ShapeProps

open Verif Viz Ric Ric.Props

/-! ## Specification -/

/-- The point is one of the surface. -/
def On (p : V3) (grid : List (List V3)) : Prop := ∃ row ∈ grid, p ∈ row

/-- `n` rows of `n` points. -/
def Square (n : Nat) (grid : List (List V3)) : Prop := grid.length = n ∧ ∀ row ∈ grid, row.length = n

/-- `P` is the covariance of the position. The rest of the covariance may be missing. -/
def Position (c : Cart.Cov) (P : Mat3) : Prop := ∀ i j : Fin 3, c (Cart.col false i) (Cart.col false j) = some (entry P i j)

/-- The variance of the position along a unit vector, and the covariance along two. -/
def along (P : Mat3) (a b : V3) : ℝ := V3.dot a (P.app b)

/-! ## Auxiliary -/

theorem linspace_length (a b : ℝ) (n : Nat) : (linspace a b n).length = n := by simp [linspace]

theorem linspace_head (a b : ℝ) (n : Nat) (hn : 0 < n) : (linspace a b n)[0]? = some a := by
  simp [linspace, List.getElem?_range hn]

theorem linspace_last (a b : ℝ) (n : Nat) (hn : 1 < n) : (linspace a b n)[n - 1]? = some b := by
  have h : ((n : ℝ) - 1) ≠ 0 := by
    have : (1 : ℝ) < n := by exact_mod_cast hn
    linarith
  simp only [linspace, List.getElem?_map, List.getElem?_range (show n - 1 < n by omega), Option.map_some, Option.some.injEq]
  rw [Nat.cast_sub hn.le, Nat.cast_one]
  field_simp
  ring

theorem app_rowTimes {m : Mat3} (h : IsRotation m) (p : V3) : m.app (rowTimes p m) = p := by
  have e : ∀ a : V3, V3.dot a (rowTimes p m) = p.x * V3.dot a m.a + p.y * V3.dot a m.b + p.z * V3.dot a m.c := by
    intro a; unfold rowTimes V3.dot V3.add V3.smul; ring
  have c : ∀ a b : V3, V3.dot a b = V3.dot b a := by intro a b; unfold V3.dot; ring
  unfold Mat3.app
  rw [e, e, e, c m.b m.a, c m.c m.a, c m.c m.b, h.aa, h.bb, h.cc, h.ab, h.ac, h.bc]
  ext <;> simp

theorem add_sub (a b : V3) : V3.sub (V3.add a b) b = a := by unfold V3.sub V3.add; ext <;> simp

/-- The points of an ellipsoid in its axes. -/
theorem ellipsoid_point {center radii : V3} {m : Mat3} (h : IsRotation m) {n : Nat} {p : V3} (hp : On p (ellipsoid center radii m n)) :
    ∃ u v : ℝ, m.app (V3.sub p center) =
      ⟨radii.x * (Real.cos u * Real.sin v), radii.y * (Real.sin u * Real.sin v), radii.z * Real.cos v⟩ := by
  obtain ⟨row, hrow, hp⟩ := hp
  obtain ⟨u, -, rfl⟩ := List.mem_map.mp hrow
  obtain ⟨v, -, rfl⟩ := List.mem_map.mp hp
  exact ⟨u, v, by rw [add_sub, app_rowTimes h, one_mul]⟩

theorem ellipsoid_square (center radii : V3) (m : Mat3) (n : Nat) : Square n (ellipsoid center radii m n) := by
  refine ⟨by simp [ellipsoid, linspace_length], fun row hrow => ?_⟩
  obtain ⟨u, -, rfl⟩ := List.mem_map.mp hrow
  simp [linspace_length]

/-- The axis of a given number. -/
def axis (m : Mat3) : Fin 3 → V3
  | 0 => m.a
  | 1 => m.b
  | 2 => m.c

theorem rotated_diag (r v : V3) {c : Cart.Cov} {P : Mat3} (hP : Position c P) (i : Fin 3) :
    Xform.rotateCov (Matrix.of (ric6 r v)) c (Cart.col false i) (Cart.col false i) =
      some (if |along P (axis (ric3 r v) i) (axis (ric3 r v) i)| < 1e-25 then 0
        else along P (axis (ric3 r v) i) (axis (ric3 r v) i)) := by
  have h : ∀ i j, (c (Cart.col false i) (Cart.col false j)).getD 0 = entry P i j := fun i j => by rw [hP i j]; rfl
  have h00 : (c 0 0).getD 0 = P.a.x := h 0 0
  have h01 : (c 0 1).getD 0 = P.a.y := h 0 1
  have h02 : (c 0 2).getD 0 = P.a.z := h 0 2
  have h10 : (c 1 0).getD 0 = P.b.x := h 1 0
  have h11 : (c 1 1).getD 0 = P.b.y := h 1 1
  have h12 : (c 1 2).getD 0 = P.b.z := h 1 2
  have h20 : (c 2 0).getD 0 = P.c.x := h 2 0
  have h21 : (c 2 1).getD 0 = P.c.y := h 2 1
  have h22 : (c 2 2).getD 0 = P.c.z := h 2 2
  unfold Xform.rotateCov
  rw [hP i i]
  simp only
  have e : (Matrix.of (ric6 r v) * (Matrix.of fun k l => (c k l).getD 0) * (Matrix.of (ric6 r v)).transpose) (Cart.col false i)
      (Cart.col false i) = along P (axis (ric3 r v) i) (axis (ric3 r v) i) := by
    fin_cases i <;>
      simp [Matrix.mul_apply, Fin.sum_univ_six, ric6, entry, Cart.col, axis, along, V3.dot, Mat3.app, h00, h01, h02, h10, h11, h12, h20, h21, h22] <;> ring
  rw [e]

/-- The variance that counts: those below 1e-25 are taken as zero. -/
noncomputable def kept (x : ℝ) : ℝ := if |x| < 1e-25 then 0 else x

theorem kept_le {x : ℝ} (h : 0 ≤ x) : 0 ≤ kept x ∧ kept x ≤ x := by
  unfold kept; split
  · exact ⟨le_refl _, h⟩
  · exact ⟨h, le_refl _⟩

theorem uncertainty_eq (r v : V3) {c : Cart.Cov} {P : Mat3} (hP : Position c P) (mult : ℝ)
    (hv : ∀ i, 0 ≤ along P (axis (ric3 r v) i) (axis (ric3 r v) i)) :
    uncertainty r v c mult = some (ellipsoid r ⟨√(kept (along P (ric3 r v).a (ric3 r v).a)) * mult,
      √(kept (along P (ric3 r v).b (ric3 r v).b)) * mult, √(kept (along P (ric3 r v).c (ric3 r v).c)) * mult⟩ (ric3 r v) 100) := by
  unfold uncertainty
  have hs : ∀ i, Cart.sigma (Xform.rotateCov (Matrix.of (ric6 r v)) c) (Cart.col false i) =
      some (√(kept (along P (axis (ric3 r v) i) (axis (ric3 r v) i)))) := by
    intro i
    unfold Cart.sigma
    rw [rotated_diag r v hP i, Option.bind_some]
    have := (kept_le (hv i)).1
    unfold kept at this ⊢
    rw [if_neg (not_lt.mpr this)]
  simp only [Cart.three, hs, Option.map_some]
  rfl

/-! ## The properties -/

/-- C189: Every point of a sphere has the radius as its distance from the centre, which is the origin if none is given. The sphere has
50 rows of 50 points; the first and the last row are the same, and every row goes from one pole to the other. -/
theorem C189_sphere (radius : ℝ) (hr : 0 ≤ radius) (offset : Option V3) :
    Square 50 (sphere radius offset) ∧
    (∀ p, On p (sphere radius offset) → V3.norm (V3.sub p (offset.getD ⟨0, 0, 0⟩)) = radius) ∧
    (∃ row, (sphere radius offset)[0]? = some row ∧ (sphere radius offset)[49]? = some row) ∧
    ∀ row ∈ sphere radius offset, row[0]? = some (V3.add (offset.getD ⟨0, 0, 0⟩) ⟨0, 0, radius⟩) ∧
      row[49]? = some (V3.add (offset.getD ⟨0, 0, 0⟩) ⟨0, 0, -radius⟩) := by
  generalize ho : offset.getD ⟨0, 0, 0⟩ = o
  refine ⟨⟨by simp [sphere, linspace_length], fun row hrow => ?_⟩, ?_, ?_, ?_⟩
  · obtain ⟨u, -, rfl⟩ := List.mem_map.mp hrow
    simp [linspace_length]
  · rintro p ⟨row, hrow, hp⟩
    obtain ⟨t, -, rfl⟩ := List.mem_map.mp hrow
    obtain ⟨f, -, rfl⟩ := List.mem_map.mp hp
    rw [ho]
    unfold V3.norm V3.sub spherePoint
    rw [show ∀ s c S C : ℝ, (radius * s * C + o.x - o.x) * (radius * s * C + o.x - o.x) + (radius * s * S + o.y - o.y) * (radius * s * S + o.y - o.y) +
      (radius * c + o.z - o.z) * (radius * c + o.z - o.z) = radius ^ 2 * (s ^ 2 * (S ^ 2 + C ^ 2) + c ^ 2) from fun s c S C => by ring,
      Real.sin_sq_add_cos_sq, mul_one, Real.sin_sq_add_cos_sq, mul_one, Real.sqrt_sq hr]
  · have h0 := linspace_head 0 (2 * Real.pi) 50 (by norm_num)
    have h1 := linspace_last 0 (2 * Real.pi) 50 (by norm_num)
    refine ⟨_, by rw [sphere, List.getElem?_map, h0, Option.map_some], ?_⟩
    rw [sphere, List.getElem?_map, h1, Option.map_some]
    simp [spherePoint]
  · intro row hrow
    obtain ⟨t, -, rfl⟩ := List.mem_map.mp hrow
    have h0 := linspace_head 0 Real.pi 50 (by norm_num)
    have h1 := linspace_last 0 Real.pi 50 (by norm_num)
    rw [ho]
    constructor
    · rw [List.getElem?_map, h0, Option.map_some]
      simp only [spherePoint, Real.sin_zero, Real.cos_zero, V3.add]
      congr 1
      ext <;> ring
    · rw [List.getElem?_map, h1, Option.map_some]
      simp only [spherePoint, Real.sin_pi, Real.cos_pi, V3.add]
      congr 1
      ext <;> ring

/-- C189: The points of an ellipsoid with the rows of a rotation as axes satisfy its equation, for radii that are not zero. -/
theorem C189_ellipsoid {center radii : V3} {m : Mat3} (h : IsRotation m) (n : Nat) (hx : radii.x ≠ 0) (hy : radii.y ≠ 0) (hz : radii.z ≠ 0) :
    Square n (ellipsoid center radii m n) ∧ ∀ p, On p (ellipsoid center radii m n) →
      (V3.dot m.a (V3.sub p center) / radii.x) ^ 2 + (V3.dot m.b (V3.sub p center) / radii.y) ^ 2 +
        (V3.dot m.c (V3.sub p center) / radii.z) ^ 2 = 1 := by
  refine ⟨ellipsoid_square _ _ _ _, fun p hp => ?_⟩
  obtain ⟨u, v, e⟩ := ellipsoid_point h hp
  unfold Mat3.app at e
  simp only [V3.mk.injEq] at e
  rw [e.1, e.2.1, e.2.2, mul_div_cancel_left₀ _ hx, mul_div_cancel_left₀ _ hy, mul_div_cancel_left₀ _ hz]
  have h1 := Real.sin_sq_add_cos_sq u
  have h2 := Real.sin_sq_add_cos_sq v
  nlinarith [h1, h2]

/-- C189: The surface of uncertainty reaches along the radial, in-track and cross-track axis no further than the uncertainty along that
axis times the factor, and along the cross-track axis just as far, if the variance is at least 1e-25. -/
theorem C189_extent (r v : V3) {c : Cart.Cov} {P : Mat3} (hP : Position c P) {mult : ℝ} (hm : 0 ≤ mult)
    (hv : ∀ a, 0 ≤ along P a a) :
    ∃ grid, uncertainty r v c mult = some grid ∧ Square 100 grid ∧
      (∀ p, On p grid → ∀ a, (a = (ric3 r v).a ∨ a = (ric3 r v).b ∨ a = (ric3 r v).c) →
        |V3.dot a (V3.sub p r)| ≤ mult * √(along P a a)) ∧
      (1e-25 ≤ along P (ric3 r v).c (ric3 r v).c → ∃ p q, On p grid ∧ On q grid ∧
        V3.sub p r = V3.smul (mult * √(along P (ric3 r v).c (ric3 r v).c)) (ric3 r v).c ∧
        V3.sub q r = V3.smul (-(mult * √(along P (ric3 r v).c (ric3 r v).c))) (ric3 r v).c) := by
  refine ⟨_, uncertainty_eq r v hP mult fun i => hv _, ellipsoid_square _ _ _ _, ?_, ?_⟩
  · intro p hp a ha
    obtain ⟨u, w, e⟩ := ellipsoid_point (C123_rotation r v) hp
    unfold Mat3.app at e
    simp only [V3.mk.injEq] at e
    have key : ∀ x t : ℝ, 0 ≤ x → |t| ≤ 1 → |√(kept x) * mult * t| ≤ mult * √x := by
      intro x t hx ht
      rw [abs_mul, abs_of_nonneg (mul_nonneg (Real.sqrt_nonneg _) hm)]
      calc √(kept x) * mult * |t| ≤ √(kept x) * mult * 1 := by
            exact mul_le_mul_of_nonneg_left ht (mul_nonneg (Real.sqrt_nonneg _) hm)
        _ = mult * √(kept x) := by ring
        _ ≤ mult * √x := mul_le_mul_of_nonneg_left (Real.sqrt_le_sqrt (kept_le hx).2) hm
    have mul1 : ∀ s t : ℝ, |s| ≤ 1 → |t| ≤ 1 → |s * t| ≤ 1 := fun s t hs ht => by
      rw [abs_mul]
      calc |s| * |t| ≤ 1 * 1 := mul_le_mul hs ht (abs_nonneg _) (by norm_num)
        _ = 1 := by norm_num
    rcases ha with rfl | rfl | rfl
    · rw [e.1]; exact key _ _ (hv _) (mul1 _ _ (Real.abs_cos_le_one u) (Real.abs_sin_le_one w))
    · rw [e.2.1]; exact key _ _ (hv _) (mul1 _ _ (Real.abs_sin_le_one u) (Real.abs_sin_le_one w))
    · rw [e.2.2]; exact key _ _ (hv _) (Real.abs_cos_le_one w)
  · intro hc
    have hk : kept (along P (ric3 r v).c (ric3 r v).c) = along P (ric3 r v).c (ric3 r v).c := by
      unfold kept
      rw [if_neg]
      rw [abs_of_nonneg (hv _)]
      exact not_lt.mpr hc
    have hu := List.mem_of_getElem? (linspace_head 0 (2 * Real.pi) 100 (by norm_num))
    have h0 := List.mem_of_getElem? (linspace_head 0 Real.pi 100 (by norm_num))
    have h1 := List.mem_of_getElem? (linspace_last 0 Real.pi 100 (by norm_num))
    refine ⟨_, _, ⟨_, List.mem_map.mpr ⟨0, hu, rfl⟩, List.mem_map.mpr ⟨0, h0, rfl⟩⟩,
      ⟨_, List.mem_map.mpr ⟨0, hu, rfl⟩, List.mem_map.mpr ⟨Real.pi, h1, rfl⟩⟩, ?_, ?_⟩
    · rw [add_sub, hk]
      simp only [Real.sin_zero, Real.cos_zero, rowTimes, V3.add, V3.smul]
      ext <;> ring
    · rw [add_sub, hk]
      simp only [Real.sin_pi, Real.cos_pi, rowTimes, V3.add, V3.smul]
      ext <;> ring

/-- C189: If the errors along the radial, in-track and cross-track axis are not correlated, and their variances are at least 1e-25, the
surface is that of the error ellipsoid: for every point `d` from the centre, `dᵀ P⁻¹ d` is the square of the factor. -/
theorem C189_error (r v : V3) {c : Cart.Cov} {P : Mat3} (hP : Position c P) (mult : ℝ)
    (hd : ∀ i, 1e-25 ≤ along P (axis (ric3 r v) i) (axis (ric3 r v) i))
    (hn : ∀ i j, i ≠ j → along P (axis (ric3 r v) i) (axis (ric3 r v) j) = 0) :
    ∃ grid, uncertainty r v c mult = some grid ∧ ∀ p, On p grid → ∃ w, P.app w = V3.sub p r ∧ V3.dot w (V3.sub p r) = mult ^ 2 := by
  have h0 : ∀ i, 0 < along P (axis (ric3 r v) i) (axis (ric3 r v) i) := fun i => lt_of_lt_of_le (by norm_num) (hd i)
  have hk : ∀ i, kept (along P (axis (ric3 r v) i) (axis (ric3 r v) i)) = along P (axis (ric3 r v) i) (axis (ric3 r v) i) := fun i => by
    unfold kept
    rw [if_neg]
    rw [abs_of_nonneg (h0 i).le]
    exact not_lt.mpr (hd i)
  refine ⟨_, uncertainty_eq r v hP mult fun i => (h0 i).le, fun p hp => ?_⟩
  have hrot := C123_rotation r v
  obtain ⟨u, t, e⟩ := ellipsoid_point hrot hp
  have k0 : kept (along P (ric3 r v).a (ric3 r v).a) = along P (ric3 r v).a (ric3 r v).a := hk 0
  have k1 : kept (along P (ric3 r v).b (ric3 r v).b) = along P (ric3 r v).b (ric3 r v).b := hk 1
  have k2 : kept (along P (ric3 r v).c (ric3 r v).c) = along P (ric3 r v).c (ric3 r v).c := hk 2
  rw [k0, k1, k2] at e
  have p0 : 0 < along P (ric3 r v).a (ric3 r v).a := h0 0
  have p1 : 0 < along P (ric3 r v).b (ric3 r v).b := h0 1
  have p2 : 0 < along P (ric3 r v).c (ric3 r v).c := h0 2
  have n01 : along P (ric3 r v).a (ric3 r v).b = 0 := hn 0 1 (by decide)
  have n02 : along P (ric3 r v).a (ric3 r v).c = 0 := hn 0 2 (by decide)
  have n10 : along P (ric3 r v).b (ric3 r v).a = 0 := hn 1 0 (by decide)
  have n12 : along P (ric3 r v).b (ric3 r v).c = 0 := hn 1 2 (by decide)
  have n20 : along P (ric3 r v).c (ric3 r v).a = 0 := hn 2 0 (by decide)
  have n21 : along P (ric3 r v).c (ric3 r v).b = 0 := hn 2 1 (by decide)
  generalize ric3 r v = m at *
  generalize hA : along P m.a m.a = A at *
  generalize hB : along P m.b m.b = B at *
  generalize hC : along P m.c m.c = C at *
  set d := V3.sub p r with hdd
  have back := rotation_back hrot d
  have sA := Real.sq_sqrt p0.le
  have sB := Real.sq_sqrt p1.le
  have sC := Real.sq_sqrt p2.le
  refine ⟨V3.add (V3.smul ((m.app d).x / A) m.a) (V3.add (V3.smul ((m.app d).y / B) m.b) (V3.smul ((m.app d).z / C) m.c)), ?_, ?_⟩
  · have lin : ∀ x y z : ℝ, P.app (V3.add (V3.smul x m.a) (V3.add (V3.smul y m.b) (V3.smul z m.c))) =
        V3.add (V3.smul x (P.app m.a)) (V3.add (V3.smul y (P.app m.b)) (V3.smul z (P.app m.c))) := by
      intro x y z
      unfold Mat3.app V3.dot V3.add V3.smul
      ext <;> ring
    have ea : P.app m.a = V3.smul A m.a := by
      have := rotation_back hrot (P.app m.a)
      simp only [Mat3.app] at this ⊢
      rw [← this]
      unfold along Mat3.app at hA n10 n20
      simp only [hA, n10, n20]
      unfold V3.add V3.smul
      ext <;> simp
    have eb : P.app m.b = V3.smul B m.b := by
      have := rotation_back hrot (P.app m.b)
      simp only [Mat3.app] at this ⊢
      rw [← this]
      unfold along Mat3.app at hB n01 n21
      simp only [hB, n01, n21]
      unfold V3.add V3.smul
      ext <;> simp
    have ec : P.app m.c = V3.smul C m.c := by
      have := rotation_back hrot (P.app m.c)
      simp only [Mat3.app] at this ⊢
      rw [← this]
      unfold along Mat3.app at hC n02 n12
      simp only [hC, n02, n12]
      unfold V3.add V3.smul
      ext <;> simp
    rw [lin, ea, eb, ec]
    conv_rhs => rw [← back]
    have s : ∀ (x D : ℝ) (a : V3), 0 < D → V3.smul (x / D) (V3.smul D a) = V3.smul x a := by
      intro x D a hD
      unfold V3.smul
      ext <;> (simp only; field_simp)
    rw [s _ _ _ p0, s _ _ _ p1, s _ _ _ p2]
  · have e1 : ∀ x y z : ℝ, V3.dot (V3.add (V3.smul x m.a) (V3.add (V3.smul y m.b) (V3.smul z m.c))) d =
        x * (m.app d).x + y * (m.app d).y + z * (m.app d).z := by
      intro x y z
      unfold Mat3.app V3.dot V3.add V3.smul
      ring
    rw [e1, e]
    simp only
    have t1 := Real.sin_sq_add_cos_sq u
    have t2 := Real.sin_sq_add_cos_sq t
    have f : ∀ D x : ℝ, 0 < D → √D * mult * x / D * (√D * mult * x) = mult ^ 2 * x ^ 2 := by
      intro D x hD
      have := Real.sq_sqrt hD.le
      rw [div_mul_eq_mul_div, div_eq_iff hD.ne']
      calc √D * mult * x * (√D * mult * x) = √D ^ 2 * (mult ^ 2 * x ^ 2) := by ring
        _ = mult ^ 2 * x ^ 2 * D := by rw [this]; ring
    rw [f _ _ p0, f _ _ p1, f _ _ p2]
    have : (Real.cos u * Real.sin t) ^ 2 + (Real.sin u * Real.sin t) ^ 2 + Real.cos t ^ 2 = 1 := by
      nlinarith [t1, t2]
    calc _ = mult ^ 2 * ((Real.cos u * Real.sin t) ^ 2 + (Real.sin u * Real.sin t) ^ 2 + Real.cos t ^ 2) := by ring
      _ = mult ^ 2 := by rw [this, mul_one]

/-- C189: Without the variance of some position there is no surface. -/
theorem C189_missing (r v : V3) {c : Cart.Cov} (mult : ℝ) (i : Fin 3) (h : c (Cart.col false i) (Cart.col false i) = none) :
    uncertainty r v c mult = none := by
  have hs : Cart.sigma (Xform.rotateCov (Matrix.of (ric6 r v)) c) (Cart.col false i) = none := by
    unfold Cart.sigma Xform.rotateCov
    rw [h]
    rfl
  unfold uncertainty
  rw [Option.map_eq_none_iff]
  unfold Cart.three
  split
  · rename_i h0 h1 h2
    fin_cases i
    · exact absurd (h0.symm.trans hs) (by simp)
    · exact absurd (h1.symm.trans hs) (by simp)
    · exact absurd (h2.symm.trans hs) (by simp)
  · rfl

/-! ## Examples and what does not hold -/

/-- A circular orbit at one astronomical unit: its axes are those of the frame. -/
theorem ex_axes : ric3 ⟨1, 0, 0⟩ ⟨0, 1, 0⟩ = ⟨⟨1, 0, 0⟩, ⟨0, 1, 0⟩, ⟨0, 0, 1⟩⟩ := by
  have hn : V3.norm (V3.cross ⟨1, 0, 0⟩ ⟨0, 1, 0⟩) = 1 := by norm_num [V3.norm, V3.cross]
  have hr : V3.norm ⟨1, 0, 0⟩ = 1 := by norm_num [V3.norm]
  rw [ric3_big (by rw [hn]; norm_num [hTol]), hn, hr]
  norm_num [divBy, V3.cross]

/-- A covariance of the position alone. -/
def exCov (P : Mat3) : Cart.Cov := fun i j =>
  if h : i.1 < 3 ∧ j.1 < 3 then some (entry P ⟨i.1, h.1⟩ ⟨j.1, h.2⟩) else none

theorem ex_position (P : Mat3) : Position (exCov P) P := by
  intro i j
  fin_cases i <;> fin_cases j <;> rfl

example : let P : Mat3 := ⟨⟨4, 0, 0⟩, ⟨0, 9, 0⟩, ⟨0, 0, 1⟩⟩
    Position (exCov P) P ∧ (∀ a, 0 ≤ along P a a) ∧
    (∀ i, 1e-25 ≤ along P (axis (ric3 ⟨1, 0, 0⟩ ⟨0, 1, 0⟩) i) (axis (ric3 ⟨1, 0, 0⟩ ⟨0, 1, 0⟩) i)) ∧
    ∀ i j, i ≠ j → along P (axis (ric3 ⟨1, 0, 0⟩ ⟨0, 1, 0⟩) i) (axis (ric3 ⟨1, 0, 0⟩ ⟨0, 1, 0⟩) j) = 0 := by
  refine ⟨ex_position _, fun a => ?_, ?_, ?_⟩
  · unfold along V3.dot Mat3.app V3.dot
    nlinarith [sq_nonneg a.x, sq_nonneg a.y, sq_nonneg a.z]
  · rw [ex_axes]
    intro i
    fin_cases i <;> norm_num [along, axis, V3.dot, Mat3.app]
  · rw [ex_axes]
    intro i j hij
    fin_cases i <;> fin_cases j <;> first | exact absurd rfl hij | norm_num [along, axis, V3.dot, Mat3.app]

/-- C189: Not true that the surface is that of the error ellipsoid whatever the correlations: correlations between the axes are left
out. -/
theorem C189_error_false : ¬ ∀ (r v : V3) (c : Cart.Cov) (P : Mat3) (mult : ℝ) (grid : List (List V3)), Position c P →
    (∀ a, a ≠ ⟨0, 0, 0⟩ → 1e-25 * V3.dot a a ≤ along P a a) → 0 < mult → uncertainty r v c mult = some grid → ∀ p, On p grid →
    ∃ w, P.app w = V3.sub p r ∧ V3.dot w (V3.sub p r) = mult ^ 2 := by
  intro h
  let P : Mat3 := ⟨⟨2, 1, 0⟩, ⟨1, 2, 0⟩, ⟨0, 0, 1⟩⟩
  have hv : ∀ a, 1e-25 * V3.dot a a ≤ along P a a := by
    intro a
    unfold along V3.dot Mat3.app V3.dot
    simp only [P]
    nlinarith [sq_nonneg a.x, sq_nonneg a.y, sq_nonneg a.z, sq_nonneg (a.x + a.y)]
  have hv0 : ∀ a, 0 ≤ along P a a := fun a => le_trans (by
    unfold V3.dot
    nlinarith [sq_nonneg a.x, sq_nonneg a.y, sq_nonneg a.z]) (hv a)
  have hu := uncertainty_eq ⟨1, 0, 0⟩ ⟨0, 1, 0⟩ (ex_position P) 1 fun i => hv0 _
  have h0 := List.mem_of_getElem? (linspace_head 0 (2 * Real.pi) 100 (by norm_num))
  have hpi := Real.pi_pos
  have h1 : Real.pi / 99 ∈ linspace 0 Real.pi 100 := by
    refine List.mem_map.mpr ⟨1, by simp, ?_⟩
    norm_num
  obtain ⟨w, e1, e2⟩ := h _ _ _ _ _ _ (ex_position P) (fun a _ => hv a) one_pos hu _
    ⟨_, List.mem_map.mpr ⟨0, h0, rfl⟩, List.mem_map.mpr ⟨Real.pi / 99, h1, rfl⟩⟩
  rw [add_sub] at e1 e2
  have k2 : kept 2 = 2 := by unfold kept; norm_num
  have k1 : kept 1 = 1 := by unfold kept; norm_num
  have a1 : along P ⟨1, 0, 0⟩ ⟨1, 0, 0⟩ = 2 := by norm_num [along, P, V3.dot, Mat3.app]
  have a2 : along P ⟨0, 1, 0⟩ ⟨0, 1, 0⟩ = 2 := by norm_num [along, P, V3.dot, Mat3.app]
  have a3 : along P ⟨0, 0, 1⟩ ⟨0, 0, 1⟩ = 1 := by norm_num [along, P, V3.dot, Mat3.app]
  rw [ex_axes] at e1 e2
  simp only [a1, a2, a3, k1, k2, rowTimes, V3.add, V3.smul, Real.cos_zero, Real.sin_zero, Mat3.app, V3.dot, P, V3.mk.injEq] at e1 e2
  obtain ⟨x1, x2, x3⟩ := e1
  have hs : 0 < Real.sin (Real.pi / 99) := Real.sin_pos_of_pos_of_lt_pi (by positivity) (by linarith)
  have t := Real.sin_sq_add_cos_sq (Real.pi / 99)
  have s2 : √(2 : ℝ) ^ 2 = 2 := Real.sq_sqrt (by norm_num)
  generalize Real.sin (Real.pi / 99) = s at *
  generalize Real.cos (Real.pi / 99) = c at *
  generalize √(2 : ℝ) = q at *
  have hx : w.x = 2 / 3 * (q * s) := by linarith
  have hz : w.z = √1 * c := by linarith
  rw [Real.sqrt_one] at *
  rw [hx, hz] at e2
  nlinarith [mul_pos hs hs]

end Verif.Viz.ShapeProps
