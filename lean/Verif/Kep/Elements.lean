import Verif.Kep.OrbitProps
import Verif.Univ.Props

/-! # The elements of a state -/

namespace Verif.Kep

open Real Verif.Univ

/-- The two-branch inverse cosine. -/
theorem branch {x y s : ℝ} (h : x ^ 2 + y ^ 2 = 1) (hs : s < 0 ↔ y < 0) :
    cos (if s < 0 then 2 * π - arccos x else arccos x) = x ∧ sin (if s < 0 then 2 * π - arccos x else arccos x) = y ∧
    0 ≤ (if s < 0 then 2 * π - arccos x else arccos x) ∧ (if s < 0 then 2 * π - arccos x else arccos x) < 2 * π := by
  have h1 : -1 ≤ x := by nlinarith [sq_nonneg y]
  have h2 : x ≤ 1 := by nlinarith [sq_nonneg y]
  have hc := Real.cos_arccos h1 h2
  have hsn := Real.sin_arccos x
  have hpi := Real.pi_pos
  have e : 1 - x ^ 2 = y ^ 2 := by linarith
  rw [e, Real.sqrt_sq_eq_abs] at hsn
  by_cases hy : y < 0
  · rw [if_pos (hs.mpr hy)]
    have hx1 : x < 1 := by nlinarith [mul_pos_of_neg_of_neg hy hy]
    refine ⟨by rw [Real.cos_two_pi_sub, hc], by rw [Real.sin_two_pi_sub, hsn, abs_of_neg hy, neg_neg], ?_, ?_⟩
    · linarith [Real.arccos_le_pi x]
    · linarith [Real.arccos_pos.mpr hx1]
  · rw [if_neg fun h => hy (hs.mp h)]
    refine ⟨hc, by rw [hsn, abs_of_nonneg (not_lt.mp hy)], Real.arccos_nonneg x, ?_⟩
    linarith [Real.arccos_le_pi x]

theorem acosDiv_eq {x y z : ℝ} (hy : y ≠ 0) (h : (x / y) ^ 2 + z ^ 2 = 1) : acosDiv x y = some (arccos (x / y)) := by
  unfold acosDiv
  rw [if_neg]
  rintro (h1 | h1)
  · exact hy h1
  · apply h1
    rw [← sq_le_one_iff_abs_le_one]
    nlinarith [sq_nonneg z]

theorem acosDiv_zero (x : ℝ) : acosDiv x 0 = none := by
  unfold acosDiv
  rw [if_pos (Or.inl rfl)]

section

variable {mu : ℝ} {r v : V3} (hmu : 0 < mu) (h : V3.cross r v ≠ ⟨0, 0, 0⟩)

theorem eVec_eq (mu : ℝ) (r v : V3) :
    eVec mu r v = ⟨((V3.norm v ^ 2 - mu / V3.norm r) * r.x - V3.dot r v * v.x) / mu,
      ((V3.norm v ^ 2 - mu / V3.norm r) * r.y - V3.dot r v * v.y) / mu,
      ((V3.norm v ^ 2 - mu / V3.norm r) * r.z - V3.dot r v * v.z) / mu⟩ := rfl

theorem eVec_perp (mu : ℝ) (r v : V3) : V3.dot (V3.cross r v) (eVec mu r v) = 0 := by
  rw [eVec_eq]
  simp only [V3.dot, V3.cross]
  ring

theorem hh_eq (r v : V3) : V3.norm (V3.cross r v) ^ 2 = V3.norm r ^ 2 * V3.norm v ^ 2 - V3.dot r v ^ 2 := by
  rw [V3.norm_sq, V3.norm_sq, V3.norm_sq, lagrange_id]

include hmu h

theorem eVec_dot : mu * V3.dot (eVec mu r v) r = V3.norm (V3.cross r v) ^ 2 - mu * V3.norm r := by
  have hR := norm_pos' (ne_zero_of_cross h)
  have h1 := V3.norm_sq r
  rw [hh_eq, eVec_eq]
  have h2 : mu * V3.dot ⟨((V3.norm v ^ 2 - mu / V3.norm r) * r.x - V3.dot r v * v.x) / mu,
      ((V3.norm v ^ 2 - mu / V3.norm r) * r.y - V3.dot r v * v.y) / mu,
      ((V3.norm v ^ 2 - mu / V3.norm r) * r.z - V3.dot r v * v.z) / mu⟩ r =
      (V3.norm v ^ 2 - mu / V3.norm r) * V3.dot r r - V3.dot r v * V3.dot r v := by
    conv_lhs => unfold V3.dot
    conv_rhs => rw [show V3.dot r r = r.x * r.x + r.y * r.y + r.z * r.z from rfl]
    field_simp
    have : V3.dot r v = r.x * v.x + r.y * v.y + r.z * v.z := rfl
    rw [this]; ring
  rw [h2, ← h1]
  field_simp
  ring

/-- Two forms of the square of the eccentricity. -/
theorem e_sq : mu ^ 2 * V3.norm (eVec mu r v) ^ 2 =
      (V3.norm (V3.cross r v) ^ 2 - mu * V3.norm r) * (V3.norm v ^ 2 - mu / V3.norm r) + mu * V3.dot r v ^ 2 / V3.norm r ∧
    mu ^ 2 * (V3.norm (eVec mu r v) ^ 2 - 1) = V3.norm (V3.cross r v) ^ 2 * (V3.norm v ^ 2 - 2 * mu / V3.norm r) := by
  have hR := norm_pos' (ne_zero_of_cross h)
  have h1 := V3.norm_sq r
  have h2 := V3.norm_sq v
  have hd : mu ^ 2 * V3.norm (eVec mu r v) ^ 2 = (V3.norm v ^ 2 - mu / V3.norm r) ^ 2 * V3.dot r r -
      2 * (V3.norm v ^ 2 - mu / V3.norm r) * V3.dot r v ^ 2 + V3.dot r v ^ 2 * V3.dot v v := by
    rw [V3.norm_sq, eVec_eq]
    set A := V3.norm v ^ 2 - mu / V3.norm r
    have e3 : V3.dot r v = r.x * v.x + r.y * v.y + r.z * v.z := rfl
    have e1 : V3.dot r r = r.x * r.x + r.y * r.y + r.z * r.z := rfl
    have e2 : V3.dot v v = v.x * v.x + v.y * v.y + v.z * v.z := rfl
    rw [e1, e2]
    set B := V3.dot r v
    show mu ^ 2 * (((A * r.x - B * v.x) / mu) * ((A * r.x - B * v.x) / mu) + ((A * r.y - B * v.y) / mu) * ((A * r.y - B * v.y) / mu) +
      ((A * r.z - B * v.z) / mu) * ((A * r.z - B * v.z) / mu)) = _
    field_simp
    linear_combination 2 * A * B * e3
  rw [hd, ← h1, ← h2, hh_eq]
  refine ⟨?_, ?_⟩
  · field_simp
    ring
  · rw [mul_sub, hd, ← h1, ← h2]
    field_simp
    ring

/-- `h × e` -/
theorem cross_eVec : V3.cross (V3.cross r v) (eVec mu r v) =
    V3.add (V3.smul ((V3.norm (V3.cross r v) ^ 2 - mu * V3.norm r) / mu) v) (V3.smul (V3.dot r v / V3.norm r) r) := by
  have hR := norm_pos' (ne_zero_of_cross h)
  have h1 := V3.norm_sq r
  have h2 := V3.norm_sq v
  have e3 : V3.dot r v = r.x * v.x + r.y * v.y + r.z * v.z := rfl
  have e1 : V3.dot r r = r.x * r.x + r.y * r.y + r.z * r.z := rfl
  have e2 : V3.dot v v = v.x * v.x + v.y * v.y + v.z * v.z := rfl
  rw [hh_eq, eVec_eq]
  set B := V3.dot r v
  set R := V3.norm r
  set V2 := V3.norm v ^ 2
  rw [e1] at h1
  rw [e2] at h2
  simp only [V3.cross, V3.add, V3.smul, V3.mk.injEq]
  refine ⟨?_, ?_, ?_⟩
  · field_simp
    linear_combination (R * V2 - mu) * (-v.x * h1 + r.x * e3) - R * B * (r.x * h2 - v.x * e3) 
  · field_simp
    linear_combination (R * V2 - mu) * (-v.y * h1 + r.y * e3) - R * B * (r.y * h2 - v.y * e3)
  · field_simp
    linear_combination (R * V2 - mu) * (-v.z * h1 + r.z * e3) - R * B * (r.z * h2 - v.z * e3)

/-- The position and the velocity in the frame of the eccentricity vector. -/
theorem state_frame (he : V3.norm (eVec mu r v) ≠ 0) {x y : ℝ}
    (hx : x = V3.dot (eVec mu r v) r / (V3.norm (eVec mu r v) * V3.norm r))
    (hy : y = V3.dot r v * V3.norm (V3.cross r v) / (V3.norm (eVec mu r v) * V3.norm r * mu)) :
    x ^ 2 + y ^ 2 = 1 ∧ (y < 0 ↔ V3.dot r v < 0) ∧
    V3.norm r * (1 + V3.norm (eVec mu r v) * x) = V3.norm (V3.cross r v) ^ 2 / mu ∧
    r = V3.add (V3.smul (V3.norm r * x / V3.norm (eVec mu r v)) (eVec mu r v))
      (V3.smul (V3.norm r * y / (V3.norm (V3.cross r v) * V3.norm (eVec mu r v))) (V3.cross (V3.cross r v) (eVec mu r v))) ∧
    v = V3.add (V3.smul (mu / V3.norm (V3.cross r v) * -y / V3.norm (eVec mu r v)) (eVec mu r v))
      (V3.smul (mu / V3.norm (V3.cross r v) * (V3.norm (eVec mu r v) + x) / (V3.norm (V3.cross r v) * V3.norm (eVec mu r v)))
        (V3.cross (V3.cross r v) (eVec mu r v))) := by
  have hR := norm_pos' (ne_zero_of_cross h)
  have hH := norm_pos' h
  have he0 : 0 < V3.norm (eVec mu r v) := lt_of_le_of_ne (V3.norm_nonneg _) (Ne.symm he)
  have hd := eVec_dot hmu h
  obtain ⟨hs, -⟩ := e_sq hmu h
  have hc := cross_eVec hmu h
  have hhh := hh_eq r v
  have hx' : x = (V3.norm (V3.cross r v) ^ 2 - mu * V3.norm r) / (mu * V3.norm (eVec mu r v) * V3.norm r) := by
    rw [hx, ← hd]; field_simp
  rw [hc]
  have hE := eVec_eq mu r v
  set E := eVec mu r v
  set e := V3.norm E
  set R := V3.norm r
  set H := V3.norm (V3.cross r v)
  set B := V3.dot r v
  set A := V3.norm v ^ 2 - mu / R with hA
  have hAV : V3.norm v ^ 2 = A + mu / R := by rw [hA]; ring
  have hhA : H ^ 2 = R ^ 2 * A + mu * R - B ^ 2 := by
    rw [hhh, hAV]; field_simp
  have hsR : mu ^ 2 * e ^ 2 * R = (H ^ 2 - mu * R) * A * R + mu * B ^ 2 := by
    rw [hs]; field_simp
  have key : (H ^ 2 - mu * R) ^ 2 + B ^ 2 * H ^ 2 = mu ^ 2 * e ^ 2 * R ^ 2 := by
    linear_combination -R * hsR + (H ^ 2 - mu * R) * hhA
  refine ⟨?_, ?_, ?_, ?_, ?_⟩
  · rw [hx', hy]
    field_simp
    linear_combination key
  · rw [hy, div_neg_iff]
    have hpos : 0 < e * R * mu := by positivity
    constructor
    · rintro (⟨_, h2⟩ | ⟨h1, _⟩)
      · linarith
      · exact neg_of_mul_neg_left h1 hH.le
    · intro hB
      exact Or.inr ⟨mul_neg_of_neg_of_pos hB hH, hpos⟩
  · rw [hx']; field_simp; ring
  · have c1 : R * x / e * (A / mu) + R * y / (H * e) * (B / R) = 1 := by
      rw [hx', hy]; field_simp; linear_combination -hsR
    have c2 : R * x / e * (-B / mu) + R * y / (H * e) * ((H ^ 2 - mu * R) / mu) = 0 := by
      rw [hx', hy]; field_simp; ring
    rw [hE]
    ext
    · simp only [V3.add, V3.smul]; linear_combination -r.x * c1 - v.x * c2
    · simp only [V3.add, V3.smul]; linear_combination -r.y * c1 - v.y * c2
    · simp only [V3.add, V3.smul]; linear_combination -r.z * c1 - v.z * c2
  · have c1 : mu / H * -y / e * (A / mu) + mu / H * (e + x) / (H * e) * (B / R) = 0 := by
      rw [hx', hy]; field_simp; linear_combination B * hsR + B * mu * hhA
    have c2 : mu / H * -y / e * (-B / mu) + mu / H * (e + x) / (H * e) * ((H ^ 2 - mu * R) / mu) = 1 := by
      rw [hx', hy]; field_simp; linear_combination key
    rw [hE]
    ext
    · simp only [V3.add, V3.smul]; linear_combination -r.x * c1 - v.x * c2
    · simp only [V3.add, V3.smul]; linear_combination -r.y * c1 - v.y * c2
    · simp only [V3.add, V3.smul]; linear_combination -r.z * c1 - v.z * c2

end

/-- A vector of the orbital plane in terms of the node. -/
theorem plane_frame {h u : V3} (hn : 0 < h.x ^ 2 + h.y ^ 2) (hu : 0 < V3.norm u) (hp : V3.dot h u = 0) {x y : ℝ}
    (hx : x = V3.dot (nodeVec h) u / (V3.norm (nodeVec h) * V3.norm u))
    (hy : y = u.z * V3.norm h / (V3.norm (nodeVec h) * V3.norm u)) :
    x ^ 2 + y ^ 2 = 1 ∧ (u.z < 0 ↔ y < 0) ∧
    V3.smul (1 / V3.norm u) u = V3.add (V3.smul (x / V3.norm (nodeVec h)) (nodeVec h))
      (V3.smul (y / (V3.norm h * V3.norm (nodeVec h))) (V3.cross h (nodeVec h))) := by
  have hN2 : V3.norm (nodeVec h) ^ 2 = h.x ^ 2 + h.y ^ 2 := by
    rw [V3.norm_sq]; simp only [nodeVec, V3.cross, V3.dot]; ring
  have hH2 : V3.norm h ^ 2 = h.x ^ 2 + h.y ^ 2 + h.z ^ 2 := by
    rw [V3.norm_sq]; simp only [V3.dot]; ring
  have hU2 : V3.norm u ^ 2 = u.x ^ 2 + u.y ^ 2 + u.z ^ 2 := by
    rw [V3.norm_sq]; simp only [V3.dot]; ring
  have hN : 0 < V3.norm (nodeVec h) := by
    refine lt_of_le_of_ne (V3.norm_nonneg _) fun h0 => ?_
    rw [← h0] at hN2; linarith [hN2]
  have hH : 0 < V3.norm h := by
    refine lt_of_le_of_ne (V3.norm_nonneg _) fun h0 => ?_
    rw [← h0] at hH2; nlinarith [sq_nonneg h.z]
  have hp' : h.x * u.x + h.y * u.y + h.z * u.z = 0 := hp
  have hdot : V3.dot (nodeVec h) u = -h.y * u.x + h.x * u.y := by
    simp only [nodeVec, V3.cross, V3.dot]; ring
  have e1 : nodeVec h = ⟨-h.y, h.x, 0⟩ := by
    simp only [nodeVec, V3.cross, V3.mk.injEq]; refine ⟨?_, ?_, ?_⟩ <;> ring
  have e2 : V3.cross h (nodeVec h) = ⟨-(h.z * h.x), -(h.z * h.y), h.x ^ 2 + h.y ^ 2⟩ := by
    rw [e1]; simp only [V3.cross, V3.mk.injEq]; refine ⟨?_, ?_, ?_⟩ <;> ring
  rw [hdot] at hx
  rw [e2]
  set N := V3.norm (nodeVec h)
  rw [e1]
  set H := V3.norm h
  set U := V3.norm u
  refine ⟨?_, ?_, ?_⟩
  · rw [hx, hy]
    field_simp
    rw [hN2, hH2, hU2]
    linear_combination -(h.x * u.x + h.y * u.y - h.z * u.z) * hp'
  · rw [hy, div_neg_iff]
    have hpos : 0 < N * U := by positivity
    constructor
    · intro hB
      exact Or.inr ⟨mul_neg_of_neg_of_pos hB hH, hpos⟩
    · rintro (⟨_, h2⟩ | ⟨h1, _⟩)
      · linarith
      · exact neg_of_mul_neg_left h1 hH.le
  · rw [hx, hy]
    ext
    · simp only [V3.add, V3.smul]
      field_simp
      rw [hN2]
      linear_combination h.x * hp'
    · simp only [V3.add, V3.smul]
      field_simp
      rw [hN2]
      linear_combination h.y * hp'
    · simp only [V3.add, V3.smul]
      field_simp
      rw [hN2]
      ring

/-- The inclination and the node of the normal of the orbit. -/
theorem node_frame {h : V3} (hn : 0 < h.x ^ 2 + h.y ^ 2) (hi : tolerance ≤ arccos (h.z / V3.norm h)) :
    ∃ i Ω, acosDiv h.z (V3.norm h) = some i ∧ tolerance ≤ i ∧ i < π ∧
      (acosDiv (nodeVec h).x (V3.norm (nodeVec h))).map (fun x => if (nodeVec h).y < 0 then 2 * π - x else x) = some Ω ∧
      0 ≤ Ω ∧ Ω < 2 * π ∧ 0 < V3.norm h ∧ 0 < V3.norm (nodeVec h) ∧
      nodeDir Ω = V3.smul (1 / V3.norm (nodeVec h)) (nodeVec h) ∧ normalDir i Ω = V3.smul (1 / V3.norm h) h := by
  have hN2 : V3.norm (nodeVec h) ^ 2 = h.x ^ 2 + h.y ^ 2 := by
    rw [V3.norm_sq]; simp only [nodeVec, V3.cross, V3.dot]; ring
  have hH2 : V3.norm h ^ 2 = h.x ^ 2 + h.y ^ 2 + h.z ^ 2 := by
    rw [V3.norm_sq]; simp only [V3.dot]; ring
  have hN : 0 < V3.norm (nodeVec h) := by
    refine lt_of_le_of_ne (V3.norm_nonneg _) fun h0 => ?_
    rw [← h0] at hN2; linarith [hN2]
  have hH : 0 < V3.norm h := by
    refine lt_of_le_of_ne (V3.norm_nonneg _) fun h0 => ?_
    rw [← h0] at hH2; nlinarith [sq_nonneg h.z]
  have e1 : nodeVec h = ⟨-h.y, h.x, 0⟩ := by
    simp only [nodeVec, V3.cross, V3.mk.injEq]; refine ⟨?_, ?_, ?_⟩ <;> ring
  set N := V3.norm (nodeVec h)
  set H := V3.norm h
  have k1 : (h.z / H) ^ 2 + (N / H) ^ 2 = 1 := by
    field_simp; rw [hN2, hH2]; ring
  have k2 : ((nodeVec h).x / N) ^ 2 + ((nodeVec h).y / N) ^ 2 = 1 := by
    rw [e1]; field_simp; rw [hN2]; ring
  obtain ⟨b1, b2, b3, b4⟩ := branch (s := (nodeVec h).y) k2 (by
    rw [div_neg_iff]
    constructor
    · intro h0; exact Or.inr ⟨h0, hN⟩
    · rintro (⟨_, h2⟩ | ⟨h1, _⟩)
      · linarith
      · exact h1)
  have hz1 : -1 < h.z / H := by
    have : 0 < (N / H) ^ 2 := by positivity
    nlinarith
  have hz2 : h.z / H ≤ 1 := by nlinarith [sq_nonneg (N / H)]
  have ci := Real.cos_arccos hz1.le hz2
  have si : sin (arccos (h.z / H)) = N / H := by
    rw [Real.sin_arccos, show 1 - (h.z / H) ^ 2 = (N / H) ^ 2 by linarith, Real.sqrt_sq (by positivity)]
  refine ⟨arccos (h.z / H), _, acosDiv_eq hH.ne' k1, hi, ?_, by rw [acosDiv_eq hN.ne' k2]; rfl, b3, b4, hH, hN, ?_, ?_⟩
  · exact lt_of_le_of_ne (Real.arccos_le_pi _) fun h0 => by
      rw [Real.arccos_eq_pi] at h0; linarith
  · unfold nodeDir
    rw [b1, b2, e1]
    simp only [V3.smul, V3.mk.injEq]
    refine ⟨?_, ?_, ?_⟩ <;> ring
  · unfold normalDir
    rw [b1, b2, ci, si, e1]
    simp only [V3.smul, V3.mk.injEq]
    refine ⟨?_, ?_, ?_⟩ <;> field_simp

/-- The angles of an inclined, eccentric orbit. -/
theorem angles_spec {mu : ℝ} {r v : V3} (hmu : 0 < mu) (hn : 0 < (V3.cross r v).x ^ 2 + (V3.cross r v).y ^ 2)
    (hi : tolerance ≤ arccos ((V3.cross r v).z / V3.norm (V3.cross r v))) (he0 : 0 < V3.norm (eVec mu r v)) :
    ∃ i Ω ω ν, anglesOf mu r v = ⟨some i, some Ω, some (if V3.norm (eVec mu r v) < tolerance then 0 else ω), some ν⟩ ∧ (tolerance ≤ i ∧ i < π) ∧ (0 ≤ Ω ∧ Ω < 2 * π) ∧
      (0 ≤ ω ∧ ω < 2 * π) ∧ (0 ≤ ν ∧ ν < 2 * π) ∧ (sin ν < 0 ↔ V3.dot r v < 0) ∧ 0 < 1 + V3.norm (eVec mu r v) * cos ν ∧
      stateOfNu mu (V3.norm (V3.cross r v) ^ 2 / mu) (V3.norm (eVec mu r v)) i Ω ω ν = (r, v) ∧
      normalDir i Ω = V3.smul (1 / V3.norm (V3.cross r v)) (V3.cross r v) ∧
      periDir i Ω ω = V3.smul (1 / V3.norm (eVec mu r v)) (eVec mu r v) := by
  have h : V3.cross r v ≠ ⟨0, 0, 0⟩ := fun h0 => by rw [h0] at hn; norm_num at hn
  have htol := Props.tolerance_pos
  have hR := norm_pos' (ne_zero_of_cross h)
  obtain ⟨i, Ω, hi1, hi2, hi3, hΩ, hΩ0, hΩ1, hH, hN, hnode, hnorm⟩ := node_frame hn hi
  obtain ⟨p1, p2, p3⟩ := plane_frame hn he0 (eVec_perp mu r v) rfl rfl
  obtain ⟨s1, s2, s3, s4, s5⟩ := state_frame hmu h he0.ne' rfl rfl
  obtain ⟨w1, w2, w3, w4⟩ := branch (s := (eVec mu r v).z) p1 p2
  obtain ⟨n1, n2, n3, n4⟩ := branch (s := V3.dot r v) s1 s2.symm
  have hperi : ∀ ω, cos ω = V3.dot (nodeVec (V3.cross r v)) (eVec mu r v) / (V3.norm (nodeVec (V3.cross r v)) * V3.norm (eVec mu r v)) →
      sin ω = (eVec mu r v).z * V3.norm (V3.cross r v) / (V3.norm (nodeVec (V3.cross r v)) * V3.norm (eVec mu r v)) →
      periDir i Ω ω = V3.smul (1 / V3.norm (eVec mu r v)) (eVec mu r v) := by
    intro ω hc hs
    rw [p3]
    unfold periDir
    rw [hc, hs, hnode, hnorm]
    ext <;> simp only [V3.add, V3.smul, V3.cross] <;> field_simp
  set ω := if (eVec mu r v).z < 0 then 2 * π - arccos (V3.dot (nodeVec (V3.cross r v)) (eVec mu r v) /
    (V3.norm (nodeVec (V3.cross r v)) * V3.norm (eVec mu r v))) else arccos (V3.dot (nodeVec (V3.cross r v)) (eVec mu r v) /
    (V3.norm (nodeVec (V3.cross r v)) * V3.norm (eVec mu r v))) with hω
  set ν := if V3.dot r v < 0 then 2 * π - arccos (V3.dot (eVec mu r v) r / (V3.norm (eVec mu r v) * V3.norm r))
    else arccos (V3.dot (eVec mu r v) r / (V3.norm (eVec mu r v) * V3.norm r)) with hν
  have hp := hperi ω w1 w2
  have hpos : 0 < 1 + V3.norm (eVec mu r v) * cos ν := by
    rw [n1]
    have : 0 < V3.norm (V3.cross r v) ^ 2 / mu := by positivity
    rw [← s3] at this
    exact pos_of_mul_pos_right this hR.le
  refine ⟨i, Ω, ω, ν, ?_, ⟨hi2, hi3⟩, ⟨hΩ0, hΩ1⟩, ⟨w3, w4⟩, ⟨n3, n4⟩, ?_, hpos, ?_, hnorm, hp⟩
  · have a1 := acosDiv_eq (mul_pos hN he0).ne' p1
    have a2 := acosDiv_eq (mul_pos he0 hR).ne' s1
    unfold anglesOf
    simp only [hi1, a1, a2, hΩ, Option.map_some]
    rw [if_neg, abs_of_pos he0]
    · congr 1
      split <;> rfl
    · rintro (h0 | h0)
      · linarith
      · rw [abs_of_neg (by linarith [Real.pi_pos])] at h0
        have : tolerance < 1 := by unfold tolerance; norm_num
        linarith [Real.pi_gt_three]
  · rw [n2]; exact s2
  · have halong : alongDir i Ω ω = V3.smul (1 / (V3.norm (V3.cross r v) * V3.norm (eVec mu r v))) (V3.cross (V3.cross r v) (eVec mu r v)) := by
      unfold alongDir
      rw [hp, hnorm]
      ext <;> simp only [V3.smul, V3.cross] <;> field_simp
    have hsq : √(mu / (V3.norm (V3.cross r v) ^ 2 / mu)) = mu / V3.norm (V3.cross r v) := by
      rw [show mu / (V3.norm (V3.cross r v) ^ 2 / mu) = (mu / V3.norm (V3.cross r v)) ^ 2 by field_simp, Real.sqrt_sq (by positivity)]
    unfold stateOfNu
    rw [rotate_eq, rotate_eq, hp, halong, hsq]
    have hrr : V3.norm (V3.cross r v) ^ 2 / mu / (1 + V3.norm (eVec mu r v) * cos ν) = V3.norm r := by
      rw [n1] at hpos ⊢
      rw [← s3, mul_div_assoc, div_self hpos.ne', mul_one]
    rw [mul_div_right_comm, mul_div_right_comm, hrr]
    refine Prod.ext ?_ ?_
    · refine Eq.trans ?_ s4.symm
      rw [n1, n2]
      simp only [V3.smul, V3.add, V3.mk.injEq]
      refine ⟨?_, ?_, ?_⟩ <;> ring
    · refine Eq.trans ?_ s5.symm
      rw [n1, n2]
      simp only [V3.smul, V3.add, V3.mk.injEq]
      refine ⟨?_, ?_, ?_⟩ <;> ring

end Verif.Kep
