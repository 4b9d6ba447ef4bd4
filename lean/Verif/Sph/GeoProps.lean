import Verif.Sph.Props

/-! # Properties of geodetic coordinates (C102) -/

namespace Verif.Sph.Props

open Verif Verif.Sph Verif.Kep Real

/-- `arctan2` of a direction and a positive length, within half a turn. -/
theorem arctan2_scaled {r φ : ℝ} (hr : 0 < r) (h1 : -π < φ) (h2 : φ ≤ π) : arctan2 (r * sin φ) (r * cos φ) = φ := by
  unfold arctan2
  have : (⟨r * cos φ, r * sin φ⟩ : ℂ) = (r : ℂ) * (Complex.cos φ + Complex.sin φ * Complex.I) := by
    apply Complex.ext <;> simp [← Complex.ofReal_cos, ← Complex.ofReal_sin]
  rw [this]
  exact Complex.arg_mul_cos_add_sin_mul_I hr ⟨h1, h2⟩

theorem arctan2_pos_scale {k y x : ℝ} (hk : 0 < k) : arctan2 (k * y) (k * x) = arctan2 y x := by
  unfold arctan2
  have : (⟨k * x, k * y⟩ : ℂ) = (k : ℂ) * ⟨x, y⟩ := by apply Complex.ext <;> simp
  rw [this, Complex.arg_real_mul _ hk]

/-- The parts of a geodetic position, from its definition. -/
theorem geodetic_parts {a f lat lon alt : ℝ} {p : V3} (ha : 0 < a) (hf0 : 0 ≤ f) (hf1 : f < 1)
    (h : IsGeodetic a (a * (1 - f)) lat lon alt p) :
    0 ≤ ecc2 a f ∧ ecc2 a f < 1 ∧ 0 < 1 - ecc2 a f * sin lat ^ 2 ∧
    p = ⟨(curvature a f lat + alt) * cos lat * cos lon, (curvature a f lat + alt) * cos lat * sin lon,
      (curvature a f lat * (1 - ecc2 a f) + alt) * sin lat⟩ := by
  obtain ⟨q, hq, ⟨k, hk, hup⟩, rfl⟩ := h
  have hb : 0 < a * (1 - f) := mul_pos ha (by linarith)
  have he : 1 - ecc2 a f = (a * (1 - f)) ^ 2 / a ^ 2 := by unfold ecc2; field_simp; ring
  have hpos : 0 < (a * (1 - f)) ^ 2 / a ^ 2 := by positivity
  have he0 : 0 ≤ ecc2 a f := by
    unfold ecc2
    apply div_nonneg _ (by positivity)
    nlinarith [mul_nonneg (mul_nonneg ha.le ha.le) (mul_nonneg hf0 (by linarith : (0 : ℝ) ≤ 2 - f))]
  have he1 : ecc2 a f < 1 := by linarith
  have hs1 := sin_sq_le_one lat
  have hs : 0 < 1 - ecc2 a f * sin lat ^ 2 := by nlinarith [sq_nonneg (sin lat)]
  refine ⟨he0, he1, hs, ?_⟩
  have ux := congrArg V3.x hup
  have uy := congrArg V3.y hup
  have uz := congrArg V3.z hup
  simp only [up, V3.smul] at ux uy uz
  set b := a * (1 - f) with hbdef
  set e := ecc2 a f
  have qx : q.x = a ^ 2 * cos lat * cos lon / k := by rw [mul_assoc, ux]; field_simp
  have qy : q.y = a ^ 2 * cos lat * sin lon / k := by rw [mul_assoc, uy]; field_simp
  have qz : q.z = b ^ 2 * sin lat / k := by rw [uz]; field_simp
  have hbe : b ^ 2 = a ^ 2 * (1 - e) := by rw [he]; field_simp
  have hk2 : k ^ 2 = a ^ 2 * (1 - e * sin lat ^ 2) := by
    have h1 : (q.x ^ 2 + q.y ^ 2) / a ^ 2 + q.z ^ 2 / b ^ 2 = a ^ 2 * (1 - e * sin lat ^ 2) / k ^ 2 := by
      have t1 := sin_sq_add_cos_sq lat
      have t2 := sin_sq_add_cos_sq lon
      have : q.z ^ 2 / b ^ 2 = b ^ 2 * sin lat ^ 2 / k ^ 2 := by rw [qz]; field_simp
      rw [this, hbe, qx, qy]
      field_simp
      linear_combination cos lat ^ 2 * t2 + t1
    rw [hq] at h1
    field_simp at h1
    exact h1
  have hN : curvature a f lat = a ^ 2 / k := by
    unfold curvature
    have : √(1 - e * sin lat ^ 2) = k / a := by
      rw [show 1 - e * sin lat ^ 2 = (k / a) ^ 2 by rw [div_pow, hk2]; field_simp]
      exact Real.sqrt_sq (by positivity)
    rw [show ecc2 a f = e from rfl, this]
    field_simp
  rw [hN]
  ext
  · simp only [V3.add, V3.smul, up]; rw [qx]; ring
  · simp only [V3.add, V3.smul, up]; rw [qy]; ring
  · simp only [V3.add, V3.smul, up]; rw [qz, hbe]; ring

/-- One round of the loop gives `lat1`, and every later round the same. -/
theorem gLoop_lat {a f xy z lat0 tol : ℝ} {maxIter : Nat} (ht : tol < 1e15) :
    (gLoop a f xy z lat0 tol maxIter (maxIter + 1) ⟨some lat0, some 1e15, 0⟩).lat =
      (gIterate a f xy z lat0 ⟨some lat0, some 1e15, 0⟩).lat := by
  have hsame : ∀ p q : GIter, (gIterate a f xy z lat0 p).lat = (gIterate a f xy z lat0 q).lat := fun _ _ => rfl
  have hrest : ∀ (fuel : Nat) (p : GIter), (gLoop a f xy z lat0 tol maxIter fuel (gIterate a f xy z lat0 p)).lat =
      (gIterate a f xy z lat0 p).lat := by
    intro fuel
    induction fuel with
    | zero => intro p; rfl
    | succ n ih =>
      intro p
      unfold gLoop
      split
      · rw [ih]; exact hsame _ _
      · rfl
  have hc : gCond tol maxIter ⟨some lat0, some 1e15, 0⟩ = true := by
    simp only [gCond, decide_eq_true_eq]
    exact ⟨by rw [abs_of_pos (by norm_num)]; exact ht, Nat.zero_le _⟩
  rw [gLoop, if_pos hc, hrest]

/-- The geodetic coordinates returned for a position over latitude `lat`, in terms of the two latitudes computed. -/
theorem geodetic_value {a f lat lon alt tol : ℝ} {maxIter : Nat} {p v : V3} (ha : 0 < a) (hf0 : 0 ≤ f) (hf1 : f < 1)
    (h : IsGeodetic a (a * (1 - f)) lat lon alt p) (hlat : -(π / 2) < lat ∧ lat < π / 2) (hlon : 0 ≤ lon ∧ lon < 2 * π)
    (halt : 0 < curvature a f lat * (1 - ecc2 a f) + alt) (ht : tol < 1e15) :
    let xy := (curvature a f lat + alt) * cos lat
    let lat0 := arctan2 p.z (xy * (1 - ecc2 a f))
    let lat1 := arctan2 p.z (xy * (1 - ecc2 a f * curvature a f lat0 / (xy / cos lat0)))
    0 < xy ∧ √(p.x ^ 2 + p.y ^ 2) = xy ∧ 0 < cos lat0 ∧
    (cartesianToGeodetic (p, v) a f maxIter tol).lon = degrees lon ∧
    (cartesianToGeodetic (p, v) a f maxIter tol).lat = some (degrees lat1) ∧
    (cartesianToGeodetic (p, v) a f maxIter tol).alt = altitude a f xy lat1 ∧
    (cartesianToGeodetic (p, v) a f maxIter tol).vup = degrees (V3.dot v (east lon)) ∧
    (cartesianToGeodetic (p, v) a f maxIter tol).veast = some (degrees (V3.dot v (north lat1 lon))) ∧
    (cartesianToGeodetic (p, v) a f maxIter tol).vnorth = some (V3.dot v (up lat1 lon)) := by
  obtain ⟨he0, he1, hs, hp⟩ := geodetic_parts ha hf0 hf1 h
  have hc : 0 < cos lat := cos_pos_of_mem_Ioo ⟨by linarith [hlat.1], hlat.2⟩
  have hN : 0 < curvature a f lat := div_pos ha (Real.sqrt_pos.mpr hs)
  have hNa : 0 < curvature a f lat + alt := by nlinarith
  have hxyp : 0 < (curvature a f lat + alt) * cos lat := mul_pos hNa hc
  have hx : p.x = (curvature a f lat + alt) * cos lat * cos lon := by rw [hp]
  have hy : p.y = (curvature a f lat + alt) * cos lat * sin lon := by rw [hp]
  simp only
  set xy := (curvature a f lat + alt) * cos lat with hxy
  have hsq : √(p.x ^ 2 + p.y ^ 2) = xy := by
    rw [hx, hy, show (xy * cos lon) ^ 2 + (xy * sin lon) ^ 2 = xy ^ 2 by
      linear_combination xy ^ 2 * sin_sq_add_cos_sq lon]
    exact Real.sqrt_sq hxyp.le
  set lat0 := arctan2 p.z (xy * (1 - ecc2 a f)) with hlat0
  have hw : 0 < xy * (1 - ecc2 a f) := mul_pos hxyp (by linarith)
  have hc0 : 0 < cos lat0 := by
    have hr : 0 < √((xy * (1 - ecc2 a f)) ^ 2 + p.z ^ 2) := Real.sqrt_pos.mpr (by positivity)
    have := (arctan2_spec (y := p.z) (x := xy * (1 - ecc2 a f)) hr (Real.sq_sqrt (by positivity)).symm).1
    rw [hlat0, this]
    positivity
  have hl : wrapLon (arctan2 p.y p.x) = lon := by
    obtain ⟨A, B, -⟩ := arctan2_spec (y := p.y) (x := p.x) (r := xy) hxyp (by rw [← hsq, Real.sq_sqrt (by positivity)])
    have hwr := wrapLon_range (arctan2_range p.y p.x)
    obtain ⟨wc, ws⟩ := wrapLon_congr (arctan2 p.y p.x)
    refine angle_unique hwr hlon ?_ ?_
    · rw [wc, A, hx]; field_simp
    · rw [ws, B, hy]; field_simp
  set lat1 := arctan2 p.z (xy * (1 - ecc2 a f * curvature a f lat0 / (xy / cos lat0))) with hlat1
  have hloop : (gLoop a f xy p.z lat0 tol maxIter (maxIter + 1) ⟨some lat0, some 1e15, 0⟩).lat = some lat1 := by
    rw [gLoop_lat ht]
    simp only [gIterate, altitude]
    rw [if_neg hc0.ne']
    simp only [Option.bind_some]
    rw [if_neg (by rw [add_sub_cancel]; positivity), add_sub_cancel]
  refine ⟨hxyp, hsq, hc0, ?_⟩
  unfold cartesianToGeodetic
  simp only
  rw [hsq, ← hlat0, hloop, hl]
  refine ⟨rfl, rfl, rfl, ?_, ?_, ?_⟩
  · congr 1
    simp only [V3.dot, east]
    ring
  · simp only [Option.map_some, Option.some.injEq]
    congr 1
    simp only [V3.dot, north]
    ring
  · simp only [Option.map_some, Option.some.injEq, V3.dot, up]
    ring

/-- When the second latitude is the right one. -/
theorem lat1_eq_iff {a f lat lon alt : ℝ} {p : V3} (ha : 0 < a) (hf0 : 0 ≤ f) (hf1 : f < 1)
    (h : IsGeodetic a (a * (1 - f)) lat lon alt p) (hlat : -(π / 2) < lat ∧ lat < π / 2)
    (halt : 0 < curvature a f lat * (1 - ecc2 a f) + alt) :
    let xy := (curvature a f lat + alt) * cos lat
    let lat0 := arctan2 p.z (xy * (1 - ecc2 a f))
    arctan2 p.z (xy * (1 - ecc2 a f * curvature a f lat0 / (xy / cos lat0))) = lat ↔ f = 0 ∨ lat = 0 ∨ alt = 0 := by
  obtain ⟨he0, he1, hs, hp⟩ := geodetic_parts ha hf0 hf1 h
  have hpi := Real.pi_pos
  have hc : 0 < cos lat := cos_pos_of_mem_Ioo ⟨by linarith [hlat.1], hlat.2⟩
  have hN : 0 < curvature a f lat := div_pos ha (Real.sqrt_pos.mpr hs)
  have hNa : 0 < curvature a f lat + alt := by nlinarith
  have hxyp : 0 < (curvature a f lat + alt) * cos lat := mul_pos hNa hc
  have hz : p.z = (curvature a f lat * (1 - ecc2 a f) + alt) * sin lat := by rw [hp]
  simp only
  set N := curvature a f lat with hNd
  set e := ecc2 a f with hed
  have hef : e = 0 ↔ f = 0 := by
    have : e = f * (2 - f) := by rw [hed]; unfold ecc2; field_simp; ring
    rw [this, mul_eq_zero]
    constructor
    · rintro (h | h)
      · exact h
      · linarith
    · intro h; exact Or.inl h
  set xy := (N + alt) * cos lat with hxy
  set lat0 := arctan2 p.z (xy * (1 - e)) with hlat0
  have hw : 0 < xy * (1 - e) := mul_pos hxyp (by linarith)
  set r0 := √((xy * (1 - e)) ^ 2 + p.z ^ 2) with hr0
  have hr0p : 0 < r0 := Real.sqrt_pos.mpr (by positivity)
  have hr0s : r0 ^ 2 = (xy * (1 - e)) ^ 2 + p.z ^ 2 := Real.sq_sqrt (by positivity)
  obtain ⟨hcl, hsl, -⟩ := arctan2_spec (y := p.z) (x := xy * (1 - e)) hr0p hr0s.symm
  rw [← hlat0] at hcl hsl
  have hc0 : 0 < cos lat0 := by rw [hcl]; positivity
  have hs0 : 0 < 1 - e * sin lat0 ^ 2 := by nlinarith [sq_nonneg (sin lat0), sin_sq_le_one lat0]
  set N0 := curvature a f lat0 with hN0d
  have hN0 : 0 < N0 := div_pos ha (Real.sqrt_pos.mpr hs0)
  have hNs : N ^ 2 * (1 - e * sin lat ^ 2) = a ^ 2 := by
    rw [hNd]; unfold curvature; rw [← hed, div_pow, Real.sq_sqrt hs.le]; field_simp
  have hN0s : N0 ^ 2 * (1 - e * sin lat0 ^ 2) = a ^ 2 := by
    rw [hN0d]; unfold curvature; rw [← hed, div_pow, Real.sq_sqrt hs0.le]; field_simp
  have hX : xy * (1 - e * N0 / (xy / cos lat0)) = xy - e * (N0 * cos lat0) := by field_simp
  rw [hX]
  -- the right answer, as a condition on the argument
  have key : arctan2 p.z (xy - e * (N0 * cos lat0)) = lat ↔ sin lat = 0 ∨ e * (N0 * cos lat0) = e * (N * cos lat) := by
    have hxyN : xy - e * (N * cos lat) = (N * (1 - e) + alt) * cos lat := by rw [hxy]; ring
    constructor
    · intro ha2
      by_cases hsin : sin lat = 0
      · exact Or.inl hsin
      right
      have hzne : p.z ≠ 0 := by rw [hz]; exact mul_ne_zero halt.ne' hsin
      set X := xy - e * (N0 * cos lat0) with hXd
      have hrp : 0 < √(X ^ 2 + p.z ^ 2) := Real.sqrt_pos.mpr (by positivity)
      obtain ⟨A, B, -⟩ := arctan2_spec (y := p.z) (x := X) hrp (Real.sq_sqrt (by positivity)).symm
      rw [ha2] at A B
      have hR : √(X ^ 2 + p.z ^ 2) = N * (1 - e) + alt := by
        have h1 : √(X ^ 2 + p.z ^ 2) * sin lat = (N * (1 - e) + alt) * sin lat := by rw [← hz, B]; field_simp
        exact mul_right_cancel₀ hsin h1
      have h2 : X = (N * (1 - e) + alt) * cos lat := by rw [A, ← hR]; field_simp
      linarith [hxyN]
    · rintro (hsin | heq)
      · have hlat00 : lat = 0 := by
          rcases lt_trichotomy lat 0 with h1 | h1 | h1
          · have := sin_neg_of_neg_of_neg_pi_lt h1 (by linarith [hlat.1]); linarith
          · exact h1
          · have := sin_pos_of_pos_of_lt_pi h1 (by linarith [hlat.2]); linarith
        have hz0 : p.z = 0 := by rw [hz, hsin, mul_zero]
        have hl0 : lat0 = 0 := by
          rw [hlat0, hz0]
          unfold arctan2
          exact Complex.arg_ofReal_of_nonneg hw.le
        have hNN : N0 = N := by rw [hN0d, hNd, hl0, hlat00]
        rw [hz0, hl0, hlat00, cos_zero, hNN]
        unfold arctan2
        refine Complex.arg_ofReal_of_nonneg ?_
        have : xy = N + alt := by rw [hxy, hlat00, cos_zero, mul_one]
        rw [this]; linarith
      · rw [heq, hxyN, hz]
        exact arctan2_scaled halt (by linarith [hlat.1]) (by linarith [hlat.2])
  rw [key]
  have hsin0 : sin lat = 0 ↔ lat = 0 := by
    constructor
    · intro hsin
      rcases lt_trichotomy lat 0 with h1 | h1 | h1
      · have := sin_neg_of_neg_of_neg_pi_lt h1 (by linarith [hlat.1]); linarith
      · exact h1
      · have := sin_pos_of_pos_of_lt_pi h1 (by linarith [hlat.2]); linarith
    · rintro rfl; exact sin_zero
  rw [hsin0, mul_eq_mul_left_iff, hef]
  -- squares: `(N cos lat)^2 = a^2 / (1 + (1 - e) tan^2 lat)`
  have g1 : (N * cos lat) ^ 2 * (cos lat ^ 2 + (1 - e) * sin lat ^ 2) = a ^ 2 * cos lat ^ 2 := by
    have := sin_sq_add_cos_sq lat
    rw [← hNs]
    linear_combination N ^ 2 * cos lat ^ 2 * this
  have g0 : (N0 * cos lat0) ^ 2 * (cos lat0 ^ 2 + (1 - e) * sin lat0 ^ 2) = a ^ 2 * cos lat0 ^ 2 := by
    have := sin_sq_add_cos_sq lat0
    rw [← hN0s]
    linear_combination N0 ^ 2 * cos lat0 ^ 2 * this
  have main : lat ≠ 0 → e ≠ 0 → (N0 * cos lat0 = N * cos lat ↔ alt = 0) := by
    intro hl0 hene
    have hsne : sin lat ≠ 0 := fun h' => hl0 (hsin0.mp h')
    have hepos : 0 < e := lt_of_le_of_ne he0 (Ne.symm hene)
    constructor
    · intro heq
      -- equal squares give equal tangents
      have hcc : (sin lat0 * cos lat) ^ 2 = (sin lat * cos lat0) ^ 2 := by
        rw [heq] at g0
        have hcomb : a ^ 2 * cos lat ^ 2 * (cos lat0 ^ 2 + (1 - e) * sin lat0 ^ 2) =
            a ^ 2 * cos lat0 ^ 2 * (cos lat ^ 2 + (1 - e) * sin lat ^ 2) := by rw [← g1, ← g0]; ring
        have hane : a ^ 2 * (1 - e) ≠ 0 := by
          have : 0 < 1 - e := by linarith
          positivity
        have : a ^ 2 * (1 - e) * ((sin lat0 * cos lat) ^ 2 - (sin lat * cos lat0) ^ 2) = 0 := by linear_combination hcomb
        have := (mul_eq_zero.mp this).resolve_left hane
        linarith
      have ht0 : sin lat0 * (xy * (1 - e)) = cos lat0 * p.z := by rw [hcl, hsl]; field_simp
      -- substitute
      have hc0s : (p.z * cos lat) ^ 2 = (sin lat * (xy * (1 - e))) ^ 2 := by
        have : cos lat0 ^ 2 * (p.z * cos lat) ^ 2 = cos lat0 ^ 2 * (sin lat * (xy * (1 - e))) ^ 2 := by
          calc cos lat0 ^ 2 * (p.z * cos lat) ^ 2 = (cos lat0 * p.z) ^ 2 * cos lat ^ 2 := by ring
            _ = (sin lat0 * cos lat) ^ 2 * (xy * (1 - e)) ^ 2 := by rw [← ht0]; ring
            _ = cos lat0 ^ 2 * (sin lat * (xy * (1 - e))) ^ 2 := by rw [hcc]; ring
        exact mul_left_cancel₀ (by positivity) this
      rw [hz, hxy] at hc0s
      have hq : (N * (1 - e) + alt) ^ 2 = ((N + alt) * (1 - e)) ^ 2 := by
        have hne : (sin lat * cos lat) ^ 2 ≠ 0 := pow_ne_zero 2 (mul_ne_zero hsne hc.ne')
        apply mul_left_cancel₀ hne
        linear_combination hc0s
      have hpos : 0 < (N + alt) * (1 - e) := mul_pos hNa (by linarith)
      have heq2 : N * (1 - e) + alt = (N + alt) * (1 - e) := by
        rcases sq_eq_sq_iff_eq_or_eq_neg.mp hq with h' | h'
        · exact h'
        · linarith
      have : e * alt = 0 := by linarith
      exact (mul_eq_zero.mp this).resolve_left hene
    · intro h0
      have hll : lat0 = lat := by
        rw [hlat0, hz, hxy, h0, add_zero, add_zero, show N * cos lat * (1 - e) = N * (1 - e) * cos lat by ring]
        exact arctan2_scaled (mul_pos hN (by linarith)) (by linarith [hlat.1]) (by linarith [hlat.2])
      rw [hN0d, hll]
  by_cases hl0 : lat = 0
  · simp [hl0]
  by_cases he : e = 0
  · simp [hef.mp he]
  have hfne : f ≠ 0 := fun h' => he (hef.mpr h')
  rw [main hl0 he]
  simp [hl0, hfne]

/-- Above the centres of curvature. -/
theorem not_too_deep {a f lat lon alt : ℝ} {p : V3} (ha : 0 < a) (hf0 : 0 ≤ f) (hf1 : f < 1)
    (h : IsGeodetic a (a * (1 - f)) lat lon alt p) (hdeep : -(a * (1 - f) ^ 2) < alt) :
    0 < curvature a f lat * (1 - ecc2 a f) + alt := by
  obtain ⟨he0, he1, hs, -⟩ := geodetic_parts ha hf0 hf1 h
  have he : 1 - ecc2 a f = (1 - f) ^ 2 := by unfold ecc2; field_simp; ring
  have hN : a ≤ curvature a f lat := by
    unfold curvature
    rw [le_div_iff₀ (Real.sqrt_pos.mpr hs)]
    have : √(1 - ecc2 a f * sin lat ^ 2) ≤ 1 := by
      refine Real.sqrt_le_iff.mpr ⟨zero_le_one, ?_⟩
      nlinarith [sq_nonneg (sin lat)]
    nlinarith
  rw [he]
  nlinarith [sq_nonneg (1 - f)]

/-- C102. What is returned for the geodetic position with latitude `lat`, longitude `lon` and altitude `alt`: the longitude is
right; the latitude and the altitude are right exactly on a sphere, on the equator, and on the surface of the ellipsoid. Once the
latitude is right so is the altitude. `a (1 - f)^2` is the smallest radius of curvature of the ellipsoid: for points deeper than
that the latitude is not unique. -/
theorem C102_geodetic {a f lat lon alt tol : ℝ} {maxIter : Nat} {p v : V3} (ha : 0 < a) (hf0 : 0 ≤ f) (hf1 : f < 1)
    (h : IsGeodetic a (a * (1 - f)) lat lon alt p) (hlat : -(π / 2) < lat ∧ lat < π / 2) (hlon : 0 ≤ lon ∧ lon < 2 * π)
    (hdeep : -(a * (1 - f) ^ 2) < alt) (ht : tol < 1e15) :
    (cartesianToGeodetic (p, v) a f maxIter tol).lon = degrees lon ∧
    ((cartesianToGeodetic (p, v) a f maxIter tol).lat = some (degrees lat) ↔ f = 0 ∨ lat = 0 ∨ alt = 0) ∧
    ((f = 0 ∨ lat = 0 ∨ alt = 0) → (cartesianToGeodetic (p, v) a f maxIter tol).alt = some alt) := by
  have halt := not_too_deep ha hf0 hf1 h hdeep
  obtain ⟨hxy, hsq, hc0, e1, e2, e0, -⟩ := geodetic_value (v := v) (maxIter := maxIter) ha hf0 hf1 h hlat hlon halt ht
  have hiff := lat1_eq_iff ha hf0 hf1 h hlat halt
  simp only at hiff e2 e0
  have hinj : ∀ x : ℝ, degrees x = degrees lat ↔ x = lat := fun x =>
    ⟨fun h' => by have := congrArg radians h'; rwa [radians_degrees, radians_degrees] at this, fun h' => by rw [h']⟩
  refine ⟨e1, ?_, ?_⟩
  · rw [e2, Option.some.injEq, hinj, hiff]
  · intro hh
    rw [e0, hiff.mpr hh]
    have hc : 0 < cos lat := cos_pos_of_mem_Ioo ⟨by linarith [hlat.1], hlat.2⟩
    unfold altitude
    rw [if_neg hc.ne', mul_div_cancel_right₀ _ hc.ne', add_sub_cancel_left]

/-- C102. The columns of the velocity do not hold what their names say: `vup` is the velocity to the east and `veast` the one to
the north, both multiplied as if they were angles in radians to be given in degrees, and `vnorth` is the upward velocity. -/
theorem C102_columns {a f lat lon alt tol : ℝ} {maxIter : Nat} {p v : V3} (ha : 0 < a) (hf0 : 0 ≤ f) (hf1 : f < 1)
    (h : IsGeodetic a (a * (1 - f)) lat lon alt p) (hlat : -(π / 2) < lat ∧ lat < π / 2) (hlon : 0 ≤ lon ∧ lon < 2 * π)
    (hdeep : -(a * (1 - f) ^ 2) < alt) (ht : tol < 1e15) (hx : f = 0 ∨ lat = 0 ∨ alt = 0) :
    (cartesianToGeodetic (p, v) a f maxIter tol).vup = degrees (V3.dot v (east lon)) ∧
    (cartesianToGeodetic (p, v) a f maxIter tol).veast = some (degrees (V3.dot v (north lat lon))) ∧
    (cartesianToGeodetic (p, v) a f maxIter tol).vnorth = some (V3.dot v (up lat lon)) := by
  have halt := not_too_deep ha hf0 hf1 h hdeep
  obtain ⟨-, -, -, -, -, -, e3, e4, e5⟩ := geodetic_value (v := v) (maxIter := maxIter) ha hf0 hf1 h hlat hlon halt ht
  have hiff := (lat1_eq_iff ha hf0 hf1 h hlat halt).mpr hx
  rw [hiff] at e4 e5
  exact ⟨e3, e4, e5⟩

/-- Every latitude, longitude and altitude has a position. -/
theorem C102_position_exists {a f : ℝ} (ha : 0 < a) (hf1 : f < 1) (lat lon alt : ℝ) :
    ∃ p, IsGeodetic a (a * (1 - f)) lat lon alt p := by
  have hb : 0 < a * (1 - f) := mul_pos ha (by linarith)
  set b := a * (1 - f)
  have t1 := sin_sq_add_cos_sq lat
  have t2 := sin_sq_add_cos_sq lon
  have hkp : 0 < a ^ 2 * cos lat ^ 2 + b ^ 2 * sin lat ^ 2 := by
    rcases eq_or_ne (cos lat) 0 with h | h
    · have : sin lat ^ 2 = 1 := by rw [h] at t1; linarith
      rw [h, this]; positivity
    · positivity
  set k := √(a ^ 2 * cos lat ^ 2 + b ^ 2 * sin lat ^ 2)
  have hk : 0 < k := Real.sqrt_pos.mpr hkp
  have hk2 : k ^ 2 = a ^ 2 * cos lat ^ 2 + b ^ 2 * sin lat ^ 2 := Real.sq_sqrt hkp.le
  refine ⟨_, ⟨a ^ 2 * cos lat * cos lon / k, a ^ 2 * cos lat * sin lon / k, b ^ 2 * sin lat / k⟩, ?_, ⟨k, hk, ?_⟩, rfl⟩
  · simp only
    have : ((a ^ 2 * cos lat * cos lon / k) ^ 2 + (a ^ 2 * cos lat * sin lon / k) ^ 2) / a ^ 2 + (b ^ 2 * sin lat / k) ^ 2 / b ^ 2 =
        (a ^ 2 * cos lat ^ 2 * (sin lon ^ 2 + cos lon ^ 2) + b ^ 2 * sin lat ^ 2) / k ^ 2 := by
      field_simp
      ring
    rw [this, t2, mul_one, ← hk2, div_self (by positivity)]
  · ext <;> simp only [V3.smul, up] <;> field_simp

/-- C102. The latitude of a point above the surface is wrong: already for one a unit of length above the ellipsoid of WGS84 at
latitude 45 degrees, whatever the number of iterations and the tolerance. -/
theorem C102_latitude_false : ¬ ∀ (p : V3) (lat lon alt : ℝ), IsGeodetic 6378137 (6378137 * (1 - 1 / 298.257223563)) lat lon alt p →
    0 ≤ lat → lat < π / 2 → 0 ≤ lon → lon < 2 * π → 0 ≤ alt → ∃ maxIter tol, tol < 1e15 ∧
      (cartesianToGeodetic (p, ⟨0, 0, 0⟩) 6378137 (1 / 298.257223563) maxIter tol).lat = some (degrees lat) := by
  intro hall
  have hp := Real.pi_pos
  obtain ⟨p, h⟩ := C102_position_exists (a := 6378137) (f := 1 / 298.257223563) (by norm_num) (by norm_num)
    (π / 4) 0 1
  obtain ⟨maxIter, tol, ht, e⟩ := hall p _ _ _ h (by linarith) (by linarith) le_rfl (by linarith) (by norm_num)
  have := (C102_geodetic (v := ⟨0, 0, 0⟩) (maxIter := maxIter) (by norm_num) (by norm_num) (by norm_num) h
    ⟨by linarith, by linarith⟩ ⟨le_rfl, by linarith⟩
    (by norm_num) ht).2.1.mp e
  rcases this with h' | h' | h'
  · norm_num at h'
  · linarith
  · norm_num at h'

/-- C102. The upward velocity of a point that rises from the surface at the equator is in the column of the north velocity. -/
theorem C102_columns_false : ¬ ∀ (p v : V3) (lat lon : ℝ), IsGeodetic 1 1 lat lon 0 p → -(π / 2) < lat → lat < π / 2 →
    0 ≤ lon → lon < 2 * π → (cartesianToGeodetic (p, v) 1 0 100 1e-15).vup = V3.dot v (up lat lon) := by
  intro hall
  have hp := Real.pi_pos
  obtain ⟨p, h⟩ := C102_position_exists (a := 1) (f := 0) (by norm_num) (by norm_num) 0 0 0
  have h1 := (C102_columns (v := ⟨1, 0, 0⟩) (maxIter := 100) (tol := 1e-15) (by norm_num) le_rfl (by norm_num) h
    ⟨by linarith, by linarith⟩ ⟨le_rfl, by linarith⟩ (by norm_num) (by norm_num)
    (Or.inl rfl)).1
  rw [hall p ⟨1, 0, 0⟩ 0 0 (by simpa using h) (by linarith) (by linarith) le_rfl (by linarith)] at h1
  simp [V3.dot, up, east, degrees] at h1

/-- C102. Over the poles and at the centre there is no latitude and no altitude. -/
theorem C102_poles {a f tol : ℝ} {maxIter : Nat} {s : State} (ht : tol < 1e15) (hx : s.1.x = 0) (hy : s.1.y = 0) :
    (cartesianToGeodetic s a f maxIter tol).lat = none ∧ (cartesianToGeodetic s a f maxIter tol).alt = none := by
  unfold cartesianToGeodetic
  simp only [hx, hy]
  have h0 : √((0 : ℝ) ^ 2 + 0 ^ 2) = 0 := by norm_num
  rw [h0, gLoop_lat ht]
  have : ∀ lat0, (gIterate a f 0 s.1.z lat0 ⟨some lat0, some 1e15, 0⟩).lat = none := by
    intro lat0
    simp only [gIterate, altitude]
    split
    · rfl
    · simp
  rw [this]
  exact ⟨rfl, rfl⟩

end Verif.Sph.Props
