import Verif.Sph.Model
import Verif.Sph.Spec
import Verif.Kep.Lemmas
import Verif.Aberr.Props
import Mathlib.Analysis.SpecialFunctions.Complex.LogDeriv
import Mathlib.Analysis.SpecialFunctions.Trigonometric.InverseDeriv
import Mathlib.Analysis.SpecialFunctions.Sqrt
import Mathlib.Analysis.Calculus.Deriv.Pi

/-! # Properties of spherical coordinates (C44) and of the two-body ephemeris (C101) -/

namespace Verif.Sph.Props

open Verif Verif.Sph Verif.Kep Real

theorem radians_degrees (x : ℝ) : radians (degrees x) = x := by
  unfold radians degrees
  have := Real.pi_ne_zero
  field_simp

theorem degrees_radians (x : ℝ) : degrees (radians x) = x := by
  unfold radians degrees
  have := Real.pi_ne_zero
  field_simp

theorem degrees_le {x y : ℝ} : degrees x ≤ degrees y ↔ x ≤ y := by
  unfold degrees
  exact mul_le_mul_iff_left₀ (by have := Real.pi_pos; positivity)

theorem degrees_lt {x y : ℝ} : degrees x < degrees y ↔ x < y := by
  unfold degrees
  exact mul_lt_mul_iff_left₀ (by have := Real.pi_pos; positivity)

theorem degrees_pi (k : ℝ) : degrees (k * π) = k * 180 := by
  unfold degrees
  have := Real.pi_ne_zero
  field_simp

/-! ## C44: spherical coordinates -/

/-- The latitude as computed. -/
theorem lat_eq {rho z : ℝ} : (let lat := if rho = 0 then 0 else arcsin (z / rho)
    if lat ≥ 3 * π / 2 ∧ lat ≤ 2 * π then lat - 2 * π else lat) = if rho = 0 then 0 else arcsin (z / rho) := by
  simp only
  have hp := Real.pi_pos
  have : ¬ ((if rho = 0 then 0 else arcsin (z / rho)) ≥ 3 * π / 2 ∧ (if rho = 0 then 0 else arcsin (z / rho)) ≤ 2 * π) := by
    rintro ⟨h, -⟩
    split at h
    · linarith
    · linarith [arcsin_le_pi_div_two (z / rho)]
  rw [if_neg this]

theorem wrapLon_range {x : ℝ} (h : -π < x ∧ x ≤ π) : 0 ≤ wrapLon x ∧ wrapLon x < 2 * π := by
  have hp := Real.pi_pos
  unfold wrapLon
  split <;> constructor <;> linarith

theorem wrapLon_congr (x : ℝ) : cos (wrapLon x) = cos x ∧ sin (wrapLon x) = sin x := by
  unfold wrapLon
  split
  · rw [add_comm, cos_add_two_pi, sin_add_two_pi]; exact ⟨rfl, rfl⟩
  · exact ⟨rfl, rfl⟩

theorem arctan2_range (y x : ℝ) : -π < arctan2 y x ∧ arctan2 y x ≤ π := ⟨Complex.neg_pi_lt_arg _, Complex.arg_le_pi _⟩

/-- The direction of a position. -/
theorem direction (x y z : ℝ) :
    let rho := √(x ^ 2 + y ^ 2 + z ^ 2)
    let lon := wrapLon (arctan2 y x)
    let lat := if rho = 0 then 0 else arcsin (z / rho)
    rho * cos lat * cos lon = x ∧ rho * cos lat * sin lon = y ∧ rho * sin lat = z ∧ rho * cos lat = √(x ^ 2 + y ^ 2) := by
  simp only
  set rho := √(x ^ 2 + y ^ 2 + z ^ 2) with hrho
  have hr2 : rho ^ 2 = x ^ 2 + y ^ 2 + z ^ 2 := Real.sq_sqrt (by positivity)
  rw [(wrapLon_congr _).1, (wrapLon_congr _).2]
  by_cases h0 : rho = 0
  · rw [if_pos h0]
    rw [h0] at hr2
    have hx : x = 0 := by nlinarith [sq_nonneg x, sq_nonneg y, sq_nonneg z]
    have hy : y = 0 := by nlinarith [sq_nonneg x, sq_nonneg y, sq_nonneg z]
    have hz : z = 0 := by nlinarith [sq_nonneg x, sq_nonneg y, sq_nonneg z]
    simp [h0, hx, hy, hz]
  rw [if_neg h0]
  have hrp : 0 < rho := lt_of_le_of_ne (Real.sqrt_nonneg _) (Ne.symm h0)
  have hz1 : |z| ≤ rho := by
    rw [← Real.sqrt_sq_eq_abs]; exact Real.sqrt_le_sqrt (by nlinarith [sq_nonneg x, sq_nonneg y])
  have hzr := abs_le.mp hz1
  have hs : sin (arcsin (z / rho)) = z / rho :=
    sin_arcsin (by rw [le_div_iff₀ hrp]; linarith) (by rw [div_le_one hrp]; linarith)
  have hc : rho * cos (arcsin (z / rho)) = √(x ^ 2 + y ^ 2) := by
    rw [cos_arcsin, show 1 - (z / rho) ^ 2 = (x ^ 2 + y ^ 2) / rho ^ 2 by field_simp; linarith, Real.sqrt_div (by positivity),
      Real.sqrt_sq hrp.le]
    field_simp
  rw [hc, hs]
  have hxy : √(x ^ 2 + y ^ 2) * cos (arctan2 y x) = x ∧ √(x ^ 2 + y ^ 2) * sin (arctan2 y x) = y := by
    rcases (Real.sqrt_nonneg (x ^ 2 + y ^ 2)).eq_or_lt with h | h
    · have h2 := Real.sq_sqrt (show 0 ≤ x ^ 2 + y ^ 2 by positivity)
      rw [← h] at h2
      have hx : x = 0 := by nlinarith [sq_nonneg x, sq_nonneg y]
      have hy : y = 0 := by nlinarith [sq_nonneg x, sq_nonneg y]
      rw [← h, hx, hy]; simp
    · obtain ⟨a, b, -⟩ := arctan2_spec (y := y) (x := x) h (Real.sq_sqrt (by positivity)).symm
      rw [a, b]
      constructor <;> field_simp
  exact ⟨hxy.1, hxy.2, by field_simp, rfl⟩

/-- C44. The ranges of the coordinates, for every state. -/
theorem C44_ranges (s : State) :
    (cartesianToSpherical s).rho = ‖s.1.toE‖ ∧ 0 ≤ (cartesianToSpherical s).lon ∧ (cartesianToSpherical s).lon < 360 ∧
    -90 ≤ (cartesianToSpherical s).lat ∧ (cartesianToSpherical s).lat ≤ 90 := by
  unfold cartesianToSpherical
  simp only
  have hp := Real.pi_pos
  refine ⟨?_, ?_, ?_, ?_⟩
  · rw [V3.norm_toE]; unfold V3.norm; simp only [sq]
  · have := (wrapLon_range (arctan2_range s.1.y s.1.x)).1
    rw [← degrees_le] at this
    simpa [degrees] using this
  · have := (wrapLon_range (arctan2_range s.1.y s.1.x)).2
    rw [← degrees_lt, degrees_pi] at this
    linarith
  · have key := lat_eq (rho := √(s.1.x ^ 2 + s.1.y ^ 2 + s.1.z ^ 2)) (z := s.1.z)
    simp only at key
    rw [key]
    have h : -(1 / 2) * π ≤ (if √(s.1.x ^ 2 + s.1.y ^ 2 + s.1.z ^ 2) = 0 then 0 else
        arcsin (s.1.z / √(s.1.x ^ 2 + s.1.y ^ 2 + s.1.z ^ 2))) ∧ (if √(s.1.x ^ 2 + s.1.y ^ 2 + s.1.z ^ 2) = 0 then 0 else
        arcsin (s.1.z / √(s.1.x ^ 2 + s.1.y ^ 2 + s.1.z ^ 2))) ≤ (1 / 2) * π := by
      split
      · constructor <;> linarith
      · have a := neg_pi_div_two_le_arcsin (s.1.z / √(s.1.x ^ 2 + s.1.y ^ 2 + s.1.z ^ 2))
        have b := arcsin_le_pi_div_two (s.1.z / √(s.1.x ^ 2 + s.1.y ^ 2 + s.1.z ^ 2))
        constructor <;> linarith
    have h1 := degrees_le.mpr h.1
    have h2 := degrees_le.mpr h.2
    rw [degrees_pi] at h1 h2
    constructor <;> linarith

/-- C44. The position comes back from its spherical coordinates, for every state, the poles and the origin included. -/
theorem C44_position (s : State) : (sphericalToCartesian (cartesianToSpherical s)).1 = s.1 := by
  unfold sphericalToCartesian cartesianToSpherical
  have key := lat_eq (rho := √(s.1.x ^ 2 + s.1.y ^ 2 + s.1.z ^ 2)) (z := s.1.z)
  simp only at key ⊢
  rw [key, radians_degrees, radians_degrees]
  obtain ⟨a, b, c, -⟩ := direction s.1.x s.1.y s.1.z
  ext
  · exact a
  · exact b
  · exact c

/-- C44. Off the polar axis the whole state comes back. -/
theorem C44_cartesian {s : State} (h : ¬ (s.1.x = 0 ∧ s.1.y = 0)) : sphericalToCartesian (cartesianToSpherical s) = s := by
  refine Prod.ext (C44_position s) ?_
  obtain ⟨⟨x, y, z⟩, ⟨vx, vy, vz⟩⟩ := s
  unfold sphericalToCartesian cartesianToSpherical
  have key := lat_eq (rho := √(x ^ 2 + y ^ 2 + z ^ 2)) (z := z)
  simp only at key h ⊢
  rw [key, radians_degrees, radians_degrees, radians_degrees, radians_degrees]
  obtain ⟨a, b, c, d⟩ := direction x y z
  have hxy : 0 < x ^ 2 + y ^ 2 := by
    rcases not_and_or.mp h with h | h
    · have := sq_pos_of_ne_zero h; nlinarith [sq_nonneg y]
    · have := sq_pos_of_ne_zero h; nlinarith [sq_nonneg x]
  set rho := √(x ^ 2 + y ^ 2 + z ^ 2) with hrho
  set R := √(x ^ 2 + y ^ 2) with hR
  have hr2 : rho ^ 2 = x ^ 2 + y ^ 2 + z ^ 2 := Real.sq_sqrt (by positivity)
  have hR2 : R ^ 2 = x ^ 2 + y ^ 2 := Real.sq_sqrt hxy.le
  have hRp : 0 < R := Real.sqrt_pos.mpr hxy
  have hrp : 0 < rho := Real.sqrt_pos.mpr (by nlinarith [sq_nonneg z])
  have hor : ¬ ((x = 0 ∧ y = 0) ∨ rho = 0) := fun h' => h'.elim h hrp.ne'
  rw [if_neg hrp.ne', if_neg hrp.ne', if_neg h, if_neg hor]
  rw [if_neg hrp.ne'] at a b c d
  generalize wrapLon (arctan2 y x) = lon at *
  generalize arcsin (z / rho) = lat at *
  have e1 : cos lat = R / rho := by rw [← d]; field_simp
  have e2 : sin lat = z / rho := by rw [← c]; field_simp
  have e3 : cos lon = x / R := by rw [← a, d]; field_simp
  have e4 : sin lon = y / R := by rw [← b, d]; field_simp
  rw [e1, e2, e3, e4, ← hR2]
  ext
  · simp only
    field_simp
    rw [hR2, hr2]
    ring
  · simp only
    field_simp
    rw [hR2, hr2]
    ring
  · simp only
    field_simp
    ring

/-- C44. On the polar axis only the radial part of the velocity comes back. -/
theorem C44_axis {s : State} (hx : s.1.x = 0) (hy : s.1.y = 0) (hz : s.1.z ≠ 0) :
    (sphericalToCartesian (cartesianToSpherical s)).2 = ⟨0, 0, s.2.z⟩ := by
  obtain ⟨⟨x, y, z⟩, ⟨vx, vy, vz⟩⟩ := s
  simp only at hx hy hz
  subst hx; subst hy
  unfold sphericalToCartesian cartesianToSpherical
  have key := lat_eq (rho := √((0 : ℝ) ^ 2 + 0 ^ 2 + z ^ 2)) (z := z)
  simp only at key ⊢
  rw [key, radians_degrees, radians_degrees, radians_degrees, radians_degrees]
  obtain ⟨a, b, c, d⟩ := direction 0 0 z
  simp only [ne_eq, OfNat.ofNat_ne_zero, not_false_eq_true, zero_pow, add_zero, zero_add, Real.sqrt_zero] at a b c d ⊢
  have hr : √(z ^ 2) ≠ 0 := by rw [Real.sqrt_sq_eq_abs]; exact abs_ne_zero.mpr hz
  have h2 := Real.sq_sqrt (sq_nonneg z)
  set rho := √(z ^ 2)
  rw [if_neg hr] at a b c d ⊢
  have e1 : cos (arcsin (z / rho)) = 0 := (mul_eq_zero.mp d).resolve_left hr
  have e2 : sin (arcsin (z / rho)) = z / rho := eq_div_of_mul_eq hr (by rw [mul_comm]; exact c)
  rw [e1, e2]
  ext
  · simp
  · simp
  · simp only [and_self, true_or, if_true, zero_mul, zero_add, mul_zero, add_zero, if_neg hr]
    field_simp
    rw [h2]

/-- C44. At the origin the velocity is lost. -/
theorem C44_origin (v : V3) : (sphericalToCartesian (cartesianToSpherical (⟨0, 0, 0⟩, v))).2 = ⟨0, 0, 0⟩ := by
  unfold sphericalToCartesian cartesianToSpherical
  simp [degrees, radians]

/-- C44. So the state comes back exactly when it is off the polar axis or its velocity is along the axis. -/
theorem C44_cartesian_iff (s : State) : sphericalToCartesian (cartesianToSpherical s) = s ↔
    ¬ (s.1.x = 0 ∧ s.1.y = 0) ∨ (s.2.x = 0 ∧ s.2.y = 0 ∧ (s.1.z = 0 → s.2.z = 0)) := by
  by_cases h : s.1.x = 0 ∧ s.1.y = 0
  · constructor
    · intro he
      right
      by_cases hz : s.1.z = 0
      · have hs : s = (⟨0, 0, 0⟩, s.2) := by
          obtain ⟨⟨x, y, z⟩, v⟩ := s
          simp only at h hz
          rw [h.1, h.2, hz]
        rw [hs] at he
        have h2 := (congrArg Prod.snd he).symm.trans (C44_origin s.2)
        simp only at h2
        rw [h2]; simp
      · have h2 := (congrArg Prod.snd he).symm.trans (C44_axis h.1 h.2 hz)
        rw [h2]; simp [hz]
    · rintro (hn | ⟨hx, hy, hz0⟩)
      · exact absurd h hn
      refine Prod.ext (C44_position s) ?_
      by_cases hz : s.1.z = 0
      · have hs : s = (⟨0, 0, 0⟩, s.2) := by
          obtain ⟨⟨x, y, z⟩, v⟩ := s
          simp only at h hz
          rw [h.1, h.2, hz]
        rw [hs, C44_origin]
        ext
        · exact hx.symm
        · exact hy.symm
        · exact (hz0 hz).symm
      · rw [C44_axis h.1 h.2 hz]
        ext
        · exact hx.symm
        · exact hy.symm
        · rfl
  · exact ⟨fun _ => Or.inl h, fun _ => C44_cartesian h⟩

/-- C44. Not every state comes back. -/
theorem C44_pole_false : ¬ ∀ s : State, sphericalToCartesian (cartesianToSpherical s) = s := by
  intro h
  have := (C44_cartesian_iff (⟨0, 0, 1⟩, ⟨1, 0, 0⟩)).mp (h _)
  simp at this

/-- C44. Spherical coordinates in their ranges come back, with the rates. -/
theorem C44_spherical {c : Spherical} (hr : 0 < c.rho) (hl : 0 ≤ c.lon ∧ c.lon < 360) (hb : -90 < c.lat ∧ c.lat < 90) :
    cartesianToSpherical (sphericalToCartesian c) = c := by
  have hp := Real.pi_pos
  obtain ⟨rho, lon, lat, vrho, vlon, vlat⟩ := c
  simp only at hr hl hb
  obtain ⟨φ, rfl⟩ : ∃ φ, lat = degrees φ := ⟨_, (degrees_radians lat).symm⟩
  obtain ⟨l, rfl⟩ : ∃ l, lon = degrees l := ⟨_, (degrees_radians lon).symm⟩
  obtain ⟨w, rfl⟩ : ∃ l, vlon = degrees l := ⟨_, (degrees_radians vlon).symm⟩
  obtain ⟨u, rfl⟩ : ∃ l, vlat = degrees l := ⟨_, (degrees_radians vlat).symm⟩
  have hl1 : 0 ≤ l := degrees_le.mp (by rw [show degrees 0 = 0 by simp [degrees]]; exact hl.1)
  have hl2 : l < 2 * π := degrees_lt.mp (by rw [degrees_pi]; linarith)
  have hb1 : -(1 / 2) * π < φ := degrees_lt.mp (by rw [degrees_pi]; linarith)
  have hb2 : φ < 1 / 2 * π := degrees_lt.mp (by rw [degrees_pi]; linarith)
  have hc : 0 < cos φ := cos_pos_of_mem_Ioo ⟨by linarith, by linarith⟩
  have t1 := sin_sq_add_cos_sq φ
  have t2 := sin_sq_add_cos_sq l
  unfold cartesianToSpherical sphericalToCartesian
  simp only [radians_degrees]
  have e0 : √((rho * cos φ * cos l) ^ 2 + (rho * cos φ * sin l) ^ 2 + (rho * sin φ) ^ 2) = rho := by
    rw [show (rho * cos φ * cos l) ^ 2 + (rho * cos φ * sin l) ^ 2 + (rho * sin φ) ^ 2 = rho ^ 2 by
      linear_combination rho ^ 2 * cos φ ^ 2 * t2 + rho ^ 2 * t1]
    exact Real.sqrt_sq hr.le
  have e1s : (rho * cos φ * cos l) ^ 2 + (rho * cos φ * sin l) ^ 2 = (rho * cos φ) ^ 2 := by
    linear_combination rho ^ 2 * cos φ ^ 2 * t2
  have e1 : √((rho * cos φ * cos l) ^ 2 + (rho * cos φ * sin l) ^ 2) = rho * cos φ := by
    rw [e1s]; exact Real.sqrt_sq (by positivity)
  have key := lat_eq (rho := √((rho * cos φ * cos l) ^ 2 + (rho * cos φ * sin l) ^ 2 + (rho * sin φ) ^ 2)) (z := rho * sin φ)
  simp only at key
  rw [key, e0, e1, e1s]
  have hne : ¬ (rho * cos φ * cos l = 0 ∧ rho * cos φ * sin l = 0) := by
    rintro ⟨h1, h2⟩
    rw [h1, h2] at e1s
    have : 0 < (rho * cos φ) ^ 2 := by positivity
    linarith
  have hor : ¬ ((rho * cos φ * cos l = 0 ∧ rho * cos φ * sin l = 0) ∨ rho = 0) := fun h' => h'.elim hne hr.ne'
  rw [if_neg hr.ne', if_neg hr.ne', if_neg hne, if_neg hor]
  have hlon : wrapLon (arctan2 (rho * cos φ * sin l) (rho * cos φ * cos l)) = l := by
    obtain ⟨a, b, -⟩ := arctan2_spec (y := rho * cos φ * sin l) (x := rho * cos φ * cos l) (r := rho * cos φ) (by positivity)
      e1s
    have hw := wrapLon_range (arctan2_range (rho * cos φ * sin l) (rho * cos φ * cos l))
    obtain ⟨wc, ws⟩ := wrapLon_congr (arctan2 (rho * cos φ * sin l) (rho * cos φ * cos l))
    refine angle_unique hw ⟨hl1, hl2⟩ ?_ ?_
    · rw [wc, a]; field_simp
    · rw [ws, b]; field_simp
  have hlat : arcsin (rho * sin φ / rho) = φ := by
    rw [mul_div_cancel_left₀ _ hr.ne']; exact arcsin_sin (by linarith) (by linarith)
  have ev : rho * cos φ * cos l * (cos φ * cos l * vrho - rho * cos φ * sin l * w - rho * sin φ * cos l * u) +
      rho * cos φ * sin l * (cos φ * sin l * vrho + rho * cos φ * cos l * w - rho * sin φ * sin l * u) +
      rho * sin φ * (sin φ * vrho + rho * cos φ * u) = rho * vrho := by
    linear_combination (rho * cos φ ^ 2 * vrho - rho ^ 2 * cos φ * sin φ * u) * t2 + rho * vrho * t1
  have ew : (cos φ * sin l * vrho + rho * cos φ * cos l * w - rho * sin φ * sin l * u) * (rho * cos φ * cos l) -
      (cos φ * cos l * vrho - rho * cos φ * sin l * w - rho * sin φ * cos l * u) * (rho * cos φ * sin l) =
      (rho * cos φ) ^ 2 * w := by
    linear_combination (rho * cos φ) ^ 2 * w * t2
  rw [hlon, hlat, ev, ew, mul_div_cancel_left₀ _ hr.ne', mul_div_cancel_left₀ _ (by positivity)]
  have eu : (sin φ * vrho + rho * cos φ * u - vrho * (rho * sin φ) / rho) / (rho * cos φ) = u := by
    field_simp
    ring
  rw [eu]

/-- C44. Along a motion given in spherical coordinates, the velocity is the derivative of the position. -/
theorem C44_velocity {rho lon lat : ℝ → ℝ} {vrho vlon vlat t : ℝ} (hr : HasDerivAt rho vrho t) (hl : HasDerivAt lon vlon t)
    (hb : HasDerivAt lat vlat t) :
    let s := sphericalToCartesian ⟨rho t, lon t, lat t, vrho, vlon, vlat⟩
    let p := fun τ => (sphericalToCartesian ⟨rho τ, lon τ, lat τ, vrho, vlon, vlat⟩).1
    HasDerivAt (fun τ => (p τ).x) s.2.x t ∧ HasDerivAt (fun τ => (p τ).y) s.2.y t ∧ HasDerivAt (fun τ => (p τ).z) s.2.z t := by
  have hrad : ∀ {f : ℝ → ℝ} {f' : ℝ}, HasDerivAt f f' t → HasDerivAt (fun τ => radians (f τ)) (radians f') t := by
    intro f f' h
    exact h.mul_const _
  have hl' := hrad hl
  have hb' := hrad hb
  refine ⟨?_, ?_, ?_⟩
  · refine ((hr.mul hb'.cos).mul hl'.cos).congr_deriv ?_
    simp only [sphericalToCartesian, Pi.mul_apply]
    ring
  · refine ((hr.mul hb'.cos).mul hl'.sin).congr_deriv ?_
    simp only [sphericalToCartesian, Pi.mul_apply]
    ring
  · refine (hr.mul hb'.sin).congr_deriv ?_
    simp only [sphericalToCartesian]
    ring

/-- The wrapped longitude is the angle, seen from the opposite side. -/
theorem wrapLon_neg {x y : ℝ} (h : ¬ (y = 0 ∧ 0 ≤ x)) : wrapLon (arctan2 y x) = π + Complex.arg (-(⟨x, y⟩ : ℂ)) := by
  have hp := Real.pi_pos
  unfold wrapLon arctan2
  rcases lt_trichotomy y 0 with hy | hy | hy
  · rw [Complex.arg_neg_eq_arg_add_pi_of_im_neg (by exact hy), if_pos (Complex.arg_neg_iff.mpr hy)]
    ring
  · subst hy
    have hx : x < 0 := by by_contra h'; exact h ⟨rfl, not_lt.mp h'⟩
    rw [show (⟨x, 0⟩ : ℂ) = (x : ℂ) from rfl, Complex.arg_ofReal_of_neg hx, if_neg (by linarith), ← Complex.ofReal_neg,
      Complex.arg_ofReal_of_nonneg (by linarith), add_zero]
  · rw [Complex.arg_neg_eq_arg_sub_pi_of_im_pos (by exact hy), if_neg (by rw [Complex.arg_neg_iff]; exact not_lt.mpr hy.le)]
    ring

/-- C44. Along a motion given in Cartesian coordinates, the rates are the derivatives of the coordinates; for the longitude,
where it does not jump from 360 to 0. -/
theorem C44_rates {x y z : ℝ → ℝ} {vx vy vz t : ℝ} (hx : HasDerivAt x vx t) (hy : HasDerivAt y vy t) (hz : HasDerivAt z vz t)
    (h : ¬ (x t = 0 ∧ y t = 0)) :
    let c := cartesianToSpherical (⟨x t, y t, z t⟩, ⟨vx, vy, vz⟩)
    let p := fun τ => cartesianToSpherical (⟨x τ, y τ, z τ⟩, ⟨vx, vy, vz⟩)
    HasDerivAt (fun τ => (p τ).rho) c.vrho t ∧ HasDerivAt (fun τ => (p τ).lat) c.vlat t ∧
    (¬ (y t = 0 ∧ 0 ≤ x t) → HasDerivAt (fun τ => (p τ).lon) c.vlon t) := by
  simp only
  have hxy : 0 < x t ^ 2 + y t ^ 2 := by
    rcases not_and_or.mp h with h | h
    · have := sq_pos_of_ne_zero h; nlinarith [sq_nonneg (y t)]
    · have := sq_pos_of_ne_zero h; nlinarith [sq_nonneg (x t)]
  have hr2p : 0 < x t ^ 2 + y t ^ 2 + z t ^ 2 := by nlinarith [sq_nonneg (z t)]
  have hrp := Real.sqrt_pos.mpr hr2p
  have hRp := Real.sqrt_pos.mpr hxy
  have hr2 := Real.sq_sqrt hr2p.le
  have hR2 := Real.sq_sqrt hxy.le
  have hor : ¬ ((x t = 0 ∧ y t = 0) ∨ √(x t ^ 2 + y t ^ 2 + z t ^ 2) = 0) := fun h' => h'.elim h hrp.ne'
  have drho : HasDerivAt (fun τ => √(x τ ^ 2 + y τ ^ 2 + z τ ^ 2))
      ((x t * vx + y t * vy + z t * vz) / √(x t ^ 2 + y t ^ 2 + z t ^ 2)) t := by
    refine (((hx.fun_pow 2).fun_add (hy.fun_pow 2)).fun_add (hz.fun_pow 2) |>.sqrt hr2p.ne').congr_deriv ?_
    field_simp
    push_cast
    ring
  refine ⟨?_, ?_, ?_⟩
  · refine drho.congr_deriv ?_
    simp only [cartesianToSpherical]
    rw [if_neg hrp.ne']
  · have hev : ∀ᶠ τ in nhds t, (cartesianToSpherical (⟨x τ, y τ, z τ⟩, ⟨vx, vy, vz⟩)).lat =
        degrees (arcsin (z τ / √(x τ ^ 2 + y τ ^ 2 + z τ ^ 2))) := by
      filter_upwards [drho.continuousAt.eventually_ne hrp.ne'] with τ hτ
      unfold cartesianToSpherical
      have key := lat_eq (rho := √(x τ ^ 2 + y τ ^ 2 + z τ ^ 2)) (z := z τ)
      simp only at key ⊢
      rw [key, if_neg hτ]
    refine HasDerivAt.congr_of_eventuallyEq ?_ hev
    have hdiv := hz.fun_div drho hrp.ne'
    have hlt : |z t / √(x t ^ 2 + y t ^ 2 + z t ^ 2)| < 1 := by
      rw [abs_div, abs_of_pos hrp, div_lt_one hrp, ← Real.sqrt_sq_eq_abs]
      exact Real.sqrt_lt_sqrt (sq_nonneg _) (by linarith)
    have hlt' := abs_lt.mp hlt
    have ha := (Real.hasDerivAt_arcsin hlt'.1.ne' hlt'.2.ne).comp t hdiv
    refine (ha.mul_const (180 / π)).congr_deriv ?_
    simp only [cartesianToSpherical]
    rw [if_neg hrp.ne', if_neg hor]
    unfold degrees
    congr 1
    have hs : √(1 - (z t / √(x t ^ 2 + y t ^ 2 + z t ^ 2)) ^ 2) = √(x t ^ 2 + y t ^ 2) / √(x t ^ 2 + y t ^ 2 + z t ^ 2) := by
      rw [← Real.sqrt_div hxy.le]
      congr 1
      rw [div_pow, hr2]
      field_simp
      ring
    rw [hs]
    field_simp
  · intro hpos
    have hslit : -(⟨x t, y t⟩ : ℂ) ∈ Complex.slitPlane := by
      rw [Complex.mem_slitPlane_iff]
      simp only [Complex.neg_re, Complex.neg_im]
      by_cases hy0 : y t = 0
      · left
        by_contra h'
        exact hpos ⟨hy0, by linarith⟩
      · right; simpa using hy0
    have hz' : HasDerivAt (fun τ => -((x τ : ℂ) + (y τ : ℂ) * Complex.I)) (-((vx : ℂ) + (vy : ℂ) * Complex.I)) t :=
      (hx.ofReal_comp.add (hy.ofReal_comp.mul_const _)).neg
    have hzz : ∀ τ, -((x τ : ℂ) + (y τ : ℂ) * Complex.I) = -(⟨x τ, y τ⟩ : ℂ) := by
      intro τ
      apply Complex.ext <;> simp
    have hlog := hz'.clog_real (by rw [hzz]; exact hslit)
    have him : HasDerivAt (fun τ => (Complex.log (-((x τ : ℂ) + (y τ : ℂ) * Complex.I))).im)
        ((-((vx : ℂ) + (vy : ℂ) * Complex.I) / -((x t : ℂ) + (y t : ℂ) * Complex.I)).im) t :=
      Complex.imCLM.hasFDerivAt.comp_hasDerivAt t hlog
    have hcont : ContinuousAt (fun τ => -((x τ : ℂ) + (y τ : ℂ) * Complex.I)) t := hz'.continuousAt
    have hev : ∀ᶠ τ in nhds t, (cartesianToSpherical (⟨x τ, y τ, z τ⟩, ⟨vx, vy, vz⟩)).lon =
        degrees (π + (Complex.log (-((x τ : ℂ) + (y τ : ℂ) * Complex.I))).im) := by
      filter_upwards [hcont.preimage_mem_nhds (Complex.isOpen_slitPlane.mem_nhds (by rw [hzz]; exact hslit))] with τ hτ
      have hτ' : -(⟨x τ, y τ⟩ : ℂ) ∈ Complex.slitPlane := by rw [← hzz]; exact hτ
      rw [Complex.log_im, hzz, ← wrapLon_neg]
      · rfl
      · rintro ⟨h1, h2⟩
        rw [Complex.mem_slitPlane_iff] at hτ'
        simp only [Complex.neg_re, Complex.neg_im] at hτ'
        rcases hτ' with h3 | h3
        · linarith
        · exact h3 (by simp [h1])
    refine HasDerivAt.congr_of_eventuallyEq ?_ hev
    refine ((him.const_add π).mul_const (180 / π)).congr_deriv ?_
    simp only [cartesianToSpherical]
    rw [if_neg h]
    unfold degrees
    congr 1
    rw [neg_div_neg_eq, Complex.div_im]
    simp [Complex.normSq_apply]
    field_simp

/-- C44. With the roundings of float64 the longitude can be 360: the one of a point just below the positive x axis. -/
theorem C44_float_false : ¬ ∀ lon : ℚ, -pi64 ≤ lon → lon ≤ pi64 → wrapLonF64 lon < 360 := by
  intro h
  have := h (-1 / 10 ^ 20) (by decide +kernel) (by decide +kernel)
  revert this
  decide +kernel

/-- The hypotheses of C44 are met: a point in the octant where all coordinates are positive, moving. -/
example : ¬ ((1 : ℝ) = 0 ∧ (2 : ℝ) = 0) ∧ ¬ ((2 : ℝ) = 0 ∧ (0 : ℝ) ≤ 1) := by norm_num

/-! ## C101: the two-body ephemeris -/

/-- Turning keeps lengths. -/
theorem norm_turn (ε : ℝ) (v : V3) : ‖(ec2eq ε v).toE‖ = ‖v.toE‖ := by
  rw [V3.norm_toE, V3.norm_toE]
  unfold V3.norm ec2eq
  congr 1
  linear_combination (v.y ^ 2 + v.z ^ 2) * sin_sq_add_cos_sq ε

/-- C101. Without stellar aberration the spherical coordinates are those of the emission state relative to the observer, turned
by the obliquity about the common x axis of the two frames; the light time and the emission state are those of C38. -/
theorem C101_astrometric (prop : State → ℝ → ℝ → State) (ε : ℝ) (orbit : State) (time : ℝ) (observer : State) (ltTol : ℝ) :
    ∃ c, generateEphemeris prop ε orbit time observer ltTol false =
        (some c, (Aberr.addLightTime prop orbit time observer.1 ltTol 10).2,
          (Aberr.addLightTime prop orbit time observer.1 ltTol 10).1) ∧
      c.rho = ‖(Aberr.addLightTime prop orbit time observer.1 ltTol 10).1.1.toE - observer.1.toE‖ ∧
      (sphericalToCartesian c).1 =
        toEquator ε (V3.sub (Aberr.addLightTime prop orbit time observer.1 ltTol 10).1.1 observer.1) ∧
      (((sphericalToCartesian c).1.x ≠ 0 ∨ (sphericalToCartesian c).1.y ≠ 0) → (sphericalToCartesian c).2 =
        toEquator ε (V3.sub (Aberr.addLightTime prop orbit time observer.1 ltTol 10).1.2 observer.2)) := by
  set r := Aberr.addLightTime prop orbit time observer.1 ltTol 10 with hr
  refine ⟨cartesianToSpherical (ec2eq ε (V3.sub r.1.1 observer.1), ec2eq ε (V3.sub r.1.2 observer.2)), ?_, ?_, ?_, ?_⟩
  · simp [generateEphemeris, ← hr]
  · rw [(C44_ranges _).1, ← V3.toE_sub]
    exact norm_turn _ _
  · exact C44_position _
  · intro h
    rw [C44_position] at h
    rw [C44_cartesian (by tauto)]
    rfl

/-- C101. With stellar aberration there is a value exactly when the aberration has one; the distance is the same, the direction
is the aberrated one, turned, and the velocity is not aberrated. -/
theorem C101_apparent (prop : State → ℝ → ℝ → State) (ε : ℝ) (orbit : State) (time : ℝ) (observer : State) (ltTol : ℝ) :
    (generateEphemeris prop ε orbit time observer ltTol true).2 = (generateEphemeris prop ε orbit time observer ltTol false).2 ∧
    ((generateEphemeris prop ε orbit time observer ltTol true).1 = none ↔
      Aberr.addStellarAberration (Aberr.addLightTime prop orbit time observer.1 ltTol 10).1 observer = none) ∧
    ∀ c, (generateEphemeris prop ε orbit time observer ltTol true).1 = some c →
      c.rho = ‖(Aberr.addLightTime prop orbit time observer.1 ltTol 10).1.1.toE - observer.1.toE‖ ∧
      (∃ r, Aberr.addStellarAberration (Aberr.addLightTime prop orbit time observer.1 ltTol 10).1 observer = some r ∧
        (sphericalToCartesian c).1 = toEquator ε r) ∧
      (((sphericalToCartesian c).1.x ≠ 0 ∨ (sphericalToCartesian c).1.y ≠ 0) → (sphericalToCartesian c).2 =
        toEquator ε (V3.sub (Aberr.addLightTime prop orbit time observer.1 ltTol 10).1.2 observer.2)) := by
  set r := Aberr.addLightTime prop orbit time observer.1 ltTol 10 with hr
  refine ⟨by simp [generateEphemeris], ?_, ?_⟩
  · simp [generateEphemeris, ← hr]
  · intro c hc
    simp only [generateEphemeris, ← hr, if_true, Option.map_map, Option.map_eq_some_iff] at hc
    obtain ⟨q, hq, rfl⟩ := hc
    refine ⟨?_, ⟨q, hq, C44_position _⟩, fun h => ?_⟩
    · rw [← Aberr.Props.C39_distance hq]
      simp only [Function.comp]
      rw [(C44_ranges _).1]
      exact norm_turn _ _
    · simp only [Function.comp] at h ⊢
      rw [C44_position] at h
      rw [C44_cartesian (by tauto)]
      rfl

/-- C101. The turn is the one between the two frames: it keeps the angle between any two directions, the common x axis, and
takes the pole of the ecliptic to the point of the meridian `x = 0` at right ascension 270 degrees and declination
`90° - ε`, and undoing it with `-ε` gives the ecliptic coordinates back. -/
theorem C101_turn (ε : ℝ) (u v : V3) :
    V3.dot (ec2eq ε u) (ec2eq ε v) = V3.dot u v ∧ ec2eq ε ⟨1, 0, 0⟩ = ⟨1, 0, 0⟩ ∧
    ec2eq ε ⟨0, 0, 1⟩ = (sphericalToCartesian ⟨1, 270, 90 - degrees ε, 0, 0, 0⟩).1 ∧ ec2eq (-ε) (ec2eq ε u) = u := by
  have t := sin_sq_add_cos_sq ε
  refine ⟨?_, ?_, ?_, ?_⟩
  · unfold V3.dot ec2eq
    linear_combination (u.y * v.y + u.z * v.z) * t
  · simp [ec2eq]
  · have h1 : radians 270 = 3 * π / 2 := by unfold radians; ring
    have h2 : radians (90 - degrees ε) = π / 2 - ε := by
      unfold radians degrees
      have := Real.pi_ne_zero
      field_simp
      ring
    have h3 : (3 * π / 2 : ℝ) = π / 2 + π := by ring
    simp only [ec2eq, sphericalToCartesian, h1, h2, h3, cos_add_pi, sin_add_pi, cos_pi_div_two, sin_pi_div_two,
      cos_pi_div_two_sub, sin_pi_div_two_sub]
    ext <;> simp
  · ext
    · rfl
    · simp only [ec2eq, cos_neg, sin_neg]; linear_combination u.y * t
    · simp only [ec2eq, cos_neg, sin_neg]; linear_combination u.z * t

end Verif.Sph.Props
