import Verif.Sph.Site
import Verif.Sph.GeoProps
import Mathlib.Analysis.SpecialFunctions.Trigonometric.Bounds

/-! # Properties of longitudes and latitudes of observatories (C170) -/

namespace Verif.Sph.SiteProps

open Verif Verif.Sph Verif.Sph.Props Verif.Sph.Site Real

/-- The coefficients of a place: its longitude in degrees, its distance from the axis and its height over the equator's plane in equatorial
radii. This is what the Minor Planet Center lists. -/
noncomputable def coefficientsOf (a lonDeg : ℝ) (p : V3) : Coefficients :=
  ⟨some lonDeg, some (√(p.x ^ 2 + p.y ^ 2) / a), some (p.z / a)⟩

/-- Degrees of an angle in radians. -/
noncomputable def deg (x : ℝ) : ℝ := x * (180 / π)

theorem arctan_le_self {x : ℝ} (h : 0 ≤ x) : arctan x ≤ x := by
  have := le_tan (arctan_nonneg.mpr h) (arctan_lt_pi_div_two x)
  rwa [tan_arctan] at this

/-- Stretching a tangent moves the angle by at most half the relative stretch. -/
theorem arctan_stretch {r t : ℝ} (hr : 1 ≤ r) (ht : 0 ≤ t) : arctan (r * t) - arctan t ≤ (r - 1) / 2 := by
  have h := arctan_add (x := r * t) (y := -t) (by nlinarith [mul_nonneg (mul_nonneg (by linarith : (0 : ℝ) ≤ r) ht) ht])
  rw [arctan_neg, ← sub_eq_add_neg] at h
  rw [h]
  have hd : 0 < 1 - r * t * -t := by nlinarith [mul_nonneg (mul_nonneg (by linarith : (0 : ℝ) ≤ r) ht) ht]
  have hnn : 0 ≤ (r * t + -t) / (1 - r * t * -t) := div_nonneg (by nlinarith) hd.le
  refine (arctan_le_self hnn).trans ?_
  rw [div_le_div_iff₀ hd (by norm_num)]
  nlinarith [mul_nonneg (by linarith : (0 : ℝ) ≤ r - 1) (sq_nonneg (1 - t)), mul_nonneg (mul_nonneg (by linarith : (0 : ℝ) ≤ r - 1) ht) ht,
    mul_nonneg (mul_nonneg (by linarith : (0 : ℝ) ≤ r - 1) (by linarith : (0 : ℝ) ≤ r - 1)) (mul_nonneg ht ht)]

theorem one_sub_e {a b : ℝ} (ha : 0 < a) (hb : 0 < b) (hba : b ≤ a) : 1 - eEarth a b ^ 2 = (b / a) ^ 2 := by
  have : b / a ≤ 1 := (div_le_one ha).mpr hba
  have h0 : 0 < b / a := by positivity
  unfold eEarth
  rw [sq_sqrt (by nlinarith)]
  ring

theorem ecc2_eq {a b : ℝ} (ha : 0 < a) : ecc2 a (1 - b / a) = 1 - (b / a) ^ 2 := by
  unfold ecc2
  field_simp
  ring

/-- The latitude computed for a place, by its geodetic coordinates: the tangent is stretched. -/
theorem lat_value {a b lat lon alt l : ℝ} {p : V3} (ha : 0 < a) (hb : 0 < b) (hba : b ≤ a)
    (h : IsGeodetic a b lat lon alt p) (hlat : -(π / 2) < lat ∧ lat < π / 2) (halt : -(b ^ 2 / a) < alt) :
    ∃ N, a ≤ N ∧ 0 < N + alt ∧ 0 < N * (b / a) ^ 2 + alt ∧
      (lonLat a b (coefficientsOf a l p)).2 =
        some (deg (arctan ((1 + alt * (1 - (b / a) ^ 2) / ((N + alt) * (b / a) ^ 2)) * tan lat))) := by
  have hf0 : 0 ≤ 1 - b / a := sub_nonneg.mpr ((div_le_one ha).mpr hba)
  have hf1 : 1 - b / a < 1 := by linarith [div_pos hb ha]
  have hbb : a * (1 - (1 - b / a)) = b := by field_simp; ring
  have hg := geodetic_parts ha hf0 hf1 (by rw [hbb]; exact h)
  rw [ecc2_eq ha] at hg
  obtain ⟨he0, -, hs, hp⟩ := hg
  have hq : 0 < (b / a) ^ 2 := by positivity
  set N := curvature a (1 - b / a) lat with hN
  have hNa : a ≤ N := by
    rw [hN]
    unfold curvature
    rw [ecc2_eq ha, le_div_iff₀ (sqrt_pos.mpr hs)]
    have : √(1 - (1 - (b / a) ^ 2) * sin lat ^ 2) ≤ 1 := by
      rw [sqrt_le_iff]
      refine ⟨by norm_num, ?_⟩
      nlinarith [sq_nonneg (sin lat)]
    nlinarith
  have hba' : b ^ 2 / a = a * (b / a) ^ 2 := by field_simp
  have hz : 0 < N * (b / a) ^ 2 + alt := by nlinarith
  have hq1 : (b / a) ^ 2 ≤ 1 := by linarith
  have hxy : 0 < N + alt := by nlinarith
  refine ⟨N, hNa, hxy, hz, ?_⟩
  have hc : 0 < cos lat := cos_pos_of_mem_Ioo ⟨hlat.1, hlat.2⟩
  have hr : √(p.x ^ 2 + p.y ^ 2) = (N + alt) * cos lat := by
    rw [hp]
    simp only
    rw [show ((N + alt) * cos lat * cos lon) ^ 2 + ((N + alt) * cos lat * sin lon) ^ 2 = ((N + alt) * cos lat) ^ 2 by
      linear_combination ((N + alt) * cos lat) ^ 2 * sin_sq_add_cos_sq lon]
    exact sqrt_sq (by positivity)
  have hzv : p.z = (N * (b / a) ^ 2 + alt) * sin lat := by rw [hp]; simp only; ring
  have hcne : √(p.x ^ 2 + p.y ^ 2) / a ≠ 0 := by rw [hr]; positivity
  simp only [lonLat, coefficientsOf, Option.bind_some, arctanQuot, if_neg hcne, Option.map_some, deg]
  rw [one_sub_e ha hb hba, hr, hzv]
  congr 3
  rw [tan_eq_sin_div_cos]
  field_simp
  ring

/-- The latitude of a place with geodetic latitude `lat` at height `alt` over the ellipsoid: exact exactly if the place is on the ellipsoid, on
the equator, or the Earth round; otherwise too far from the equator for a place above the ellipsoid, too near for one below; and wrong by
at most half the height in radii times `a²/b² - 1`, in radians. -/
theorem C170_latitude {a b lat lon alt l : ℝ} {p : V3} (ha : 0 < a) (hb : 0 < b) (hba : b ≤ a)
    (h : IsGeodetic a b lat lon alt p) (hlat : -(π / 2) < lat ∧ lat < π / 2) (halt : -(b ^ 2 / a) < alt) :
    ∃ x, (lonLat a b (coefficientsOf a l p)).2 = some (deg x) ∧ -(π / 2) < x ∧ x < π / 2 ∧
      (x = lat ↔ alt = 0 ∨ lat = 0 ∨ a = b) ∧
      (0 < alt → b < a → 0 < lat → lat < x) ∧ (0 < alt → b < a → lat < 0 → x < lat) ∧
      (alt < 0 → b < a → 0 < lat → 0 < x ∧ x < lat) ∧ (alt < 0 → b < a → lat < 0 → lat < x ∧ x < 0) ∧
      (0 ≤ alt → |x - lat| ≤ alt / a * (a ^ 2 / b ^ 2 - 1) / 2) := by
  obtain ⟨N, hNa, hxy, hz, hv⟩ := lat_value (l := l) ha hb hba h hlat halt
  have hq : 0 < (b / a) ^ 2 := by positivity
  have hba1 : b / a ≤ 1 := (div_le_one ha).mpr hba
  have hba0 : 0 < b / a := by positivity
  have hq1 : (b / a) ^ 2 ≤ 1 := by nlinarith
  set q := (b / a) ^ 2 with hqd
  have hden : 0 < (N + alt) * q := by positivity
  set r := 1 + alt * (1 - q) / ((N + alt) * q) with hr
  have hrpos : 0 < r := by
    rw [hr, show 1 + alt * (1 - q) / ((N + alt) * q) = (N * q + alt) / ((N + alt) * q) by field_simp; ring]
    positivity
  have hlt : b < a → q < 1 := fun hlt => by
    have : b / a < 1 := (div_lt_one ha).mpr hlt
    nlinarith
  have hr1 : 0 < alt → b < a → 1 < r := fun h1 h2 => by
    have : 0 < alt * (1 - q) / ((N + alt) * q) := div_pos (mul_pos h1 (by linarith [hlt h2])) hden
    linarith
  have hr2 : alt < 0 → b < a → r < 1 := fun h1 h2 => by
    have : alt * (1 - q) / ((N + alt) * q) < 0 := div_neg_of_neg_of_pos (mul_neg_of_neg_of_pos h1 (by linarith [hlt h2])) hden
    linarith
  have hat : arctan (tan lat) = lat := arctan_tan hlat.1 hlat.2
  have htp : 0 < lat → 0 < tan lat := fun hp => tan_pos_of_pos_of_lt_pi_div_two hp hlat.2
  have htn : lat < 0 → tan lat < 0 := fun hn => tan_neg_of_neg_of_pi_div_two_lt hn hlat.1
  refine ⟨arctan (r * tan lat), hv, neg_pi_div_two_lt_arctan _, arctan_lt_pi_div_two _, ?_, ?_, ?_, ?_, ?_, ?_⟩
  · constructor
    · intro he
      have h1 : r * tan lat = tan lat := by
        have := congrArg tan he
        rwa [tan_arctan] at this
      by_cases h0 : lat = 0
      · exact Or.inr (Or.inl h0)
      by_cases h2 : alt = 0
      · exact Or.inl h2
      refine Or.inr (Or.inr (le_antisymm (not_lt.mp fun hlt' => ?_) hba))
      have ht : tan lat ≠ 0 := by
        rcases lt_or_gt_of_ne h0 with h3 | h3
        · exact (htn h3).ne
        · exact (htp h3).ne'
      have h4 : r = 1 := by
        have : (r - 1) * tan lat = 0 := by linear_combination h1
        rcases mul_eq_zero.mp this with h5 | h5
        · linarith
        · exact absurd h5 ht
      rcases lt_or_gt_of_ne h2 with h3 | h3
      · linarith [hr2 h3 hlt']
      · linarith [hr1 h3 hlt']
    · intro he
      have h1 : r * tan lat = tan lat := by
        rcases he with h2 | h2 | h2
        · rw [hr, h2]; simp
        · rw [h2]; simp
        · have : q = 1 := by rw [hqd, h2, div_self hb.ne']; norm_num
          rw [hr, this]; simp
      rw [h1, hat]
  · intro h1 h2 h3
    conv_lhs => rw [← hat]
    exact arctan_lt_arctan_iff.mpr (by nlinarith [htp h3, hr1 h1 h2])
  · intro h1 h2 h3
    conv_rhs => rw [← hat]
    exact arctan_lt_arctan_iff.mpr (by nlinarith [htn h3, hr1 h1 h2])
  · intro h1 h2 h3
    refine ⟨arctan_pos.mpr (mul_pos hrpos (htp h3)), ?_⟩
    conv_rhs => rw [← hat]
    exact arctan_lt_arctan_iff.mpr (by nlinarith [htp h3, hr2 h1 h2])
  · intro h1 h2 h3
    refine ⟨?_, arctan_lt_zero.mpr (mul_neg_of_pos_of_neg hrpos (htn h3))⟩
    conv_lhs => rw [← hat]
    exact arctan_lt_arctan_iff.mpr (by nlinarith [htn h3, hr2 h1 h2])
  · intro h1
    have hrge : 1 ≤ r := by
      have : 0 ≤ alt * (1 - q) / ((N + alt) * q) := div_nonneg (mul_nonneg h1 (by linarith)) hden.le
      linarith
    have hbound : (r - 1) / 2 ≤ alt / a * (a ^ 2 / b ^ 2 - 1) / 2 := by
      have e1 : r - 1 = alt * (1 - q) / ((N + alt) * q) := by rw [hr]; ring
      have e2 : alt / a * (a ^ 2 / b ^ 2 - 1) = alt * (1 - q) / (a * q) := by rw [hqd]; field_simp
      have : alt * (1 - q) / ((N + alt) * q) ≤ alt * (1 - q) / (a * q) :=
        div_le_div_of_nonneg_left (mul_nonneg h1 (by linarith)) (by positivity) (by nlinarith)
      rw [e1, e2]
      linarith
    rcases le_or_gt 0 lat with h2 | h2
    · have ht : 0 ≤ tan lat := tan_nonneg_of_nonneg_of_le_pi_div_two h2 hlat.2.le
      have := arctan_stretch hrge ht
      rw [hat] at this
      have hge : lat ≤ arctan (r * tan lat) := by
        conv_lhs => rw [← hat]
        exact arctan_le_arctan_iff.mpr (by nlinarith)
      rw [abs_of_nonneg (by linarith)]
      linarith
    · have ht : 0 ≤ -tan lat := by linarith [htn h2]
      have := arctan_stretch hrge ht
      rw [show r * -tan lat = -(r * tan lat) by ring, arctan_neg, arctan_neg, hat] at this
      have hge : arctan (r * tan lat) ≤ lat := by
        conv_rhs => rw [← hat]
        exact arctan_le_arctan_iff.mpr (by nlinarith)
      rw [abs_of_nonpos (by linarith)]
      linarith

/-- A place on the axis: the poles are at 90 degrees, the centre of the Earth has no latitude. -/
theorem C170_axis (a b l : ℝ) (p : V3) (ha : 0 < a) (hx : p.x = 0) (hy : p.y = 0) :
    (0 < p.z → (lonLat a b (coefficientsOf a l p)).2 = some 90) ∧ (p.z < 0 → (lonLat a b (coefficientsOf a l p)).2 = some (-90)) ∧
    (p.z = 0 → (lonLat a b (coefficientsOf a l p)).2 = none) := by
  have hpi := pi_pos
  have h0 : √(p.x ^ 2 + p.y ^ 2) / a = 0 := by rw [hx, hy]; simp
  simp only [lonLat, coefficientsOf, Option.bind_some, arctanQuot, if_pos h0]
  refine ⟨fun h => ?_, fun h => ?_, fun h => ?_⟩
  · have h1 : 0 < p.z / a := div_pos h ha
    rw [if_neg h1.ne', if_pos h1]
    simp only [Option.map_some, Option.some.injEq]
    field_simp; norm_num
  · have h1 : p.z / a < 0 := div_neg_of_neg_of_pos h ha
    rw [if_neg h1.ne, if_neg (not_lt.mpr h1.le)]
    simp only [Option.map_some, Option.some.injEq]
    field_simp; norm_num
  · rw [if_pos (by rw [h, zero_div])]
    rfl

/-- Longitudes from 0 to 360 degrees come out in (-180, 180], as the same direction; without a longitude there is neither longitude nor
latitude; and whatever the coefficients are, a latitude is between -90 and 90. -/
theorem C170_longitude (a b : ℝ) (r : Coefficients) :
    (∀ l, r.longitude = some l → 0 ≤ l → l < 360 → ∃ x, (lonLat a b r).1 = some x ∧ -180 < x ∧ x ≤ 180 ∧ (x = l ∨ x = l - 360)) ∧
    (r.longitude = none → lonLat a b r = (none, none)) ∧
    ((lonLat a b r).1.isSome = r.longitude.isSome) ∧
    (∀ x, (lonLat a b r).2 = some x → -90 ≤ x ∧ x ≤ 90) := by
  have hpi := pi_pos
  refine ⟨fun l hl h0 h1 => ?_, fun h => by simp only [lonLat, h], by unfold lonLat; cases r.longitude <;> rfl, fun x hx => ?_⟩
  · simp only [lonLat, hl]
    by_cases h : l > 180
    · exact ⟨l - 360, by rw [if_pos h], by linarith, by linarith, Or.inr rfl⟩
    · exact ⟨l, by rw [if_neg h], by linarith, not_lt.mp h, Or.inl rfl⟩
  · have key : ∀ s c d y, arctanQuot s c d = some y → -(π / 2) ≤ y ∧ y ≤ π / 2 := by
      intro s c d y hy
      unfold arctanQuot at hy
      split at hy
      · split at hy
        · cases hy
        · split at hy <;> cases hy <;> constructor <;> linarith
      · cases hy
        exact ⟨(neg_pi_div_two_lt_arctan _).le, (arctan_lt_pi_div_two _).le⟩
    unfold lonLat at hx
    cases hl : r.longitude with
    | none => rw [hl] at hx; cases hx
    | some l =>
      rw [hl] at hx
      simp only [Option.map_eq_some_iff] at hx
      obtain ⟨y, hy, rfl⟩ := hx
      obtain ⟨s, hs, hy⟩ := Option.bind_eq_some_iff.mp hy
      obtain ⟨c, hc, hy⟩ := Option.bind_eq_some_iff.mp hy
      obtain ⟨h1, h2⟩ := key _ _ _ _ hy
      have h180 : 0 < 180 / π := by positivity
      have e : π / 2 * (180 / π) = 90 := by field_simp; norm_num
      constructor
      · have := mul_le_mul_of_nonneg_right h1 h180.le
        linarith
      · have := mul_le_mul_of_nonneg_right h2 h180.le
        linarith

/-- Time zones: one per row, the library's for the row's longitude and latitude, or the text for none for rows without a longitude. -/
theorem C170_timezone {Z : Type} (tz : Option ℝ → Option ℝ → Except PyErr Z) (no : Z) (a b : ℝ) (rows : List Coefficients) (out : List Z)
    (h : timezone tz no a b rows = .ok out) :
    List.Forall₂ (fun r z => (r.longitude = none ∧ z = no) ∨
      r.longitude ≠ none ∧ tz (lonLat a b r).1 (lonLat a b r).2 = .ok z) rows out := by
  induction rows generalizing out with
  | nil => cases h; exact .nil
  | cons r rest ih =>
    rw [timezone] at h
    cases h1 : tz (lonLat a b r).1 (lonLat a b r).2 with
    | error e => simp only [bind, Except.bind, h1] at h; cases h
    | ok z =>
      cases h2 : timezone tz no a b rest with
      | error e => simp only [bind, Except.bind, h1, h2] at h; cases h
      | ok zs =>
        simp only [bind, Except.bind, h1, h2, Except.ok.injEq] at h
        subst h
        refine .cons ?_ (ih zs h2)
        have hs := (C170_longitude a b r).2.2.1
        cases hl : r.longitude with
        | none =>
          rw [hl] at hs
          left
          rw [if_neg (by rw [hs]; simp)]
          exact ⟨rfl, rfl⟩
        | some l =>
          rw [hl] at hs
          right
          rw [if_pos (by rw [hs]; rfl)]
          exact ⟨by simp, h1⟩

/-- The library is asked also about rows without a longitude, so one observatory in space makes the whole call fail if the library refuses NaN;
and the call succeeds exactly if the library answers for every row. -/
theorem C170_timezone_errors {Z : Type} (tz : Option ℝ → Option ℝ → Except PyErr Z) (no : Z) (a b : ℝ) (rows : List Coefficients) :
    ((∃ out, timezone tz no a b rows = .ok out) ↔ ∀ r ∈ rows, ∃ z, tz (lonLat a b r).1 (lonLat a b r).2 = .ok z) ∧
    ∀ r ∈ rows, r.longitude = none → ∀ e, tz none none = .error e → ∃ e', timezone tz no a b rows = .error e' := by
  have key : (∃ out, timezone tz no a b rows = .ok out) ↔ ∀ r ∈ rows, ∃ z, tz (lonLat a b r).1 (lonLat a b r).2 = .ok z := by
    induction rows with
    | nil => simp [timezone]
    | cons r rest ih =>
      rw [List.forall_mem_cons, ← ih, timezone]
      cases h1 : tz (lonLat a b r).1 (lonLat a b r).2 with
      | error e => simp [bind, Except.bind]
      | ok z =>
        cases h2 : timezone tz no a b rest with
        | error e => simp [bind, Except.bind]
        | ok zs => simp [bind, Except.bind]
  refine ⟨key, fun r hr hl e he => ?_⟩
  cases h : timezone tz no a b rows with
  | error e' => exact ⟨e', rfl⟩
  | ok out =>
    obtain ⟨z, hz⟩ := key.mp ⟨out, h⟩ r hr
    rw [(C170_longitude a b r).2.1 hl, he] at hz
    cases hz

/-- Not true: that the latitude is the geodetic latitude of the observatory. One at 45 degrees and any height is reported too far north, with the
radii of the Earth used. -/
theorem C170_latitude_false : ¬ ∀ (p : V3) (lat lon alt l : ℝ), IsGeodetic 6378.1363 6356.7523 lat lon alt p → 0 < lat → lat < π / 2 → 0 ≤ alt →
    (lonLat 6378.1363 6356.7523 (coefficientsOf 6378.1363 l p)).2 = some (deg lat) := by
  intro hall
  have hpi := pi_pos
  obtain ⟨p, h⟩ := C102_position_exists (a := 6378.1363) (f := 1 - 6356.7523 / 6378.1363) (by norm_num) (by norm_num) (π / 4) 0 4
  rw [show (6378.1363 : ℝ) * (1 - (1 - 6356.7523 / 6378.1363)) = 6356.7523 by norm_num] at h
  have h1 := hall p (π / 4) 0 4 0 h (by linarith) (by linarith) (by norm_num)
  obtain ⟨x, hx, -, -, -, hgt, -⟩ := C170_latitude (l := 0) (by norm_num) (by norm_num) (by norm_num) h ⟨by linarith, by linarith⟩ (by norm_num)
  rw [h1, Option.some.injEq] at hx
  have h180 : (180 / π : ℝ) ≠ 0 := by positivity
  have := mul_right_cancel₀ h180 hx
  exact (hgt (by norm_num) (by norm_num) (by linarith)).ne this

/-- With the radii of the Earth used, a place up to 9 km above the ellipsoid is off by less than 0.000005 radians, about an arc second. -/
theorem C170_small {lat lon alt l : ℝ} {p : V3} (h : IsGeodetic 6378.1363 6356.7523 lat lon alt p) (hlat : -(π / 2) < lat ∧ lat < π / 2)
    (h0 : 0 ≤ alt) (h9 : alt ≤ 9) :
    ∃ x, (lonLat 6378.1363 6356.7523 (coefficientsOf 6378.1363 l p)).2 = some (deg x) ∧ |x - lat| < 0.000005 := by
  obtain ⟨x, hx, -, -, -, -, -, -, -, hb⟩ := C170_latitude (l := l) (by norm_num) (by norm_num) (by norm_num) h hlat
    (lt_of_lt_of_le (by norm_num) h0)
  refine ⟨x, hx, (hb h0).trans_lt ?_⟩
  have : alt / 6378.1363 * ((6378.1363 : ℝ) ^ 2 / 6356.7523 ^ 2 - 1) / 2 ≤ 9 / 6378.1363 * ((6378.1363 : ℝ) ^ 2 / 6356.7523 ^ 2 - 1) / 2 := by
    gcongr
  refine this.trans_lt ?_
  norm_num

/-- A concrete case: a place on the equator of a flattened Earth at 270 degrees, and one on the ellipsoid at 45 degrees. -/
theorem C170_case : (lonLat 2 1 ⟨some 270, some 1, some 0⟩) = (some (-90), some 0) ∧
    ∃ p, IsGeodetic 2 1 (π / 4) 0 0 p ∧ (lonLat 2 1 (coefficientsOf 2 10 p)).2 = some 45 := by
  have hpi := pi_pos
  constructor
  · simp [lonLat, arctanQuot]; norm_num
  · obtain ⟨p, h⟩ := C102_position_exists (a := 2) (f := 1 / 2) (by norm_num) (by norm_num) (π / 4) 0 0
    rw [show (2 : ℝ) * (1 - 1 / 2) = 1 by norm_num] at h
    refine ⟨p, h, ?_⟩
    obtain ⟨x, hx, -, -, hiff, -⟩ := C170_latitude (l := 10) (by norm_num) (by norm_num) (by norm_num) h ⟨by linarith, by linarith⟩ (by norm_num)
    rw [hx, hiff.mpr (Or.inl rfl)]
    unfold deg
    congr 1
    field_simp
    norm_num

end Verif.Sph.SiteProps
