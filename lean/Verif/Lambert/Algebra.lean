import Verif.Lambert.Model
import Verif.Univ.Props

/-! # The geometry of Lambert's problem and the identities behind Izzo's formulas -/

namespace Verif.Lambert

open Verif Verif.Univ

theorem K1 {l x y rho : ℝ} (hy : y ^ 2 = 1 - l ^ 2 * (1 - x ^ 2)) :
    ((l * y - x) - rho * (l * y + x)) * (y - l * x) + ((1 + l ^ 2) + rho * (1 - l ^ 2)) * (x * y + l * (1 - x ^ 2)) = 2 * l := by
  linear_combination (l - rho * l) * hy

theorem K2 {l x y : ℝ} (hy : y ^ 2 = 1 - l ^ 2 * (1 - x ^ 2)) :
    (y - l * x) ^ 2 + 2 * l * (x * y + l * (1 - x ^ 2)) = 1 + l ^ 2 := by
  linear_combination hy

theorem K3 {l x y : ℝ} (hy : y ^ 2 = 1 - l ^ 2 * (1 - x ^ 2)) :
    (y - l * x) * (2 * l * (1 - x ^ 2) - (x * y + l * (1 - x ^ 2))) = l * y - x := by
  linear_combination -x * hy

theorem K4 {l x y rho sg : ℝ} (hy : y ^ 2 = 1 - l ^ 2 * (1 - x ^ 2)) (hs : sg ^ 2 = 1 - rho ^ 2) :
    ((l * y - x) - rho * (l * y + x)) ^ 2 + (sg * (y + l * x)) ^ 2 =
      2 * ((1 + l ^ 2) + rho * (1 - l ^ 2)) - (1 - x ^ 2) * ((1 + l ^ 2) + rho * (1 - l ^ 2)) ^ 2 := by
  grind

theorem K5 {l x y rho sg : ℝ} (hy : y ^ 2 = 1 - l ^ 2 * (1 - x ^ 2)) (hs : sg ^ 2 = 1 - rho ^ 2) :
    let R1 := (1 + l ^ 2) + rho * (1 - l ^ 2);
    let R2 := (1 + l ^ 2) - rho * (1 - l ^ 2);
    (-2) * (y - l * x) * (x * y + l * (1 - x ^ 2)) * R1 * R2 / 4 +
      (R2 / 2 - (y - l * x) ^ 2) * (R2 / 2) * ((l * y - x) - rho * (l * y + x)) +
      (2 * l ^ 2 - R1 * R2 / 4) * ((l * y - x) + rho * (l * y + x)) + sg ^ 2 * (y + l * x) * l * (1 - l ^ 2) = 0 := by
  intro R1 R2
  simp only [R1, R2, hs]
  grind

theorem K6 {l x y rho : ℝ} (hy : y ^ 2 = 1 - l ^ 2 * (1 - x ^ 2)) :
    ((1 + l ^ 2) - rho * (1 - l ^ 2)) / 2 = ((1 + l ^ 2) + rho * (1 - l ^ 2)) / 2 -
      (1 - x ^ 2) * ((1 + l ^ 2) + rho * (1 - l ^ 2)) * (y - l * x) ^ 2 +
      ((l * y - x) - rho * (l * y + x)) * (y - l * x) * (x * y + l * (1 - x ^ 2)) + (y - l * x) ^ 2 := by
  grind

theorem K7 {l x y rho : ℝ} (hy : y ^ 2 = 1 - l ^ 2 * (1 - x ^ 2)) :
    (((1 + l ^ 2) - rho * (1 - l ^ 2)) / 2 - (y - l * x) ^ 2) * (((1 + l ^ 2) - rho * (1 - l ^ 2)) / 2) * (y + l * x) =
      -((l * y - x) + rho * (l * y + x)) * (l * (1 - l ^ 2)) +
        (y + l * x) * (2 * l ^ 2 - ((1 + l ^ 2) + rho * (1 - l ^ 2)) * ((1 + l ^ 2) - rho * (1 - l ^ 2)) / 4) := by
  grind

/-- What is known about the geometry of two positions that are not on one line with the centre. `C` and `S` are the cosine and the
sine of the transfer angle, `rho` and `sg` are the code's `rho` and `sigma`. -/
structure Facts (r1 r2 : V3) (prograde : Bool) (g : Geometry) (rho sg C S : ℝ) : Prop where
  r1pos : 0 < g.r1Norm
  r2pos : 0 < g.r2Norm
  cpos : 0 < g.cNorm
  spos : 0 < g.s
  hrho : rho = (g.r1Norm - g.r2Norm) / g.cNorm
  hsg : sg = √(1 - rho ^ 2)
  sgsq : sg ^ 2 = 1 - rho ^ 2
  sgpos : 0 < sg
  hl : g.ll ^ 2 < 1
  hc : g.cNorm = g.s * (1 - g.ll ^ 2)
  h1 : g.r1Norm = g.s * ((1 + g.ll ^ 2) + rho * (1 - g.ll ^ 2)) / 2
  h2 : g.r2Norm = g.s * ((1 + g.ll ^ 2) - rho * (1 - g.ll ^ 2)) / 2
  e1 : r1 = V3.smul g.r1Norm g.ir1
  e2 : r2 = V3.smul g.r2Norm g.ir2
  n1 : V3.dot g.ir1 g.ir1 = 1
  n2 : V3.dot g.ir2 g.ir2 = 1
  n12 : V3.dot g.ir1 g.ir2 = C
  hCS : C ^ 2 + S ^ 2 = 1
  S0 : S ≠ 0
  t1 : g.it1 = V3.smul (1 / S) (V3.sub g.ir2 (V3.smul C g.ir1))
  t2 : g.it2 = V3.smul (1 / S) (V3.sub (V3.smul C g.ir2) g.ir1)
  hC : g.r1Norm * g.r2Norm * C = 2 * g.s ^ 2 * g.ll ^ 2 - g.r1Norm * g.r2Norm
  hS : g.r1Norm * g.r2Norm * S = g.ll * g.s ^ 2 * (1 - g.ll ^ 2) * sg
  sign : 0 < S ↔ (prograde = true ↔ 0 ≤ (V3.cross r1 r2).z)

theorem smul_cross (a b : ℝ) (u v : V3) : V3.cross (V3.smul a u) (V3.smul b v) = V3.smul (a * b) (V3.cross u v) := by
  ext <;> simp [V3.cross, V3.smul] <;> ring

theorem smul_dot (a b : ℝ) (u v : V3) : V3.dot (V3.smul a u) (V3.smul b v) = a * b * V3.dot u v := by
  simp [V3.dot, V3.smul]; ring

theorem norm_pos_iff {a : V3} : 0 < V3.norm a ↔ a ≠ ⟨0, 0, 0⟩ :=
  ⟨fun h h0 => by rw [V3.norm_eq_zero.mpr h0] at h; exact lt_irrefl _ h, norm_pos'⟩

/-- The sign of the transfer: `+1` for a transfer angle below 180 degrees. -/
noncomputable def eps (z : ℝ) (prograde : Bool) : ℝ := (if z < 0 then -1 else 1) * (if prograde then 1 else -1)

theorem eps_cases (z : ℝ) (prograde : Bool) : eps z prograde = 1 ∧ (prograde = true ↔ 0 ≤ z) ∨
    eps z prograde = -1 ∧ ¬ (prograde = true ↔ 0 ≤ z) := by
  unfold eps
  rcases lt_or_ge z 0 with h | h
  · cases prograde <;> simp [h]
  · cases prograde <;> simp [h, not_lt.mpr h]

theorem geometry_facts (r1 r2 : V3) (h : V3.cross r1 r2 ≠ ⟨0, 0, 0⟩) (prograde : Bool) :
    ∃ rho sg C S, Facts r1 r2 prograde (geometry r1 r2 prograde) rho sg C S := by
  have hr1 : r1 ≠ ⟨0, 0, 0⟩ := ne_zero_of_cross h
  have hr2 : r2 ≠ ⟨0, 0, 0⟩ := by
    rintro rfl
    apply h
    simp [V3.cross]
  have p1 := norm_pos' hr1
  have p2 := norm_pos' hr2
  have hcne : V3.sub r2 r1 ≠ ⟨0, 0, 0⟩ := by
    intro h0
    apply h
    have e : r2 = r1 := by
      have ex := congrArg V3.x h0; have ey := congrArg V3.y h0; have ez := congrArg V3.z h0
      simp only [V3.sub] at ex ey ez
      ext <;> linarith
    rw [e]
    ext <;> simp [V3.cross] <;> ring
  have pc := norm_pos' hcne
  set a := V3.norm r1 with ha
  set b := V3.norm r2 with hb
  set c := V3.norm (V3.sub r2 r1) with hcdef
  set s := (a + b + c) * 0.5 with hs
  set i1 := V3.smul (1 / a) r1 with hi1
  set i2 := V3.smul (1 / b) r2 with hi2
  set n := V3.norm (V3.cross i1 i2) with hn
  have a2 : a ^ 2 = V3.dot r1 r1 := V3.norm_sq r1
  have b2 : b ^ 2 = V3.dot r2 r2 := V3.norm_sq r2
  have c2 : c ^ 2 = a ^ 2 + b ^ 2 - 2 * V3.dot r1 r2 := by
    rw [a2, b2, hcdef, V3.norm_sq]
    simp [V3.dot, V3.sub]; ring
  have n1 : V3.dot i1 i1 = 1 := by rw [hi1, smul_dot, ← a2]; field_simp
  have n2 : V3.dot i2 i2 = 1 := by rw [hi2, smul_dot, ← b2]; field_simp
  set C := V3.dot i1 i2 with hC
  have hC' : a * b * C = V3.dot r1 r2 := by rw [hC, hi1, hi2, smul_dot]; field_simp
  have e1 : r1 = V3.smul a i1 := by ext <;> simp [hi1, V3.smul] <;> field_simp
  have e2 : r2 = V3.smul b i2 := by ext <;> simp [hi2, V3.smul] <;> field_simp
  have hcr : V3.cross r1 r2 = V3.smul (a * b) (V3.cross i1 i2) := by
    conv_lhs => rw [e1, e2]
    rw [smul_cross]
  have hnpos : 0 < n := by
    rw [hn, norm_pos_iff]
    intro h0
    apply h
    rw [hcr, h0]
    simp [V3.smul]
  have hnsq : n ^ 2 = 1 - C ^ 2 := by rw [hn, V3.norm_sq, lagrange_id, n1, n2, ← hC]; ring
  have hs' : s = (a + b + c) / 2 := by rw [hs]; norm_num; ring
  have spos : 0 < s := by rw [hs']; linarith
  have hcs : 4 * (s * (s - c)) = 2 * (a * b * (1 + C)) := by
    have : 4 * (s * (s - c)) = (a + b) ^ 2 - c ^ 2 := by rw [hs']; ring
    rw [this, c2, ← hC']; ring
  have hC1 : 0 < 1 + C ∧ 0 < 1 - C := by
    have hab : (1 + C) * (1 - C) = n ^ 2 := by rw [hnsq]; ring
    have : 0 < (1 + C) * (1 - C) := by rw [hab]; positivity
    rcases pos_and_pos_or_neg_and_neg_of_mul_pos this with h' | h'
    · exact h'
    · linarith [h'.1, h'.2]
  have hsc : c < s := by
    have h0 : 0 < 4 * (s * (s - c)) := by rw [hcs]; have := mul_pos (mul_pos p1 p2) hC1.1; linarith
    have : 0 < s * (s - c) := by linarith
    have := (pos_iff_pos_of_mul_pos this).mp spos
    linarith
  set L := √(1 - min 1 (c / s)) with hL
  have hcs1 : c / s < 1 := by rw [div_lt_one spos]; exact hsc
  have hLpos : 0 < L := by
    rw [hL, Real.sqrt_pos, min_eq_right hcs1.le]; linarith
  have hLsq : s * L ^ 2 = s - c := by
    rw [hL, Real.sq_sqrt (by rw [min_eq_right hcs1.le]; linarith), min_eq_right hcs1.le]
    field_simp
  set rho := (a - b) / c with hrho
  have hrc : rho * c = a - b := by rw [hrho]; field_simp
  have hsgc : c ^ 2 * (1 - rho ^ 2) = 2 * (a * b * (1 - C)) := by
    have : c ^ 2 * (1 - rho ^ 2) = c ^ 2 - (rho * c) ^ 2 := by ring
    rw [this, hrc, c2, ← hC']; ring
  have hrho1 : 0 < 1 - rho ^ 2 := by
    have h0 : 0 < c ^ 2 * (1 - rho ^ 2) := by rw [hsgc]; have := mul_pos (mul_pos p1 p2) hC1.2; linarith
    exact (pos_iff_pos_of_mul_pos h0).mp (by positivity)
  set sg := √(1 - rho ^ 2) with hsg
  have sgpos : 0 < sg := Real.sqrt_pos.mpr hrho1
  have sgsq : sg ^ 2 = 1 - rho ^ 2 := Real.sq_sqrt hrho1.le
  -- the code's unit normal
  set ih := V3.smul (1 / (if n > 0 then n else 1)) (V3.cross i1 i2) with hih
  have hih' : ih = V3.smul (1 / n) (V3.cross i1 i2) := by rw [hih, if_pos hnpos]
  set ε := eps ih.z prograde with hε
  have hε2 : ε ^ 2 = 1 := by
    rcases eps_cases ih.z prograde with h' | h' <;> rw [hε, h'.1] <;> norm_num
  have hz : 0 ≤ ih.z ↔ 0 ≤ (V3.cross r1 r2).z := by
    rw [hcr, hih']
    simp only [V3.smul]
    rw [mul_nonneg_iff_of_pos_left (by positivity), mul_nonneg_iff_of_pos_left (by positivity)]
  have hεsign : 0 < ε ↔ (prograde = true ↔ 0 ≤ (V3.cross r1 r2).z) := by
    rw [← hz]
    rcases eps_cases ih.z prograde with h' | h'
    · rw [hε, h'.1]; exact ⟨fun _ => h'.2, fun _ => by norm_num⟩
    · rw [hε, h'.1]; exact ⟨fun h0 => absurd h0 (by norm_num), fun h0 => absurd h0 h'.2⟩
  have hg : geometry r1 r2 prograde = ⟨c, a, b, s, i1, i2, ε * L, V3.smul ε (V3.cross ih i1), V3.smul ε (V3.cross ih i2)⟩ := by
    unfold geometry
    simp only [← ha, ← hb, ← hcdef, ← hs, ← hi1, ← hi2, ← hn, ← hih, ← hL]
    rw [hε]
    unfold eps
    congr 1
    · by_cases h1 : ih.z < 0 <;> cases prograde <;> simp [h1]
    · by_cases h1 : ih.z < 0 <;> cases prograde <;> simp [h1] <;> ext <;> simp [V3.cross, V3.smul] <;> ring
    · by_cases h1 : ih.z < 0 <;> cases prograde <;> simp [h1] <;> ext <;> simp [V3.cross, V3.smul] <;> ring
  have hab : a * b * n = L * s * c * sg := by
    have hsq : (a * b * n) ^ 2 = (L * s * c * sg) ^ 2 := by
      have e1 : (L * s * c * sg) ^ 2 = (s * (s * L ^ 2)) * (c ^ 2 * sg ^ 2) := by ring
      rw [e1, hLsq, sgsq, hsgc]
      have e2 : s * (s - c) = a * b * (1 + C) / 2 := by linarith
      rw [e2, mul_pow, hnsq]
      ring
    exact (pow_left_inj₀ (by positivity) (by positivity) two_ne_zero).mp hsq
  rw [hg]
  refine ⟨rho, sg, C, ε * n, ⟨p1, p2, pc, spos, hrho, hsg, sgsq, sgpos, ?_, ?_, ?_, ?_, e1, e2, n1, n2, rfl, ?_, ?_, ?_, ?_, ?_, ?_, ?_⟩⟩
  · simp only [mul_pow, hε2, one_mul]
    have : s * L ^ 2 < s * 1 := by rw [hLsq]; linarith
    exact lt_of_mul_lt_mul_left this spos.le
  · simp only [mul_pow, hε2, one_mul]
    linarith
  · simp only [mul_pow, hε2, one_mul]
    have e : s * ((1 + L ^ 2) + rho * (1 - L ^ 2)) = (s + s * L ^ 2) + rho * (s - s * L ^ 2) := by ring
    rw [e, hLsq, show s - (s - c) = c by ring, hrc, hs']; ring
  · simp only [mul_pow, hε2, one_mul]
    have e : s * ((1 + L ^ 2) - rho * (1 - L ^ 2)) = (s + s * L ^ 2) - rho * (s - s * L ^ 2) := by ring
    rw [e, hLsq, show s - (s - c) = c by ring, hrc, hs']; ring
  · rw [mul_pow, hε2, hnsq]; ring
  · have : ε ≠ 0 := by intro h0; rw [h0] at hε2; norm_num at hε2
    exact mul_ne_zero this hnpos.ne'
  · simp only
    have hεi : 1 / (ε * n) = ε / n := by
      have : ε ≠ 0 := by intro h0; rw [h0] at hε2; norm_num at hε2
      field_simp
      linarith [hε2]
    rw [hεi, hih', hC]
    have := n1
    unfold V3.dot at this
    ext <;> simp only [V3.smul, V3.cross, V3.sub, V3.dot] <;> field_simp <;> grind
  · simp only
    have hεi : 1 / (ε * n) = ε / n := by
      have : ε ≠ 0 := by intro h0; rw [h0] at hε2; norm_num at hε2
      field_simp
      linarith [hε2]
    rw [hεi, hih', hC]
    have := n2
    unfold V3.dot at this
    ext <;> simp only [V3.smul, V3.cross, V3.sub, V3.dot] <;> field_simp <;> grind
  · simp only [mul_pow, hε2, one_mul]
    have : 2 * s ^ 2 * L ^ 2 = 2 * (s * (s * L ^ 2)) := by ring
    rw [this, hLsq]
    linarith
  · simp only [mul_pow, hε2, one_mul]
    have : ε * L * s ^ 2 * (1 - L ^ 2) * sg = ε * (L * s * (s - s * L ^ 2) * sg) := by ring
    rw [this, hLsq, show s - (s - c) = c by ring, ← hab]
    ring
  · rw [← hεsign, mul_pos_iff_of_pos_right hnpos]

end Verif.Lambert
