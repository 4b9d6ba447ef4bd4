import Verif.Hg.Lemmas

/-! # Properties of the H-G magnitudes (C69) -/

namespace Verif.Hg.Props

open Verif Verif.Hg Real

/-- A row the photometry accepts: finite positions, the object neither at the Sun nor at the observer. -/
def GoodRow (obj obs : Pos) : Prop :=
  ∃ p q, obj = some p ∧ obs = some q ∧ 0 < Spec.fromSun p ∧ 0 < Spec.fromObserver p q

/-- All rows of two columns of one length. -/
def GoodRows (obj obs : List Pos) : Prop :=
  obs.length = obj.length ∧ ∀ (i : Nat) (a b : Pos), obj[i]? = some a → obs[i]? = some b → GoodRow a b

/-- An array argument of length `n`, or a number. -/
def Fits (n : Nat) : Arg → Prop
  | .scalar _ => True
  | .array xs => xs.length = n

/-- The value of an argument at a row. -/
def _root_.Verif.Hg.Arg.at (i : Nat) : Arg → Option ℝ
  | .scalar x => x
  | .array xs => (xs[i]?).getD none

theorem fromSun_eq (p : V3) : Spec.fromSun p = V3.norm p := by
  unfold Spec.fromSun; rw [dist_zero_right, V3.norm_toE]

theorem fromObserver_eq (p q : V3) : Spec.fromObserver p q = V3.norm (V3.sub p q) := by
  unfold Spec.fromObserver; rw [dist_eq_norm, ← V3.toE_sub, V3.norm_toE]

theorem goodRow_iff (a b : Pos) : validRow a b = true ↔ GoodRow a b := by
  rw [validRow_iff]; unfold GoodRow
  simp only [fromSun_eq, fromObserver_eq]

theorem goodRows_iff (obj obs : List Pos) : validGeometry obj obs = .ok () ↔ GoodRows obj obs := by
  rw [validGeometry_ok]; unfold GoodRows
  simp only [goodRow_iff]

theorem broadcast_fits (n : Nat) (a : Arg) : Fits n a → ∃ xs, broadcast n a = .ok xs ∧ xs.length = n ∧
    ∀ (i : Nat), i < n → xs[i]? = some (a.at i) := by
  cases a with
  | scalar x =>
    intro _
    refine ⟨_, rfl, by simp, fun i hi => ?_⟩
    rw [List.getElem?_replicate, if_pos hi]; rfl
  | array xs =>
    intro h
    refine ⟨xs, ?_, h, fun i hi => ?_⟩
    · unfold broadcast; simp only; rw [if_neg (by simpa [Fits] using h)]
    · have : i < xs.length := by rw [h]; exact hi
      simp [Arg.at, this]

theorem broadcast_not (n : Nat) (a : Arg) : ¬ Fits n a → broadcast n a = .error .valueError := by
  cases a with
  | scalar x => intro h; exact absurd trivial h
  | array xs => intro h; unfold broadcast; simp only; rw [if_pos (by simpa [Fits] using h)]

/-! ### The phase angle -/

theorem phaseRow_eq {p q : V3} (h1 : 0 < Spec.fromSun p) (h2 : 0 < Spec.fromObserver p q) :
    phaseRow p q = Spec.phaseAngle p q * (180 / π) := by
  rw [fromSun_eq] at h1
  rw [fromObserver_eq] at h2
  unfold phaseRow angleOf
  simp only
  rw [cosPhase_eq h1 h2, arctan2_half (phaseAngle_mem p q).1 (phaseAngle_mem p q).2]

/-- `calculate_phase_angle` accepts exactly heliocentric columns of one length and one frame whose rows are all good, and
then gives for each row the angle at the object between Sun and observer, in degrees. Everything else is a ValueError. -/
theorem C69_phase_angle (obj obs : Coords) :
    (∀ e, phaseAngle obj obs = .error e → e = .valueError) ∧
    ((∃ out, phaseAngle obj obs = .ok out) ↔
      (∀ o ∈ obj.origins ++ obs.origins, o = "SUN".toList) ∧ obj.frame = obs.frame ∧ GoodRows obj.rows obs.rows) ∧
    (∀ out, phaseAngle obj obs = .ok out → out.length = obj.rows.length ∧
      ∀ (i : Nat) (p q : V3), obj.rows[i]? = some (some p) → obs.rows[i]? = some (some q) →
        out[i]? = some (.fin (Spec.phaseAngle p q * (180 / π))) ∧
        0 ≤ Spec.phaseAngle p q * (180 / π) ∧ Spec.phaseAngle p q * (180 / π) ≤ 180) := by
  unfold phaseAngle
  by_cases hl : obs.rows.length = obj.rows.length
  swap
  · rw [if_pos hl]
    refine ⟨fun e h => by cases h; rfl, ⟨fun ⟨_, h⟩ => (by cases h), fun h => absurd h.2.2.1 hl⟩, fun _ h => by cases h⟩
  rw [if_neg (by simpa using hl)]
  have horig : ∀ l : List (List Char), l.any (fun o => decide (o ≠ sun)) = true ↔ ¬ ∀ o ∈ l, o = "SUN".toList := by
    intro l
    rw [List.any_eq_true]
    constructor
    · rintro ⟨o, hm, ho⟩ h
      exact of_decide_eq_true ho (h o hm)
    · intro h
      push Not at h
      obtain ⟨o, hm, ho⟩ := h
      exact ⟨o, hm, decide_eq_true ho⟩
  by_cases ho : ∀ o ∈ obj.origins, o = "SUN".toList
  swap
  · rw [if_pos ((horig _).mpr ho)]
    refine ⟨fun e h => by cases h; rfl, ⟨fun ⟨_, h⟩ => (by cases h), fun h => ?_⟩, fun _ h => by cases h⟩
    exact absurd (fun o hm => h.1 o (List.mem_append_left _ hm)) ho
  rw [if_neg (fun h => (horig _).mp h ho)]
  by_cases hb : ∀ o ∈ obs.origins, o = "SUN".toList
  swap
  · rw [if_pos ((horig _).mpr hb)]
    refine ⟨fun e h => by cases h; rfl, ⟨fun ⟨_, h⟩ => (by cases h), fun h => ?_⟩, fun _ h => by cases h⟩
    exact absurd (fun o hm => h.1 o (List.mem_append_right _ hm)) hb
  rw [if_neg (fun h => (horig _).mp h hb)]
  by_cases hf : obj.frame = obs.frame
  swap
  · rw [if_pos hf]
    refine ⟨fun e h => by cases h; rfl, ⟨fun ⟨_, h⟩ => (by cases h), fun h => absurd h.2.1 hf⟩, fun _ h => by cases h⟩
  rw [if_neg (by simpa using hf)]
  rcases validGeometry_cases obj.rows obs.rows with hv | hv
  swap
  · rw [hv]
    refine ⟨fun e h => by cases h; rfl, ⟨fun ⟨_, h⟩ => (by cases h), fun h => ?_⟩, fun _ h => by cases h⟩
    rw [(goodRows_iff _ _).mpr h.2.2] at hv
    cases hv
  have hg := (goodRows_iff _ _).mp hv
  rw [hv]
  simp only
  rw [run_kernel _ _ _ _ _ (by simp [hl])]
  refine ⟨fun e h => (by cases h), ⟨fun _ => ⟨fun o hm => ?_, hf, hg⟩, fun _ => ⟨_, rfl⟩⟩, fun out h => ?_⟩
  · rcases List.mem_append.mp hm with hm | hm
    · exact ho o hm
    · exact hb o hm
  · cases h
    refine ⟨by simp [kernel, hl], fun i p q hp hq => ?_⟩
    obtain ⟨p', q', e1, e2, h1, h2⟩ := hg.2 i _ _ hp hq
    cases e1; cases e2
    refine ⟨?_, ?_, ?_⟩
    · unfold kernel
      simp only [List.getElem?_zipWith, List.getElem?_map, hp, hq, Option.map_some, onRow]
      rw [phaseRow_eq h1 h2]
    · exact mul_nonneg (phaseAngle_mem p q).1 (by positivity)
    · have := (phaseAngle_mem p q).2
      have hpi := Real.pi_pos
      rw [mul_div_assoc', div_le_iff₀ hpi]
      linarith

/-! ### Magnitudes -/

/-- What a row should be. -/
noncomputable def expected (H G : Option ℝ) (p q : V3) : Num :=
  match H, G with
  | some H, some G =>
    if Spec.phaseAngle p q = π then .inf
    else
      let φ := Spec.phase G (Spec.phaseAngle p q)
      if 0 < φ then .fin (H + 5 * Real.logb 10 (Spec.fromSun p * Spec.fromObserver p q) - 2.5 * Real.logb 10 φ)
      else if φ = 0 then .inf else .nan
  | _, _ => .nan

theorem cos_eq_neg_one {θ : ℝ} (h0 : 0 ≤ θ) (h1 : θ ≤ π) : Real.cos θ = -1 ↔ θ = π := by
  constructor
  · intro h
    have := Real.injOn_cos ⟨h0, h1⟩ ⟨Real.pi_pos.le, le_refl _⟩ (by rw [h, Real.cos_pi])
    exact this
  · rintro rfl; exact Real.cos_pi

theorem correctionFromCos_cos {θ : ℝ} (G : ℝ) (h0 : 0 ≤ θ) (h1 : θ < π) :
    correctionFromCos (Real.cos θ) G = mag10 (Spec.phase G θ) := by
  unfold correctionFromCos
  rw [if_neg (fun h => h1.ne ((cos_eq_neg_one h0 h1.le).mp h)), tan_half h0 h1, mixture_eq]

theorem magRow_eq {p q : V3} (H G : Option ℝ) (h1 : 0 < Spec.fromSun p) (h2 : 0 < Spec.fromObserver p q) :
    magRow H G p q = expected H G p q := by
  unfold magRow expected
  rw [fromSun_eq] at h1 ⊢
  rw [fromObserver_eq] at h2 ⊢
  obtain ⟨a0, a1⟩ := phaseAngle_mem p q
  cases H with
  | none => rfl
  | some H =>
    cases G with
    | none => rfl
    | some G =>
      simp only
      rw [cosPhase_eq h1 h2]
      split
      · rename_i h
        rw [h, Real.cos_pi]
        simp [correctionFromCos, mag10, Num.addLeft]
      · rename_i h
        rw [correctionFromCos_cos G a0 (lt_of_le_of_ne a1 h)]
        unfold mag10
        split
        · simp only [Num.addLeft]; congr 1; ring
        · split <;> rfl

/-- `calculate_apparent_magnitude_v` accepts exactly good rows with `H` and `G` of matching length (everything else is a
ValueError), and each magnitude is `H + 5 log10(r Δ) - 2.5 log10 φ(α)` for its own row: infinite where the object is
exactly between Sun and observer, NaN where `H` or `G` is or where the phase function is negative. -/
theorem C69_apparent (H G : Arg) (obj obs : Coords) :
    (∀ e, apparentV H obj obs G = .error e → e = .valueError) ∧
    ((∃ out, apparentV H obj obs G = .ok out) ↔
      GoodRows obj.rows obs.rows ∧ Fits obj.rows.length H ∧ Fits obj.rows.length G) ∧
    (∀ out, apparentV H obj obs G = .ok out → out.length = obj.rows.length ∧
      ∀ (i : Nat) (p q : V3), obj.rows[i]? = some (some p) → obs.rows[i]? = some (some q) →
        out[i]? = some (expected (H.at i) (G.at i) p q)) := by
  unfold apparentV
  by_cases hl : obs.rows.length = obj.rows.length
  swap
  · rw [if_pos hl]
    refine ⟨fun e h => by cases h; rfl, ⟨fun ⟨_, h⟩ => (by cases h), fun h => absurd h.1.1 hl⟩, fun _ h => by cases h⟩
  rw [if_neg (by simpa using hl)]
  rcases validGeometry_cases obj.rows obs.rows with hv | hv
  swap
  · rw [hv]
    refine ⟨fun e h => by cases h; rfl, ⟨fun ⟨_, h⟩ => (by cases h), fun h => ?_⟩, fun _ h => by cases h⟩
    rw [(goodRows_iff _ _).mpr h.1] at hv
    cases hv
  have hg := (goodRows_iff _ _).mp hv
  rw [hv]
  simp only
  by_cases hH : Fits obj.rows.length H
  swap
  · rw [broadcast_not _ _ hH]
    exact ⟨fun e h => by cases h; rfl, ⟨fun ⟨_, h⟩ => (by cases h), fun h => absurd h.2.1 hH⟩, fun _ h => by cases h⟩
  by_cases hG : Fits obj.rows.length G
  swap
  · obtain ⟨Hs, e, -⟩ := broadcast_fits _ _ hH
    rw [e, broadcast_not _ _ hG]
    exact ⟨fun e h => by cases h; rfl, ⟨fun ⟨_, h⟩ => (by cases h), fun h => absurd h.2.2 hG⟩, fun _ h => by cases h⟩
  obtain ⟨Hs, eH, lH, gH⟩ := broadcast_fits _ _ hH
  obtain ⟨Gs, eG, lG, gG⟩ := broadcast_fits _ _ hG
  rw [eH, eG]
  simp only
  rw [run_kernel _ _ _ _ _ (by simp [hl, lH, lG])]
  refine ⟨fun e h => (by cases h), ⟨fun _ => ⟨hg, hH, hG⟩, fun _ => ⟨_, rfl⟩⟩, fun out h => ?_⟩
  cases h
  refine ⟨by simp [kernel, hl, lH, lG], fun i p q hp hq => ?_⟩
  obtain ⟨p', q', e1, e2, h1, h2⟩ := hg.2 i _ _ hp hq
  cases e1; cases e2
  have hi : i < obj.rows.length := by
    rw [List.getElem?_eq_some_iff] at hp; exact hp.1
  have hz : (Hs.zip Gs)[i]? = some (H.at i, G.at i) := by
    rw [List.getElem?_zip_eq_some]; exact ⟨gH i hi, gG i hi⟩
  have hz2 : ((Hs.zip Gs).zip obj.rows)[i]? = some ((H.at i, G.at i), some p) := by
    rw [List.getElem?_zip_eq_some]; exact ⟨hz, hp⟩
  unfold kernel
  simp only [List.getElem?_zipWith, hz2, hq, onRow]
  rw [magRow_eq _ _ h1 h2]

/-- The combined function answers exactly what the magnitude function answers, with the phase angle of each row. -/
theorem C69_both (H G : Arg) (obj obs : Coords) :
    (∀ e, apparentVAndPhase H obj obs G = .error e ↔ apparentV H obj obs G = .error e) ∧
    ∀ m a, apparentVAndPhase H obj obs G = .ok (m, a) →
      apparentV H obj obs G = .ok m ∧ a.length = obj.rows.length ∧
      ∀ (i : Nat) (p q : V3), obj.rows[i]? = some (some p) → obs.rows[i]? = some (some q) →
        a[i]? = some (.fin (Spec.phaseAngle p q * (180 / π))) := by
  unfold apparentVAndPhase apparentV
  by_cases hl : obs.rows.length = obj.rows.length
  swap
  · rw [if_pos hl, if_pos hl]
    exact ⟨fun e => by simp, fun _ _ h => by cases h⟩
  rw [if_neg (by simpa using hl), if_neg (by simpa using hl)]
  rcases validGeometry_cases obj.rows obs.rows with hv | hv
  swap
  · rw [hv]; exact ⟨fun e => by simp, fun _ _ h => by cases h⟩
  have hg := (goodRows_iff _ _).mp hv
  rw [hv]
  simp only
  by_cases hH : Fits obj.rows.length H
  swap
  · rw [broadcast_not _ _ hH]; exact ⟨fun e => by simp, fun _ _ h => by cases h⟩
  by_cases hG : Fits obj.rows.length G
  swap
  · obtain ⟨Hs, e, -⟩ := broadcast_fits _ _ hH
    rw [e, broadcast_not _ _ hG]; exact ⟨fun e => by simp, fun _ _ h => by cases h⟩
  obtain ⟨Hs, eH, lH, gH⟩ := broadcast_fits _ _ hH
  obtain ⟨Gs, eG, lG, gG⟩ := broadcast_fits _ _ hG
  rw [eH, eG]
  simp only
  rw [run_kernel _ _ _ _ _ (by simp [hl, lH, lG]), run_kernel _ _ _ _ _ (by simp [hl, lH, lG])]
  simp only
  refine ⟨fun e => by simp, fun m a h => ?_⟩
  cases h
  refine ⟨?_, by simp [kernel, hl, lH, lG], fun i p q hp hq => ?_⟩
  · congr 1
    unfold kernel
    rw [List.map_zipWith]
    congr 1
    funext x y
    unfold onRow
    split <;> rfl
  · obtain ⟨p', q', e1, e2, h1, h2⟩ := hg.2 i _ _ hp hq
    cases e1; cases e2
    have hi : i < obj.rows.length := by
      rw [List.getElem?_eq_some_iff] at hp; exact hp.1
    have hz : (Hs.zip Gs)[i]? = some (H.at i, G.at i) := by
      rw [List.getElem?_zip_eq_some]; exact ⟨gH i hi, gG i hi⟩
    have hz2 : ((Hs.zip Gs).zip obj.rows)[i]? = some ((H.at i, G.at i), some p) := by
      rw [List.getElem?_zip_eq_some]; exact ⟨hz, hp⟩
    unfold kernel
    simp only [List.getElem?_map, List.getElem?_zipWith, hz2, hq, onRow, Option.map_some]
    rw [phaseRow_eq h1 h2]

/-! ### The phase correction -/

/-- The correction as a number where it is one. -/
def IsFin (x : Num) (v : ℝ) : Prop := x = .fin v

theorem hg_eq {α G : ℝ} (h0 : 0 ≤ α) (h1 : α < 180) :
    hgPhaseCorrection α G = mag10 (max (Spec.phase G (α * (π / 180))) 1e-12) := by
  have hpi := Real.pi_pos
  have ha0 : 0 ≤ α * (π / 180) := by positivity
  have ha1 : α * (π / 180) < π := by
    rw [mul_div_assoc', div_lt_iff₀ (by norm_num)]; nlinarith
  have e : 0.5 * (α * (π / 180)) = α * (π / 180) / 2 := by ring
  unfold hgPhaseCorrection
  simp only
  rw [e, if_neg (Real.cos_pos_of_mem_Ioo ⟨by linarith, by linarith⟩).ne', if_neg (not_lt.mpr (tan_half_nonneg ha0 ha1)),
    mixture_eq]

theorem hg_180 (G : ℝ) : hgPhaseCorrection 180 G = .fin 30 := by
  unfold hgPhaseCorrection
  simp only
  rw [show 0.5 * (180 * (π / 180)) = π / 2 by ring, Real.cos_pi_div_two, if_pos rfl, mag10_pos (by norm_num)]
  congr 1
  rw [show (1e-12 : ℝ) = 10 ^ (-12 : ℝ) by rw [Real.rpow_neg (by norm_num)]; norm_num,
    Real.logb_rpow (by norm_num) (by norm_num)]
  norm_num

/-- Zero at opposition whatever the slope. -/
theorem C69_opposition (G : ℝ) : hgPhaseCorrection 0 G = .fin 0 ∧ correctionFromCos 1 G = .fin 0 := by
  constructor
  · rw [hg_eq le_rfl (by norm_num)]
    have : Spec.phase G (0 * (π / 180)) = 1 := by
      rw [zero_mul]; unfold Spec.phase Spec.phi
      rw [zero_div, Real.tan_zero, Real.zero_rpow (by norm_num), Real.zero_rpow (by norm_num)]; simp
    rw [this, max_eq_left (by norm_num), mag10_pos one_pos, Real.logb_one, mul_zero]
  · unfold correctionFromCos
    rw [if_neg (by norm_num)]
    norm_num [mixture_zero, mag10]

/-- For slopes between 0 and 1 the correction is a number that never decreases with the phase angle: from 0 at opposition up
to at most 30 magnitudes at 180 degrees. -/
theorem C69_monotone (G α β : ℝ) (hG : 0 ≤ G) (hG' : G ≤ 1) (h0 : 0 ≤ α) (h1 : α ≤ β) (h2 : β ≤ 180) :
    ∃ a b, hgPhaseCorrection α G = .fin a ∧ hgPhaseCorrection β G = .fin b ∧ 0 ≤ a ∧ a ≤ b ∧ b ≤ 30 := by
  have hpi := Real.pi_pos
  have key : ∀ γ, 0 ≤ γ → γ ≤ 180 → ∃ x : ℝ, 1e-12 ≤ x ∧ x ≤ 1 ∧ hgPhaseCorrection γ G = .fin (-2.5 * Real.logb 10 x) ∧
      (x = if γ < 180 then max (Spec.phase G (γ * (π / 180))) 1e-12 else 1e-12) := by
    intro γ g0 g1
    by_cases hlt : γ < 180
    · have hm : mixture G (Real.tan (γ * (π / 180) / 2)) ≤ 1 := by
        rw [← mixture_zero G]
        apply mixture_antitone hG hG' le_rfl
        apply tan_half_nonneg (by positivity)
        rw [mul_div_assoc', div_lt_iff₀ (by norm_num)]; nlinarith
      rw [mixture_eq] at hm
      refine ⟨max (Spec.phase G (γ * (π / 180))) 1e-12, le_max_right _ _, max_le hm (by norm_num), ?_, by rw [if_pos hlt]⟩
      rw [hg_eq g0 hlt, mag10_pos (lt_max_of_lt_right (by norm_num))]
    · have : γ = 180 := le_antisymm g1 (not_lt.mp hlt)
      subst this
      refine ⟨1e-12, le_rfl, by norm_num, ?_, by rw [if_neg hlt]⟩
      rw [hg_180]
      congr 1
      rw [show (1e-12 : ℝ) = 10 ^ (-12 : ℝ) by rw [Real.rpow_neg (by norm_num)]; norm_num,
        Real.logb_rpow (by norm_num) (by norm_num)]
      norm_num
  obtain ⟨x, x0, x1, ex, dx⟩ := key α h0 (h1.trans h2)
  obtain ⟨y, y0, y1, ey, dy⟩ := key β (h0.trans h1) h2
  have hyx : y ≤ x := by
    by_cases hb : β < 180
    · rw [if_pos hb] at dy
      rw [if_pos (lt_of_le_of_lt h1 hb)] at dx
      rw [dx, dy]
      apply max_le_max _ le_rfl
      rw [← mixture_eq, ← mixture_eq]
      have a0 : 0 ≤ α * (π / 180) := by positivity
      have hb1 : β * (π / 180) < π := by
        rw [mul_div_assoc', div_lt_iff₀ (by norm_num)]; nlinarith
      have hab : α * (π / 180) ≤ β * (π / 180) := mul_le_mul_of_nonneg_right h1 (by positivity)
      apply mixture_antitone hG hG' (tan_half_nonneg a0 (lt_of_le_of_lt hab hb1))
      apply Real.strictMonoOn_tan.monotoneOn
      · constructor <;> linarith
      · constructor <;> linarith
      · linarith
    · rw [if_neg hb] at dy
      rw [dy]; exact x0
  have lx : 0 < x := lt_of_lt_of_le (by norm_num) x0
  have ly : 0 < y := lt_of_lt_of_le (by norm_num) y0
  refine ⟨_, _, ex, ey, ?_, ?_, ?_⟩
  · have : Real.logb 10 x ≤ 0 := Real.logb_nonpos (by norm_num) lx.le x1
    linarith
  · have : Real.logb 10 y ≤ Real.logb 10 x := Real.logb_le_logb_of_le (by norm_num) ly hyx
    linarith
  · have : Real.logb 10 (1e-12) ≤ Real.logb 10 y := Real.logb_le_logb_of_le (by norm_num) (by norm_num) y0
    rw [show (1e-12 : ℝ) = 10 ^ (-12 : ℝ) by rw [Real.rpow_neg (by norm_num)]; norm_num,
      Real.logb_rpow (by norm_num) (by norm_num)] at this
    linarith

/-- The two implementations agree below 180 degrees wherever the phase function is above the floor of 1e-12. -/
theorem C69_implementations_agree (G α : ℝ) (h0 : 0 ≤ α) (h1 : α < 180)
    (hf : 1e-12 ≤ Spec.phase G (α * (π / 180))) :
    correctionFromCos (Real.cos (α * (π / 180))) G = hgPhaseCorrection α G := by
  have hpi := Real.pi_pos
  rw [hg_eq h0 h1, max_eq_left hf, correctionFromCos_cos G (by positivity)]
  rw [mul_div_assoc', div_lt_iff₀ (by norm_num)]; nlinarith

/-- At opposition the floor is far away, so the hypothesis above is met. -/
example (G : ℝ) : (1e-12 : ℝ) ≤ Spec.phase G (0 * (π / 180)) := by
  rw [zero_mul, ← mixture_eq, zero_div, Real.tan_zero, mixture_zero]; norm_num

/-- At 180 degrees they differ: 30 magnitudes against infinity. -/
theorem C69_implementations_180 (G : ℝ) :
    hgPhaseCorrection 180 G = .fin 30 ∧ correctionFromCos (Real.cos (180 * (π / 180))) G = .inf := by
  refine ⟨hg_180 G, ?_⟩
  rw [show 180 * (π / 180) = π by ring, Real.cos_pi]
  simp [correctionFromCos, mag10]

/-! ### Scaling -/

theorem phaseAngle_smul {k : ℝ} (hk : 0 < k) (p q : V3) :
    Spec.phaseAngle (V3.smul k p) (V3.smul k q) = Spec.phaseAngle p q := by
  unfold Spec.phaseAngle
  rw [V3.toE_smul, V3.toE_smul, ← smul_zero k, ← smul_sub, ← smul_sub, InnerProductGeometry.angle_smul_left_of_pos _ _ hk,
    InnerProductGeometry.angle_smul_right_of_pos _ _ hk, smul_zero]

/-- Moving object and observer `k` times away from the Sun makes the object `10 log10 k` fainter, and a fainter `H` makes it
fainter by as much, for every slope. -/
theorem C69_scaling (H dH G k : ℝ) (hk : 0 < k) (p q : V3) (h1 : 0 < Spec.fromSun p) (h2 : 0 < Spec.fromObserver p q) (v : ℝ)
    (hv : magRow (some H) (some G) p q = .fin v) :
    magRow (some (H + dH)) (some G) (V3.smul k p) (V3.smul k q) = .fin (v + dH + 10 * Real.logb 10 k) := by
  have s1 : Spec.fromSun (V3.smul k p) = k * Spec.fromSun p := by
    rw [fromSun_eq, fromSun_eq, V3.norm_smul, abs_of_pos hk]
  have s2 : Spec.fromObserver (V3.smul k p) (V3.smul k q) = k * Spec.fromObserver p q := by
    unfold Spec.fromObserver
    rw [V3.toE_smul, V3.toE_smul, dist_smul₀, Real.norm_eq_abs, abs_of_pos hk]
  rw [magRow_eq _ _ h1 h2] at hv
  rw [magRow_eq _ _ (by rw [s1]; positivity) (by rw [s2]; positivity)]
  unfold expected at hv ⊢
  simp only at hv ⊢
  rw [phaseAngle_smul hk, s1, s2]
  split at hv
  · cases hv
  · rename_i hne
    rw [if_neg hne]
    split at hv
    · rename_i hpos
      rw [if_pos hpos]
      cases hv
      congr 1
      rw [show k * Spec.fromSun p * (k * Spec.fromObserver p q) = k * k * (Spec.fromSun p * Spec.fromObserver p q) by ring,
        Real.logb_mul (by positivity) (by positivity), Real.logb_mul hk.ne' hk.ne']
      ring
    · split at hv <;> cases hv

/-- An object at (2, 0, 0) seen from (1, 0, 0) is in opposition: `V = H + 5 log10 2`. -/
example (H : ℝ) : magRow (some H) (some 0.15) ⟨2, 0, 0⟩ ⟨1, 0, 0⟩ = .fin (H + 5 * Real.logb 10 2) := by
  have n2 : V3.norm ⟨2, 0, 0⟩ = 2 := by
    unfold V3.norm; simp only; rw [show (2 * 2 + 0 * 0 + 0 * 0 : ℝ) = 2 ^ 2 by norm_num, Real.sqrt_sq (by norm_num)]
  have n1 : V3.norm ⟨1, 0, 0⟩ = 1 := by unfold V3.norm; simp
  have nd : V3.norm (V3.sub ⟨2, 0, 0⟩ ⟨1, 0, 0⟩) = 1 := by unfold V3.norm V3.sub; norm_num
  have hc : cosPhase ⟨2, 0, 0⟩ ⟨1, 0, 0⟩ = 1 := by
    unfold cosPhase clip1; simp only; rw [n2, n1, nd]; norm_num
  unfold magRow
  simp only
  rw [hc, (C69_opposition 0.15).2, n2, nd]
  simp [Num.addLeft]

end Verif.Hg.Props
