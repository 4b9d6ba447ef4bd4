import Verif.Rot.Search
import Mathlib.Tactic.Ring
import Mathlib.Tactic.Linarith
import Mathlib.Tactic.FieldSimp
import Mathlib.Tactic.Positivity
import Mathlib.Tactic.NormNum

/-! # The grid of frequencies: C110 -/

namespace Verif.Rot.Props

open Verif

theorem linspace_length (a b : ℝ) (n : Nat) : (linspace a b n).length = n := by simp [linspace]

theorem linspace_get {a b : ℝ} {n i : Nat} (h : i < (linspace a b n).length) : (linspace a b n)[i] = a + i * ((b - a) / (n - 1)) := by
  simp [linspace]

theorem wanted_ge (g : GridParams) : 2 ≤ wanted g := le_max_right _ _

theorem count_bounds (g : GridParams) : 2 ≤ (min (wanted g) 200000).toNat ∧ (min (wanted g) 200000).toNat ≤ 200000 := by
  have := wanted_ge g
  omega

/-- C110: the grid is refused exactly if the highest frequency does not exceed the lowest. -/
theorem C110_refused {g : GridParams} (hs : 0 < g.span) (hm : 0 < g.minRotations) :
    (frequencyGrid g = .error .valueError ↔ g.maxFrequency ≤ g.minRotations / g.span ∨ ∃ h, g.maxPeriodHours = some h ∧ g.maxFrequency ≤ 24 / h) ∧
    (∀ e, frequencyGrid g = .error e → e = .valueError) := by
  have hpos : 0 < g.minRotations / g.span := div_pos hm hs
  have hf : ¬ fMin g ≤ 0 := by
    unfold fMin
    cases g.maxPeriodHours with
    | none => exact not_le.2 hpos
    | some h => exact not_le.2 (lt_max_of_lt_left hpos)
  have h2 : g.maxFrequency ≤ fMin g ↔ g.maxFrequency ≤ g.minRotations / g.span ∨ ∃ h, g.maxPeriodHours = some h ∧ g.maxFrequency ≤ 24 / h := by
    unfold fMin
    cases g.maxPeriodHours with
    | none => simp
    | some h => simp
  unfold frequencyGrid
  rw [if_neg hf, ← h2]
  by_cases h : g.maxFrequency ≤ fMin g
  · rw [if_pos h]
    exact ⟨⟨fun _ => h, fun _ => rfl⟩, fun e he => by cases he; rfl⟩
  · rw [if_neg h]
    exact ⟨⟨(fun h' => by cases h'), fun h' => absurd h' h⟩, fun e he => by cases he⟩

/-- C110: the grid has from 2 to 200000 frequencies, evenly spaced and increasing, from the lowest, which is the larger of the frequency with
the wanted rotations in the span and that of the longest period, up to the highest. -/
theorem C110_grid {g : GridParams} {l : List ℝ} (h : frequencyGrid g = .ok l) :
    2 ≤ l.length ∧ l.length ≤ 200000 ∧ l.Pairwise (· < ·) ∧
    l.head? = some (match g.maxPeriodHours with | none => g.minRotations / g.span | some p => max (g.minRotations / g.span) (24 / p)) ∧
    l.getLast? = some g.maxFrequency ∧
    ∃ step, 0 < step ∧ ∀ i (hi : i + 1 < l.length), l[i + 1] - l[i] = step := by
  unfold frequencyGrid at h
  by_cases h1 : fMin g ≤ 0
  · rw [if_pos h1] at h; cases h
  by_cases h2 : g.maxFrequency ≤ fMin g
  · rw [if_neg h1, if_pos h2] at h; cases h
  rw [if_neg h1, if_neg h2] at h
  cases h
  obtain ⟨hn, hn'⟩ := count_bounds g
  generalize (min (wanted g) 200000).toNat = n at hn hn' ⊢
  have hn1 : (0 : ℝ) < (n : ℝ) - 1 := by
    have : (2 : ℝ) ≤ n := by exact_mod_cast hn
    linarith
  have hstep : 0 < (g.maxFrequency - fMin g) / ((n : ℝ) - 1) := div_pos (by linarith [not_le.1 h2]) hn1
  refine ⟨by rwa [linspace_length], by rwa [linspace_length], ?_, ?_, ?_, _, hstep, ?_⟩
  · unfold linspace
    rw [List.pairwise_map]
    refine List.pairwise_lt_range.imp fun {i j} hij => ?_
    have : (i : ℝ) < j := by exact_mod_cast hij
    nlinarith
  · obtain ⟨m, rfl⟩ : ∃ m, n = m + 1 := ⟨n - 1, by omega⟩
    rw [linspace, List.range_succ_eq_map]
    simp
    rfl
  · obtain ⟨m, rfl⟩ : ∃ m, n = m + 1 := ⟨n - 1, by omega⟩
    rw [linspace, List.range_succ, List.map_append, List.map_singleton, List.getLast?_append]
    simp only [List.getLast?_singleton, Option.some_or, Option.some.injEq]
    push_cast at hn1 ⊢
    have : (m : ℝ) ≠ 0 := by intro h; rw [h] at hn1; norm_num at hn1
    rw [add_sub_cancel_right]
    field_simp
    ring
  · intro i hi
    rw [linspace_get, linspace_get]
    push_cast
    ring

/-- C110: the spacing is at most one cycle over `scale` in the span of the observations, unless the cap on the number of frequencies is
reported, and then it is more. -/
theorem C110_spacing {g : GridParams} {l : List ℝ} (h : frequencyGrid g = .ok l) (hs : 0 < g.span) (hc : 0 < g.scale) {i : Nat} (hi : i + 1 < l.length) :
    (wasCapped g ↔ 1 < g.scale * (g.span * (l[i + 1] - l[i]))) := by
  unfold frequencyGrid at h
  unfold wasCapped
  by_cases h1 : fMin g ≤ 0
  · rw [if_pos h1] at h; cases h
  by_cases h2 : g.maxFrequency ≤ fMin g
  · rw [if_neg h1, if_pos h2] at h; cases h
  rw [if_neg h1, if_neg h2] at h
  cases h
  have hlt := not_le.1 h2
  have hpos : 0 < g.scale * g.span * (g.maxFrequency - fMin g) := mul_pos (mul_pos hc hs) (by linarith)
  have hw : wanted g = ⌈g.scale * g.span * (g.maxFrequency - fMin g)⌉ + 1 := by
    unfold wanted
    refine max_eq_left ?_
    have : 0 < ⌈g.scale * g.span * (g.maxFrequency - fMin g)⌉ := Int.ceil_pos.2 hpos
    omega
  have hbd := count_bounds g
  rw [linspace_get, linspace_get]
  have hsimp : ∀ n : Nat, g.scale * (g.span * (fMin g + ((i + 1 : Nat) : ℝ) * ((g.maxFrequency - fMin g) / (n - 1)) -
      (fMin g + (i : ℝ) * ((g.maxFrequency - fMin g) / (n - 1))))) = g.scale * g.span * (g.maxFrequency - fMin g) / (n - 1) := by
    intro n
    push_cast
    ring
  rw [hsimp]
  generalize g.scale * g.span * (g.maxFrequency - fMin g) = x at hpos hw
  have hn1 : (0 : ℝ) < ((min (wanted g) 200000).toNat : ℝ) - 1 := by
    have : (2 : ℝ) ≤ (min (wanted g) 200000).toNat := by exact_mod_cast hbd.1
    linarith
  rw [lt_div_iff₀ hn1, one_mul]
  simp only [not_or, h1, h2, not_false_eq_true, true_and]
  constructor
  · intro hcap
    have : (min (wanted g) 200000).toNat = 200000 := by omega
    rw [this]
    have h3 : (199999 : ℤ) < ⌈x⌉ := by omega
    have := Int.lt_ceil.1 h3
    push_cast at this ⊢
    linarith
  · intro hlt'
    by_contra hcap
    have h4 : ((min (wanted g) 200000).toNat : ℤ) = ⌈x⌉ + 1 := by
      rw [hw] at hcap ⊢
      have := wanted_ge g
      omega
    have h5 : (((min (wanted g) 200000).toNat : ℤ) : ℝ) = (⌈x⌉ : ℝ) + 1 := by rw [h4]; push_cast; ring
    have h6 := Int.le_ceil x
    push_cast at h5
    rw [h5] at hlt'
    linarith

/-- C110: every frequency between the ends is within half a spacing of one of the grid. -/
theorem C110_near {g : GridParams} {l : List ℝ} (h : frequencyGrid g = .ok l) {f : ℝ}
    (hf : fMin g ≤ f) (hf' : f ≤ g.maxFrequency) : ∃ q ∈ l, ∀ i (hi : i + 1 < l.length), |f - q| ≤ (l[i + 1] - l[i]) / 2 := by
  unfold frequencyGrid at h
  by_cases h1 : fMin g ≤ 0
  · rw [if_pos h1] at h; cases h
  by_cases h2 : g.maxFrequency ≤ fMin g
  · rw [if_neg h1, if_pos h2] at h; cases h
  rw [if_neg h1, if_neg h2] at h
  cases h
  obtain ⟨hn, -⟩ := count_bounds g
  generalize (min (wanted g) 200000).toNat = n at hn ⊢
  have hn1 : (0 : ℝ) < (n : ℝ) - 1 := by
    have : (2 : ℝ) ≤ n := by exact_mod_cast hn
    linarith
  have hstep : 0 < (g.maxFrequency - fMin g) / ((n : ℝ) - 1) := div_pos (by linarith [not_le.1 h2]) hn1
  have hend : ((n : ℝ) - 1) * ((g.maxFrequency - fMin g) / ((n : ℝ) - 1)) = g.maxFrequency - fMin g := by field_simp
  have hspace : ∀ i (hi : i + 1 < (linspace (fMin g) g.maxFrequency n).length),
      (linspace (fMin g) g.maxFrequency n)[i + 1] - (linspace (fMin g) g.maxFrequency n)[i] = (g.maxFrequency - fMin g) / ((n : ℝ) - 1) := by
    intro i hi
    rw [linspace_get, linspace_get]
    push_cast
    ring
  have hmem : ∀ k < n, fMin g + (k : ℝ) * ((g.maxFrequency - fMin g) / ((n : ℝ) - 1)) ∈ linspace (fMin g) g.maxFrequency n :=
    fun k hk => List.mem_map.2 ⟨k, List.mem_range.2 hk, rfl⟩
  generalize (g.maxFrequency - fMin g) / ((n : ℝ) - 1) = s at *
  have hx : 0 ≤ (f - fMin g) / s := div_nonneg (by linarith) hstep.le
  have hxs : (f - fMin g) / s * s = f - fMin g := by field_simp
  set k := ⌊(f - fMin g) / s + 1 / 2⌋₊ with hk
  have hk1 : (k : ℝ) ≤ (f - fMin g) / s + 1 / 2 := Nat.floor_le (by linarith)
  have hk2 : (f - fMin g) / s + 1 / 2 < k + 1 := Nat.lt_floor_add_one _
  have hkn : k < n := by
    have h3 : (f - fMin g) / s ≤ (n : ℝ) - 1 := by
      rw [div_le_iff₀ hstep]
      linarith
    have : (k : ℝ) < n := by linarith
    exact_mod_cast this
  refine ⟨fMin g + k * s, ?_, fun i hi => ?_⟩
  · exact hmem k hkn
  · rw [hspace, abs_le]
    constructor <;> nlinarith

/-- C110: not so that only spans of years meet the cap: with the parameters that are the defaults every span of seven days does. -/
theorem C110_cap_false {span : ℝ} (h : 7 ≤ span) : wasCapped ⟨span, 2, 1000, 30, none⟩ := by
  have hpos : (0 : ℝ) < span := by linarith
  have hf : fMin ⟨span, 2, 1000, 30, none⟩ = 2 / span := rfl
  have h1 : 2 / span ≤ 1 := by rw [div_le_one hpos]; linarith
  refine ⟨?_, ?_⟩
  · rw [hf, not_or, not_le, not_le]
    exact ⟨by positivity, by simp only; linarith⟩
  · unfold wanted
    rw [hf]
    refine lt_max_of_lt_left ?_
    have : (199999 : ℤ) < ⌈(30 * span * (1000 - 2 / span) : ℝ)⌉ := by
      refine Int.lt_ceil.2 ?_
      have : 30 * span * (1000 - 2 / span) = 30000 * span - 60 := by field_simp; ring
      rw [this]
      push_cast
      linarith
    simp only
    omega

/-- C110: not so that the grid always resolves the frequencies: with the defaults, in a span of 201 days, neighbouring frequencies differ by
more than a whole rotation. -/
theorem C110_resolution_false {span : ℝ} (h : 201 ≤ span) {l : List ℝ} (hl : frequencyGrid ⟨span, 2, 1000, 30, none⟩ = .ok l) {i : Nat}
    (hi : i + 1 < l.length) : 1 < span * (l[i + 1] - l[i]) := by
  have hpos : (0 : ℝ) < span := by linarith
  obtain ⟨hc1, hc2⟩ := C110_cap_false (span := span) (by linarith)
  have hf : fMin ⟨span, 2, 1000, 30, none⟩ = 2 / span := rfl
  unfold frequencyGrid at hl
  rw [not_or] at hc1
  rw [if_neg hc1.1, if_neg hc1.2] at hl
  cases hl
  have hn : (min (wanted ⟨span, 2, 1000, 30, none⟩) 200000).toNat = 200000 := by omega
  rw [linspace_get, linspace_get, hn, hf]
  have : span * (2 / span + ((i + 1 : Nat) : ℝ) * ((1000 - 2 / span) / ((200000 : Nat) - 1)) - (2 / span + (i : ℝ) * ((1000 - 2 / span) / ((200000 : Nat) - 1)))) =
      (1000 * span - 2) / 199999 := by
    push_cast
    field_simp
    ring
  simp only
  rw [this, lt_div_iff₀ (by norm_num)]
  linarith

/-- Ten days, with the parameters that are the defaults: there is a grid, and the cap is reported. -/
example : (∃ l, frequencyGrid ⟨10, 2, 1000, 30, none⟩ = .ok l) ∧ wasCapped ⟨10, 2, 1000, 30, none⟩ := by
  have h : fMin ⟨10, 2, 1000, 30, none⟩ = 1 / 5 := by norm_num [fMin]
  refine ⟨⟨_, by unfold frequencyGrid; rw [if_neg (by rw [h]; norm_num), if_neg (by rw [h]; norm_num)]⟩, by rw [h]; norm_num, ?_⟩
  unfold wanted
  rw [h]
  refine lt_max_of_lt_left ?_
  have : (199999 : ℤ) < ⌈(30 * 10 * (1000 - 1 / 5) : ℝ)⌉ := Int.lt_ceil.2 (by norm_num)
  simp only
  omega

end Verif.Rot.Props
