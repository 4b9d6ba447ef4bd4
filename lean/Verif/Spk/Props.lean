import Verif.Spk.Spec
import Verif.Sched.Orbits
import Mathlib.Tactic.FieldSimp
import Mathlib.Tactic.Linarith
import Mathlib.Tactic.Ring

/-! # SPK files: the properties -/

namespace Verif.Spk.Props

open Verif Sched Spec Polynomial

theorem cheb_eval (s : ℚ) (n : Nat) : cheb s n = (Chebyshev.T ℚ (n : ℤ)).eval s := by
  induction n using cheb.induct with
  | case1 => simp [cheb]
  | case2 => simp [cheb]
  | case3 n ih1 ih2 =>
    unfold cheb
    rw [ih1, ih2]
    have : ((n + 2 : ℕ) : ℤ) = (n : ℤ) + 2 := by push_cast; ring
    rw [this, Chebyshev.T_add_two]
    simp

/-- The columns of the design matrix are the Chebyshev polynomials of the first kind. -/
theorem C67_columns (s : ℚ) (degree k : Nat) (hk : k ≤ degree) :
    (designRow s degree)[k]? = some ((Chebyshev.T ℚ (k : ℤ)).eval s) := by
  unfold designRow
  rw [List.getElem?_map, List.getElem?_range (by omega)]
  simp [cheb_eval]

theorem chebSum_eq (c : List ℚ) (x : ℚ) :
    chebSum c x = ∑ k ∈ Finset.range c.length, c.getD k 0 * (Chebyshev.T ℚ (k : ℤ)).eval x := by
  have gen : ∀ (l : List ℚ) (n : Nat), ((l.zipIdx n).map fun p => p.1 * cheb x p.2).sum =
      ∑ k ∈ Finset.range l.length, l.getD k 0 * cheb x (n + k) := by
    intro l
    induction l with
    | nil => intro n; simp
    | cons a l ih =>
      intro n
      rw [List.zipIdx_cons, List.map_cons, List.sum_cons, ih (n + 1), List.length_cons, Finset.sum_range_succ']
      simp only [List.getD_cons_succ, List.getD_cons_zero, Nat.add_zero]
      rw [add_comm]
      congr 1
      apply Finset.sum_congr rfl
      intro k _
      rw [show n + 1 + k = n + (k + 1) by omega]
  unfold chebSum
  rw [gen c 0]
  apply Finset.sum_congr rfl
  intro k _
  rw [Nat.zero_add, cheb_eval]

/-- A segment is written when the last state is later than the first, with one record per window. -/
theorem C67_written (solve : Solver) (states : List State) (start stop window : ℚ) (hw : 0 < window) (degree : Nat) :
    (start < stop → ∃ s, writeSegment solve states start stop window degree = .ok s ∧ s.start = start ∧ s.stop = stop ∧
      s.first = start ∧ s.interval = window ∧ (s.records.length : ℚ) - 1 < (stop - start) / window ∧
      (stop - start) / window ≤ s.records.length ∧ 1 ≤ s.records.length ∧
      ∀ w < s.records.length, s.records[w]? = some (fitChebyshev solve states (start + w * window)
        (min (start + (w + 1) * window) stop) degree)) ∧
    (stop ≤ start → writeSegment solve states start stop window degree = .error .indexError) := by
  constructor
  · intro h
    have hq : 0 < (stop - start) / window := div_pos (by linarith) hw
    have hc : 0 < ⌈(stop - start) / window⌉ := Int.ceil_pos.mpr hq
    have hn : ((numWindows start stop window : ℕ) : ℤ) = ⌈(stop - start) / window⌉ := Int.toNat_of_nonneg (le_of_lt hc)
    have hn' : ((numWindows start stop window : ℕ) : ℚ) = (⌈(stop - start) / window⌉ : ℚ) := by exact_mod_cast hn
    have hpos : 1 ≤ numWindows start stop window := by omega
    refine ⟨⟨start, stop, window, (List.range (numWindows start stop window)).map fun w =>
      fitChebyshev solve states (windowStart start window w) (windowEnd start stop window w) degree, start⟩, ?_, rfl, rfl, rfl,
      rfl, ?_, ?_, ?_, ?_⟩
    · unfold writeSegment
      obtain ⟨m, hm⟩ : ∃ m, numWindows start stop window = m + 1 := ⟨_, (Nat.sub_add_cancel hpos).symm⟩
      simp only [hm, List.range_succ_eq_map, List.map_cons, List.head?_cons]
    · simp only [List.length_map, List.length_range, hn']
      have := Int.ceil_lt_add_one ((stop - start) / window)
      linarith
    · simp only [List.length_map, List.length_range, hn']
      exact Int.le_ceil _
    · simpa using hpos
    · intro w hw'
      simp only [List.length_map, List.length_range] at hw'
      rw [List.getElem?_map, List.getElem?_range hw']
      simp only [Option.map_some, windowEnd, windowStart]
      rw [show start + (w : ℚ) * window + window = start + (w + 1) * window by ring]
  · intro h
    have hq : (stop - start) / window ≤ 0 := div_nonpos_of_nonpos_of_nonneg (by linarith) (le_of_lt hw)
    have hc : ⌈(stop - start) / window⌉ ≤ 0 := Int.ceil_le.mpr (by simpa using hq)
    have hn : numWindows start stop window = 0 := Int.toNat_of_nonpos hc
    unfold writeSegment
    simp [hn]

section
variable (solve : Solver) (states : List State) (start stop window : ℚ) (degree : Nat)

/-- Every time of the segment is evaluated with the record of a window that contains it. -/
theorem C67_covered (hw : 0 < window) (s : Segment) (h : writeSegment solve states start stop window degree = .ok s)
    (t : ℚ) (h1 : start ≤ t) (h2 : t ≤ stop) :
    recordOf s t < s.records.length ∧ start + recordOf s t * window ≤ t ∧
      t ≤ min (start + (recordOf s t + 1) * window) stop := by
  have hlt : start < stop := by
    by_contra hc
    rw [(C67_written solve states start stop window hw degree).2 (not_lt.mp hc)] at h
    cases h
  obtain ⟨s', h', e1, e2, e3, e4, hlo, hhi, hpos, hrec⟩ := (C67_written solve states start stop window hw degree).1 hlt
  rw [h'] at h
  cases h
  have hq : 0 ≤ (t - start) / window := div_nonneg (by linarith) (le_of_lt hw)
  have hfl : 0 ≤ ⌊(t - start) / window⌋ := Int.floor_nonneg.mpr hq
  have hk : ((⌊(t - start) / window⌋.toNat : ℕ) : ℚ) = (⌊(t - start) / window⌋ : ℚ) := by
    exact_mod_cast Int.toNat_of_nonneg hfl
  have hqe : (t - start) / window * window = t - start := div_mul_cancel₀ _ (ne_of_gt hw)
  have hfloor := Int.floor_le ((t - start) / window)
  have hfloor' := Int.lt_floor_add_one ((t - start) / window)
  unfold recordOf
  rw [e3, e4]
  rcases Nat.le_total ⌊(t - start) / window⌋.toNat (s.records.length - 1) with hle | hle
  · rw [Nat.min_eq_left hle]
    refine ⟨by omega, ?_, le_min ?_ h2⟩
    · rw [hk]
      have := mul_le_mul_of_nonneg_right hfloor (le_of_lt hw)
      linarith
    · rw [hk]
      have := mul_le_mul_of_nonneg_right (le_of_lt hfloor') (le_of_lt hw)
      linarith
  · rw [Nat.min_eq_right hle]
    have hm : ((s.records.length - 1 : ℕ) : ℚ) = (s.records.length : ℚ) - 1 := by
      rw [Nat.cast_sub hpos]; simp
    refine ⟨by omega, ?_, le_min ?_ h2⟩
    · have h3 : ((s.records.length - 1 : ℕ) : ℚ) ≤ (⌊(t - start) / window⌋.toNat : ℕ) := by exact_mod_cast hle
      rw [hk] at h3
      have := mul_le_mul_of_nonneg_right (le_trans h3 hfloor) (le_of_lt hw)
      linarith
    · rw [hm]
      have := mul_le_mul_of_nonneg_right hhi (le_of_lt hw)
      rw [div_mul_cancel₀ _ (ne_of_gt hw)] at this
      linarith

/-- What SPICE returns: the polynomial of the window, at the time stretched from the full to the actual window length. -/
theorem evaluates (hw : 0 < window) (s : Segment) (h : writeSegment solve states start stop window degree = .ok s)
    (t : ℚ) (h1 : start ≤ t) (h2 : t ≤ stop) (i : Fin 6) :
    ∃ c, s.records[recordOf s t]? = some c ∧
      c = fitChebyshev solve states (start + recordOf s t * window) (min (start + (recordOf s t + 1) * window) stop) degree ∧
      evaluate s t i = ∑ k ∈ Finset.range (c i).length, (c i).getD k 0 *
        (Chebyshev.T ℚ (k : ℤ)).eval ((t - (start + (recordOf s t + 1 / 2) * window)) / (window / 2)) := by
  obtain ⟨hr, _, _⟩ := C67_covered solve states start stop window degree hw s h t h1 h2
  have hlt : start < stop := by
    by_contra hc
    rw [(C67_written solve states start stop window hw degree).2 (not_lt.mp hc)] at h
    cases h
  obtain ⟨s', h', e1, e2, e3, e4, hlo, hhi, hpos, hrec⟩ := (C67_written solve states start stop window hw degree).1 hlt
  rw [h'] at h
  cases h
  refine ⟨_, hrec _ hr, rfl, ?_⟩
  unfold evaluate
  rw [hrec _ hr]
  simp only
  rw [chebSum_eq, e3, e4]

/-- In a window of full length the segment evaluates to the polynomial fitted there. -/
theorem C67_full (hw : 0 < window) (s : Segment)
    (h : writeSegment solve states start stop window degree = .ok s) (t : ℚ) (h1 : start ≤ t) (h2 : t ≤ stop) (i : Fin 6)
    (hfull : start + (recordOf s t + 1) * window ≤ stop) :
    evaluate s t i = fitted (fitChebyshev solve states (start + recordOf s t * window)
      (start + (recordOf s t + 1) * window) degree i) (start + recordOf s t * window) (start + (recordOf s t + 1) * window) t := by
  obtain ⟨c, hc, hce, he⟩ := evaluates solve states start stop window degree hw s h t h1 h2 i
  rw [min_eq_left hfull] at hce
  rw [he, hce]
  unfold fitted
  apply Finset.sum_congr rfl
  intro k _
  congr 2
  have hden : start + ((recordOf s t : ℚ) + 1) * window - (start + (recordOf s t : ℚ) * window) = window := by ring
  rw [hden]
  have hw' := ne_of_gt hw
  field_simp
  ring

/-- When the windows fill the time span exactly, this holds at every time of the segment. -/
theorem C67_exact (hw : 0 < window) (n : Nat) (hn : stop = start + n * window) (s : Segment)
    (h : writeSegment solve states start stop window degree = .ok s) (t : ℚ) (h1 : start ≤ t) (h2 : t ≤ stop) (i : Fin 6) :
    ∃ k : Nat, k < n ∧ start + k * window ≤ t ∧ t ≤ start + (k + 1) * window ∧
      evaluate s t i = fitted (fitChebyshev solve states (start + k * window) (start + (k + 1) * window) degree i)
        (start + k * window) (start + (k + 1) * window) t := by
  obtain ⟨hr, hlo, hhi⟩ := C67_covered solve states start stop window degree hw s h t h1 h2
  have hlt : start < stop := by
    by_contra hc
    rw [(C67_written solve states start stop window hw degree).2 (not_lt.mp hc)] at h
    cases h
  have hlen : s.records.length ≤ n := by
    obtain ⟨s', h', e1, e2, e3, e4, hl, hh, hpos, hrec⟩ := (C67_written solve states start stop window hw degree).1 hlt
    rw [h'] at h
    cases h
    have : (stop - start) / window = n := by rw [hn]; field_simp; ring
    rw [this] at hl
    have : ((s.records.length : ℕ) : ℚ) < (n : ℚ) + 1 := by linarith
    have : s.records.length < n + 1 := by exact_mod_cast this
    omega
  have hkn : recordOf s t < n := by omega
  have hfull : start + (recordOf s t + 1) * window ≤ stop := by
    rw [hn]
    have : ((recordOf s t : ℕ) : ℚ) + 1 ≤ n := by exact_mod_cast hkn
    have := mul_le_mul_of_nonneg_right this (le_of_lt hw)
    linarith
  exact ⟨recordOf s t, hkn, hlo, le_trans hhi (min_le_left _ _),
    C67_full solve states start stop window degree hw s h t h1 h2 i hfull⟩

/-- In the last, shorter window it evaluates to that polynomial at another time: the distance from the start of the window
is shrunk by the ratio of the lengths. -/
theorem C67_last (hw : 0 < window) (s : Segment) (h : writeSegment solve states start stop window degree = .ok s) (t : ℚ)
    (h1 : start ≤ t) (h2 : t ≤ stop) (i : Fin 6) (hlast : stop < start + (recordOf s t + 1) * window)
    (hne : start + recordOf s t * window < stop) :
    evaluate s t i = fitted (fitChebyshev solve states (start + recordOf s t * window) stop degree i)
      (start + recordOf s t * window) stop (start + recordOf s t * window +
        (t - (start + recordOf s t * window)) * ((stop - (start + recordOf s t * window)) / window)) := by
  obtain ⟨c, hc, hce, he⟩ := evaluates solve states start stop window degree hw s h t h1 h2 i
  rw [min_eq_right (le_of_lt hlast)] at hce
  rw [he, hce]
  unfold fitted
  apply Finset.sum_congr rfl
  intro k _
  congr 2
  have : stop - (start + (recordOf s t : ℚ) * window) ≠ 0 := by
    intro hz
    linarith
  have hmid : t - (start + ((recordOf s t : ℚ) + 1 / 2) * window) = t - (start + (recordOf s t : ℚ) * window) - window / 2 := by
    ring
  rw [hmid]
  generalize start + (recordOf s t : ℚ) * window = a at *
  have hw' := ne_of_gt hw
  field_simp
  ring

theorem zip_cheb (c : List ℚ) (x : ℚ) (degree : Nat) (h : c.length = degree + 1) :
    ((c.zip (designRow x degree)).map fun p => p.1 * p.2).sum = chebSum c x := by
  unfold chebSum designRow
  rw [List.zipIdx_eq_zip_range', List.zip_map_right, List.map_map, ← h, List.range_eq_range']
  rfl

theorem designRow_eq (x : ℚ) (degree : Nat) :
    designRow x degree = (List.range (degree + 1)).map fun k : Nat => (Chebyshev.T ℚ (k : ℤ)).eval x := by
  unfold designRow
  exact List.map_congr_left fun k _ => cheb_eval x k

theorem toKm_eq (v : Fin 6 → ℚ) (i : Fin 6) : toKm v i = inKm v i := by
  unfold toKm inKm
  split
  · norm_num
  · ring

/-- The least-squares problem solved for a window. -/
theorem C67_problem (lo hi : ℚ) (h : lo < hi) (i : Fin 6) :
    fitChebyshev solve states lo hi degree i = solve (rowsOf states lo hi degree) (valuesOf states lo hi i) := by
  unfold fitChebyshev rowsOf valuesOf inside
  simp only [designRow_eq, toKm_eq]
  have hf : (states.filter fun s => decide (lo ≤ s.time) && decide (s.time ≤ hi)) =
      states.filter fun s => decide (lo ≤ s.time ∧ s.time ≤ hi) := by
    apply List.filter_congr
    intro s _
    rw [Bool.decide_and]
  rw [hf]
  congr 1
  apply List.map_congr_left
  intro s _
  have hne : hi - lo ≠ 0 := by intro hz; linarith
  have : (s.time - (hi + lo) / 2) / ((hi - lo) / 2) = (2 * s.time - lo - hi) / (hi - lo) := by
    field_simp
    ring
  rw [this]

/-- If the least-squares fit of its window leaves no residual, SPICE returns the propagated state (in km and km/s), provided
the window has full length. -/
theorem C67_states (hw : 0 < window) (s : Segment)
    (h : writeSegment solve states start stop window degree = .ok s) (st : State) (hst : st ∈ states) (h1 : start ≤ st.time)
    (h2 : st.time ≤ stop) (hfull : start + (recordOf s st.time + 1) * window ≤ stop) (i : Fin 6)
    (hsolve : Reproduces solve
      (rowsOf states (start + recordOf s st.time * window) (start + (recordOf s st.time + 1) * window) degree)
      (valuesOf states (start + recordOf s st.time * window) (start + (recordOf s st.time + 1) * window) i)) :
    evaluate s st.time i = inKm st.values i := by
  obtain ⟨hr, hlo, hhi⟩ := C67_covered solve states start stop window degree hw s h st.time h1 h2
  rw [min_eq_left hfull] at hhi
  have hlt : start + (recordOf s st.time : ℚ) * window < start + ((recordOf s st.time : ℚ) + 1) * window := by linarith
  rw [C67_full solve states start stop window degree hw s h st.time h1 h2 i hfull,
    C67_problem solve states degree _ _ hlt i]
  generalize start + (recordOf s st.time : ℚ) * window = lo at *
  generalize start + ((recordOf s st.time : ℚ) + 1) * window = hi at *
  have hin : st ∈ inside states lo hi := List.mem_filter.mpr ⟨hst, by simp [hlo, hhi]⟩
  obtain ⟨k, hk, hke⟩ := List.getElem_of_mem hin
  obtain ⟨hlen, hsum⟩ := hsolve k (designRow ((2 * st.time - lo - hi) / (hi - lo)) degree) (inKm st.values i)
    (by
      unfold rowsOf
      rw [List.getElem?_map, List.getElem?_eq_getElem hk, hke, designRow_eq]
      rfl)
    (by
      unfold valuesOf
      rw [List.getElem?_map, List.getElem?_eq_getElem hk, hke]
      rfl)
  rw [zip_cheb _ _ degree (by rw [hlen]; simp [designRow]), chebSum_eq] at hsum
  exact hsum

end

/-- Two states at the ends of one window and a solver through two points: the hypotheses of `C67_states` are met. -/
example : ∃ s, writeSegment (fun _ b => [(b.getD 0 0 + b.getD 1 0) / 2, (b.getD 1 0 - b.getD 0 0) / 2])
      [⟨0, fun _ => 3⟩, ⟨10, fun _ => 7⟩] 0 10 10 1 = .ok s ∧ 0 + ((recordOf s 10 : ℕ) + 1 : ℚ) * 10 ≤ 10 ∧
    Reproduces (fun _ b => [(b.getD 0 0 + b.getD 1 0) / 2, (b.getD 1 0 - b.getD 0 0) / 2])
      (rowsOf [⟨0, fun _ => 3⟩, ⟨10, fun _ => 7⟩] 0 10 1) (valuesOf [⟨0, fun _ => 3⟩, ⟨10, fun _ => 7⟩] 0 10 0) := by
  obtain ⟨s, hs, e1, e2, e3, e4, hlo, hhi, hpos, hrec⟩ := (C67_written
    (fun _ b => [(b.getD 0 0 + b.getD 1 0) / 2, (b.getD 1 0 - b.getD 0 0) / 2])
    [⟨0, fun _ => 3⟩, ⟨10, fun _ => 7⟩] 0 10 10 (by norm_num) 1).1 (by norm_num)
  refine ⟨s, hs, ?_, ?_⟩
  · have h1 : ((s.records.length : ℕ) : ℚ) < 2 := by linarith
    have h2 : s.records.length < 2 := by exact_mod_cast h1
    have : recordOf s 10 = 0 := by unfold recordOf; omega
    rw [this]
    norm_num
  · have hr : rowsOf [⟨0, fun _ => 3⟩, ⟨10, fun _ => 7⟩] 0 10 1 = [[1, -1], [1, 1]] := by
      unfold rowsOf inside
      norm_num [List.range_succ, List.filter]
    have hv : valuesOf [⟨0, fun _ => 3⟩, ⟨10, fun _ => 7⟩] 0 10 0 = [3 * 149597870.7, 7 * 149597870.7] := by
      decide +kernel
    rw [hr, hv]
    intro k row y hk hy
    match k with
    | 0 => cases hk; cases hy; norm_num
    | 1 => cases hk; cases hy; norm_num
    | k + 2 => simp at hk

theorem fitted_linear (a b lo hi u : ℚ) : fitted [a, b] lo hi u = a + b * ((2 * u - lo - hi) / (hi - lo)) := by
  unfold fitted
  simp [Finset.sum_range_succ]

def solveExample : Solver := fun rows _ => if rows.length = 2 then [5, 5] else [25 / 2, 5 / 2]

def statesExample : List State :=
  [⟨0, fun _ => 0⟩, ⟨5, fun _ => 5⟩, ⟨11, fun _ => 11⟩, ⟨13, fun _ => 13⟩, ⟨15, fun _ => 15⟩]

theorem fit_first : fitChebyshev solveExample statesExample 0 10 1 = fun _ => [5, 5] := by
  funext i
  unfold fitChebyshev solveExample
  rw [if_pos (by rw [List.length_map]; decide +kernel)]

theorem fit_second : fitChebyshev solveExample statesExample 10 15 1 = fun _ => [25 / 2, 5 / 2] := by
  funext i
  unfold fitChebyshev solveExample
  rw [if_neg (by rw [List.length_map]; decide +kernel)]

/-- The last window is misread: uniform motion over one and a half windows, with exact fits. -/
theorem C67_last_false :
    ¬ ∀ (solve : Solver) (states : List State) (start stop window : ℚ) (degree : Nat) (s : Segment) (t : ℚ) (i : Fin 6),
      0 < window → writeSegment solve states start stop window degree = .ok s → start ≤ t → t ≤ stop →
      (∀ w < s.records.length, ∀ c, s.records[w]? = some c → ∀ u,
        fitted (c i) (start + w * window) (min (start + (w + 1) * window) stop) u = u) →
      evaluate s t i = t := by
  intro h
  obtain ⟨s, hs, e1, e2, e3, e4, hlo, hhi, hpos, hrec⟩ :=
    (C67_written solveExample statesExample 0 15 10 (by norm_num) 1).1 (by norm_num)
  have hlen : s.records.length = 2 := by
    have h1 : ((s.records.length : ℕ) : ℚ) < 3 := by linarith
    have h2 : (1 : ℚ) < (s.records.length : ℕ) := by linarith
    have h1' : s.records.length < 3 := by exact_mod_cast h1
    have h2' : 1 < s.records.length := by exact_mod_cast h2
    omega
  have hm0 : min ((0 : ℚ) + ((0 : ℕ) + 1) * 10) 15 = 10 := by norm_num
  have hm1 : min ((0 : ℚ) + ((1 : ℕ) + 1) * 10) 15 = 15 := by norm_num
  have hl0 : (0 : ℚ) + ((0 : ℕ) : ℚ) * 10 = 0 := by norm_num
  have hl1 : (0 : ℚ) + ((1 : ℕ) : ℚ) * 10 = 10 := by norm_num
  have key := h solveExample statesExample 0 15 10 1 s 15 0 (by norm_num) hs (by norm_num) (le_refl _) (by
    intro w hw c hc u
    rw [hlen] at hw
    have hcase : w = 0 ∨ w = 1 := by omega
    rcases hcase with rfl | rfl
    · rw [hrec 0 (by omega), hm0, hl0, fit_first] at hc
      cases hc
      rw [hm0, hl0, fitted_linear]
      ring
    · rw [hrec 1 (by omega), hm1, hl1, fit_second] at hc
      cases hc
      rw [hm1, hl1, fitted_linear]
      ring)
  obtain ⟨hr, _, hc⟩ := C67_covered solveExample statesExample 0 15 10 1 (by norm_num) s hs 15 (by norm_num) (le_refl _)
  have hone : recordOf s 15 = 1 := by
    have h1 : (15 : ℚ) ≤ 0 + ((recordOf s 15 : ℕ) + 1) * 10 := le_trans hc (min_le_left _ _)
    have h2 : (0 : ℚ) < (recordOf s 15 : ℕ) := by linarith
    have h3 : 0 < recordOf s 15 := by exact_mod_cast h2
    omega
  have hl := C67_last solveExample statesExample 0 15 10 1 (by norm_num) s hs 15 (by norm_num) (le_refl _) 0
    (by rw [hone]; norm_num) (by rw [hone]; norm_num)
  rw [hone, hl1, fit_second] at hl
  rw [fitted_linear] at hl
  rw [key] at hl
  norm_num at hl

/-- The segment of an orbit with states at more than one time spans exactly from its first to its last state, whatever the
order of the rows, and uses windows of the requested length. -/
theorem C67_orbit (solve : Solver) (states : List State) (windowDays : ℚ) (hw : 0 < windowDays) (a b : State)
    (ha : a ∈ states) (hb : b ∈ states) (hab : a.time < b.time) :
    ∃ s, writeOrbit solve states windowDays = .ok s ∧ s.interval = windowDays * 86400 ∧
      (∃ st ∈ states, st.time = s.start) ∧ (∃ st ∈ states, st.time = s.stop) ∧
      ∀ st ∈ states, s.start ≤ st.time ∧ st.time ≤ s.stop := by
  have hperm := sortBy_perm State.time states
  have hsort := sortBy_sorted State.time states
  unfold writeOrbit
  simp only
  generalize sortBy State.time states = l at hperm hsort
  have hl : l ≠ [] := by
    rintro rfl
    rw [← hperm.mem_iff] at ha
    cases ha
  have hhead : ∀ st ∈ l, (l.head hl).time ≤ st.time := by
    obtain ⟨x, l', rfl⟩ := List.exists_cons_of_ne_nil hl
    intro st hst
    rcases List.mem_cons.mp hst with rfl | hst
    · exact le_refl _
    · exact (List.pairwise_cons.mp hsort).1 st hst
  have hlast : ∀ st ∈ l, st.time ≤ (l.getLast hl).time := by
    intro st hst
    have happ := List.dropLast_append_getLast hl
    rw [← happ] at hst hsort
    rcases List.mem_append.mp hst with hst | hst
    · exact (List.pairwise_append.mp hsort).2.2 st hst _ (by simp)
    · rw [List.mem_singleton.mp hst]
  rw [List.head?_eq_some_head hl, List.getLast?_eq_some_getLast hl]
  simp only
  have h1 := hhead a (hperm.mem_iff.mpr ha)
  have h2 := hlast b (hperm.mem_iff.mpr hb)
  obtain ⟨s, hs, e1, e2, e3, e4, _⟩ := (C67_written solve l (l.head hl).time (l.getLast hl).time (windowDays * 86400)
    (by linarith) 15).1 (by linarith)
  refine ⟨s, hs, e4, ⟨_, hperm.mem_iff.mp (List.head_mem hl), e1.symm⟩,
    ⟨_, hperm.mem_iff.mp (List.getLast_mem hl), e2.symm⟩, ?_⟩
  intro st hst
  rw [e1, e2]
  exact ⟨hhead st (hperm.mem_iff.mpr hst), hlast st (hperm.mem_iff.mpr hst)⟩

/-- Orbits get different target ids, numbered from the first on. -/
theorem C67_targets {I : Type} [DecidableEq I] (orbitIds : List I) (start : Int) :
    (∀ id, id ∈ orbitIds ↔ ∃ n, (id, n) ∈ targetIds orbitIds start) ∧
    (∀ a b n, (a, n) ∈ targetIds orbitIds start → (b, n) ∈ targetIds orbitIds start → a = b) ∧
    (∀ a m n, (a, m) ∈ targetIds orbitIds start → (a, n) ∈ targetIds orbitIds start → m = n) ∧
    ∀ a n, (a, n) ∈ targetIds orbitIds start → start ≤ n ∧ n < start + orbitIds.length := by
  have hm : ∀ a n, (a, n) ∈ targetIds orbitIds start ↔ ∃ k : Nat, (uniq orbitIds)[k]? = some a ∧ n = start + k := by
    intro a n
    unfold targetIds
    rw [List.mem_map]
    constructor
    · rintro ⟨⟨b, k⟩, hp, he⟩
      rw [List.mk_mem_zipIdx_iff_getElem?] at hp
      cases he
      exact ⟨k, hp, rfl⟩
    · rintro ⟨k, hk, rfl⟩
      exact ⟨(a, k), by rw [List.mk_mem_zipIdx_iff_getElem?]; exact hk, rfl⟩
  have hnd := nodup_uniq orbitIds
  refine ⟨?_, ?_, ?_, ?_⟩
  · intro id
    rw [← mem_uniq]
    constructor
    · intro h
      obtain ⟨k, hk, he⟩ := List.getElem_of_mem h
      exact ⟨start + k, (hm _ _).mpr ⟨k, by rw [List.getElem?_eq_getElem hk, he], rfl⟩⟩
    · rintro ⟨n, hn⟩
      obtain ⟨k, hk, _⟩ := (hm _ _).mp hn
      exact List.mem_of_getElem? hk
  · intro a b n ha hb
    obtain ⟨k, hk, e1⟩ := (hm _ _).mp ha
    obtain ⟨k', hk', e2⟩ := (hm _ _).mp hb
    have : k = k' := by omega
    subst this
    rw [hk] at hk'
    exact Option.some.inj hk'
  · intro a m n ha hb
    obtain ⟨k, hk, e1⟩ := (hm _ _).mp ha
    obtain ⟨k', hk', e2⟩ := (hm _ _).mp hb
    have hlt : k < (uniq orbitIds).length := (List.getElem?_eq_some_iff.mp hk).1
    have := (List.getElem?_inj hlt hnd).mp (hk.trans hk'.symm)
    omega
  · intro a n ha
    obtain ⟨k, hk, e1⟩ := (hm _ _).mp ha
    have hlt : k < (uniq orbitIds).length := (List.getElem?_eq_some_iff.mp hk).1
    have hle : (uniq orbitIds).length ≤ orbitIds.length :=
      (List.subperm_of_subset hnd fun x hx => (mem_uniq orbitIds x).mp hx).length_le
    omega

example : targetIds ["b", "a", "b"] 1000000 = [("b", 1000000), ("a", 1000001)] := by decide +kernel

end Verif.Spk.Props
