import Verif.Porkchop.PlotLemmas
import Verif.Porkchop.Props

/-! # C185: the porkchop plot -/

namespace Verif.Porkchop.PlotProps

open Classical Verif Porkchop

/-! ## Specification -/

/-- A solved row, its C3 at departure in km²/s² and its V∞ at arrival in km/s. -/
def Energy (u : Units.Consts ℝ) (s : Solution) (c v : ℝ) : Prop :=
  ∃ v1 v2, s.v = some (v1, v2) ∧ c = (V3.norm (V3.sub v1 s.dep.v) * (u.kmPerAu / u.secondsPerDay)) ^ 2 ∧
    v = V3.norm (V3.sub v2 s.arr.v) * (u.kmPerAu / u.secondsPerDay)

/-- Within the limits given; the lower one is zero if not given. -/
def Within (lo hi : Option ℝ) (x : ℝ) : Prop := lo.getD 0 ≤ x ∧ ∀ h, hi = some h → x ≤ h

/-- A row that belongs on the plot, with its C3 and V∞. -/
def Drawn (u : Units.Consts ℝ) (L : Limits) (s : Solution) (c v : ℝ) : Prop :=
  Energy u s c v ∧ Within L.c3Min L.c3Max c ∧ Within L.vinfMin L.vinfMax v ∧ Within L.tofMin L.tofMax (mjd s.arr - mjd s.dep)

/-- The last row that belongs at the departure date `d` and arrival date `a`, with its C3 and V∞. -/
def LastAt (u : Units.Consts ℝ) (L : Limits) (rows : List Solution) (d a c v : ℝ) : Prop :=
  ∃ pre s post, rows = pre ++ s :: post ∧ Drawn u L s c v ∧ mjd s.dep = d ∧ mjd s.arr = a ∧
    ∀ t ∈ post, mjd t.dep = d → mjd t.arr = a → ∀ c v, ¬ Drawn u L t c v

/-- The range of C3 is not empty; without an upper limit, every row is solved. -/
def C3Range (u : Units.Consts ℝ) (L : Limits) (rows : List Solution) : Prop :=
  (∀ h, L.c3Max = some h → L.c3Min.getD 0 < h) ∧
  (L.c3Max = none → (∀ s ∈ rows, s.v ≠ none) ∧ ∃ s ∈ rows, ∃ c v, Energy u s c v ∧ L.c3Min.getD 0 < c)

/-- The range of V∞ is not empty; without an upper limit, every row is solved. -/
def VinfRange (u : Units.Consts ℝ) (L : Limits) (rows : List Solution) : Prop :=
  (∀ h, L.vinfMax = some h → L.vinfMin.getD 0 < h) ∧
  (L.vinfMax = none → (∀ s ∈ rows, s.v ≠ none) ∧ ∃ s ∈ rows, ∃ c v, Energy u s c v ∧ L.vinfMin.getD 0 < v)

/-! ## The filter -/

theorem speeds_iff (u : Units.Consts ℝ) (s : Solution) (c v : ℝ) : speeds u s = some (c, v) ↔ Energy u s c v := by
  unfold speeds Energy c3 vinf Units.auDayToKmS
  cases hv : s.v with
  | none => simp
  | some w =>
    obtain ⟨v1, v2⟩ := w
    simp only [Option.map_some, Option.bind_some, Option.some.injEq, Prod.mk.injEq]
    constructor
    · rintro ⟨rfl, rfl⟩
      exact ⟨v1, v2, ⟨rfl, rfl⟩, by ring, by ring⟩
    · rintro ⟨a, b, ⟨rfl, rfl⟩, rfl, rfl⟩
      exact ⟨by ring, by ring⟩

theorem speeds_none (u : Units.Consts ℝ) (s : Solution) : speeds u s = none ↔ s.v = none := by
  unfold speeds c3 vinf
  cases hv : s.v <;> simp

theorem upper_le {given : Option ℝ} {values : List (Option ℝ)} {m x : ℝ} (h : upper given values = .ok (some m)) (hx : some x ∈ values) :
    x ≤ m ↔ ∀ g, given = some g → x ≤ g := by
  cases given with
  | some g =>
    simp only [upper, Except.ok.injEq, Option.some.injEq] at h
    subst h
    simp
  | none =>
    simp only [upper] at h
    rcases npMax_cases values with ⟨-, e⟩ | ⟨-, e⟩ | ⟨-, m', e, h1, -⟩
    · rw [e] at h; cases h
    · rw [e] at h; cases h
    · rw [e] at h
      simp only [Except.ok.injEq, Option.some.injEq] at h
      subst h
      simp [h1 x hx]

theorem checked_ok {lo m : ℝ} {hi : Option ℝ} : checked lo hi = .ok m ↔ hi = some m ∧ lo < m := by
  cases hi with
  | none => simp [checked]
  | some h =>
    simp only [checked]
    split
    · rename_i hl
      simp only [Except.ok.injEq, Option.some.injEq]
      exact ⟨fun e => ⟨e, e ▸ hl⟩, And.left⟩
    · rename_i hl
      simp only [reduceCtorEq, Option.some.injEq, false_iff]
      rintro ⟨rfl, h⟩
      exact hl h

theorem checked_err {lo : ℝ} {hi : Option ℝ} {e : PyErr} : checked lo hi = .error e ↔ e = .assertionError ∧ ∀ m, hi = some m → m ≤ lo := by
  cases hi with
  | none => simp [checked, eq_comm]
  | some h =>
    simp only [checked]
    split
    · rename_i hl
      simp [hl]
    · rename_i hl
      simp [not_lt.mp hl, eq_comm]

/-- A range and its upper limit. -/
theorem range_ok (given : Option ℝ) (lo : ℝ) (values : List (Option ℝ)) :
    (∃ m, upper given values = .ok (some m) ∧ lo < m) ↔
    (∀ h, given = some h → lo < h) ∧ (given = none → none ∉ values ∧ ∃ x, some x ∈ values ∧ lo < x) := by
  cases given with
  | some g => simp [upper]
  | none =>
    simp only [upper, reduceCtorEq, false_implies, implies_true, true_and, forall_const]
    rcases npMax_cases values with ⟨rfl, e⟩ | ⟨h, e⟩ | ⟨h, m', e, h1, h2⟩
    · simp [e]
    · simp [e, h]
    · simp only [e, Except.ok.injEq, Option.some.injEq]
      constructor
      · rintro ⟨m, rfl, hl⟩
        exact ⟨h, m', h2, hl⟩
      · rintro ⟨-, x, hx, hl⟩
        exact ⟨m', rfl, hl.trans_le (h1 x hx)⟩

theorem upper_err {given : Option ℝ} {values : List (Option ℝ)} {e : PyErr} :
    upper given values = .error e ↔ e = .valueError ∧ given = none ∧ values = [] := by
  cases given with
  | some g => simp [upper]
  | none =>
    simp only [upper]
    rcases npMax_cases values with ⟨rfl, h⟩ | ⟨h0, h⟩ | ⟨h0, m', h, h1, h2⟩
    · simp [h, eq_comm]
    · rw [h]
      simp only [reduceCtorEq, true_and, false_iff]
      rintro ⟨-, rfl⟩
      simp at h0
    · rw [h]
      simp only [reduceCtorEq, true_and, false_iff]
      rintro ⟨-, rfl⟩
      simp at h2

variable {u : Units.Consts ℝ} {L : Limits} {S : Solutions}

/-- What is drawn, from the limits in force. -/
theorem plot_ok {f : Figure} (h : plot u L S = .ok f) :
    ∃ w : Window, w.c3Min = L.c3Min.getD 0 ∧ w.vinfMin = L.vinfMin.getD 0 ∧ w.tofMin = L.tofMin.getD 0 ∧
      upper L.c3Max (S.rows.map fun s => (speeds u s).map Prod.fst) = .ok (some w.c3Max) ∧ w.c3Min < w.c3Max ∧
      upper L.vinfMax (S.rows.map fun s => (speeds u s).map Prod.snd) = .ok (some w.vinfMax) ∧ w.vinfMin < w.vinfMax ∧
      upper L.tofMax (S.rows.map fun s => some (timeOfFlight s)) = .ok (some w.tofMax) ∧
      f = figure L (S.rows.filterMap (point u w)) := by
  unfold plot at h
  simp only [bind, Except.bind] at h
  split at h
  · cases h
  rename_i o1 e1
  split at h
  · cases h
  rename_i m1 e2
  split at h
  · cases h
  rename_i o2 e3
  split at h
  · cases h
  rename_i o3 e4
  split at h
  · cases h
  rename_i m2 e5
  split at h
  · cases h
  obtain ⟨rfl, l1⟩ := checked_ok.mp e2
  obtain ⟨rfl, l2⟩ := checked_ok.mp e5
  obtain ⟨m3, rfl⟩ : ∃ m, o3 = some m := by
    cases o3 with
    | some m => exact ⟨m, rfl⟩
    | none =>
      exfalso
      cases hg : L.tofMax with
      | some g => rw [hg] at e4; simp [upper] at e4
      | none =>
        rw [hg] at e4
        simp only [upper] at e4
        rcases npMax_cases (S.rows.map fun s => some (timeOfFlight s)) with ⟨-, h0⟩ | ⟨h0, -⟩ | ⟨-, m, h0, -⟩
        · rw [h0] at e4; cases e4
        · simp at h0
        · rw [h0] at e4; cases e4
  refine ⟨⟨L.c3Min.getD 0, m1, L.vinfMin.getD 0, m2, L.tofMin.getD 0, m3⟩, rfl, rfl, rfl, e1, l1, e3, l2, e4, ?_⟩
  simp only [Option.getD_some, Except.ok.injEq] at h
  exact h.symm

theorem drawn_iff {w : Window} (h1 : w.c3Min = L.c3Min.getD 0) (h2 : w.vinfMin = L.vinfMin.getD 0) (h3 : w.tofMin = L.tofMin.getD 0)
    (h4 : upper L.c3Max (S.rows.map fun s => (speeds u s).map Prod.fst) = .ok (some w.c3Max))
    (h5 : upper L.vinfMax (S.rows.map fun s => (speeds u s).map Prod.snd) = .ok (some w.vinfMax))
    (h6 : upper L.tofMax (S.rows.map fun s => some (timeOfFlight s)) = .ok (some w.tofMax))
    {s : Solution} (hs : s ∈ S.rows) (p : Point) :
    point u w s = some p ↔ ∃ c v, Drawn u L s c v ∧ p = ⟨mjd s.dep, mjd s.arr, c, v, mjd s.arr - mjd s.dep⟩ := by
  have key : ∀ c v, speeds u s = some (c, v) →
      ((c ≤ w.c3Max ∧ w.c3Min ≤ c ∧ w.vinfMin ≤ v ∧ v ≤ w.vinfMax ∧ w.tofMin ≤ timeOfFlight s ∧ timeOfFlight s ≤ w.tofMax) ↔
        Within L.c3Min L.c3Max c ∧ Within L.vinfMin L.vinfMax v ∧ Within L.tofMin L.tofMax (mjd s.arr - mjd s.dep)) := by
    intro c v e
    have k1 := upper_le (x := c) h4 (List.mem_map.mpr ⟨s, hs, by rw [e]; rfl⟩)
    have k2 := upper_le (x := v) h5 (List.mem_map.mpr ⟨s, hs, by rw [e]; rfl⟩)
    have k3 := upper_le (x := timeOfFlight s) h6 (List.mem_map.mpr ⟨s, hs, rfl⟩)
    unfold Within
    rw [k1, k2, k3, h1, h2, h3]
    unfold timeOfFlight
    tauto
  unfold point
  cases e : speeds u s with
  | none =>
    simp only [reduceCtorEq, false_iff]
    rintro ⟨c, v, hd, -⟩
    rw [(speeds_iff u s c v).mpr hd.1] at e
    cases e
  | some cv =>
    obtain ⟨c, v⟩ := cv
    have k := key c v e
    have he := (speeds_iff u s c v).mp e
    have huniq : ∀ c' v', Energy u s c' v' → c' = c ∧ v' = v := fun c' v' h' => by
      have := (speeds_iff u s c' v').mpr h'
      rw [e] at this
      simp only [Option.some.injEq, Prod.mk.injEq] at this
      exact ⟨this.1.symm, this.2.symm⟩
    simp only
    by_cases hc : c ≤ w.c3Max ∧ w.c3Min ≤ c ∧ w.vinfMin ≤ v ∧ v ≤ w.vinfMax ∧ w.tofMin ≤ timeOfFlight s ∧ timeOfFlight s ≤ w.tofMax
    · rw [if_pos hc, Option.some.injEq]
      constructor
      · rintro rfl
        exact ⟨c, v, ⟨he, k.mp hc⟩, rfl⟩
      · rintro ⟨c', v', hd, rfl⟩
        obtain ⟨rfl, rfl⟩ := huniq _ _ hd.1
        rfl
    · rw [if_neg hc]
      simp only [reduceCtorEq, false_iff]
      rintro ⟨c', v', hd, -⟩
      obtain ⟨rfl, rfl⟩ := huniq _ _ hd.1
      exact hc (k.mpr hd.2)

/-- The rows that pass the filter. -/
theorem plot_points {f : Figure} (h : plot u L S = .ok f) :
    ∃ g : Solution → Option Point, f = figure L (S.rows.filterMap g) ∧ ∀ s ∈ S.rows, ∀ p,
      g s = some p ↔ ∃ c v, Drawn u L s c v ∧ p = ⟨mjd s.dep, mjd s.arr, c, v, mjd s.arr - mjd s.dep⟩ := by
  obtain ⟨w, h1, h2, h3, h4, -, h5, -, h6, hf⟩ := plot_ok h
  exact ⟨point u w, hf, fun s hs p => drawn_iff h1 h2 h3 h4 h5 h6 hs p⟩

theorem mem_points {g : Solution → Option Point}
    (hg : ∀ s ∈ S.rows, ∀ p, g s = some p ↔ ∃ c v, Drawn u L s c v ∧ p = ⟨mjd s.dep, mjd s.arr, c, v, mjd s.arr - mjd s.dep⟩) (p : Point) :
    p ∈ S.rows.filterMap g ↔ ∃ s ∈ S.rows, ∃ c v, Drawn u L s c v ∧ p = ⟨mjd s.dep, mjd s.arr, c, v, mjd s.arr - mjd s.dep⟩ := by
  rw [List.mem_filterMap]
  constructor
  · rintro ⟨s, hs, h⟩
    exact ⟨s, hs, (hg s hs p).mp h⟩
  · rintro ⟨s, hs, h⟩
    exact ⟨s, hs, (hg s hs p).mpr h⟩

/-- The parts of the figure. -/
theorem contours_eq {c : Contours} {points : List Point} (h : figure L points = .contours c) :
    2 ≤ (unique (points.map Point.dep)).length ∧ 2 ≤ (unique (points.map Point.arr)).length ∧
    c.x = unique (points.map Point.dep) ∧ c.y = unique (points.map Point.arr) ∧
    c.c3 = fill c.y.length c.x.length (points.map fun p => (c.y.idxOf p.arr, c.x.idxOf p.dep, p.c3)) ∧
    c.vinf = fill c.y.length c.x.length (points.map fun p => (c.y.idxOf p.arr, c.x.idxOf p.dep, p.vinf)) ∧
    c.tof = (c.y.map fun a => c.x.map fun d => a - d) ∧
    c.c3Levels = levels (points.map Point.c3) ∧ c.vinfLevels = levels (points.map Point.vinf) ∧
    c.tofLevels = tofLevels (points.map Point.tof) ∧
    c.xlim = L.xlim.getD (least c.x, greatest c.x) ∧ c.ylim = L.ylim.getD (least c.y, greatest c.y) ∧
    c.bestC3 = (if L.optimal then marker c.xlim c.ylim Point.c3 points else none) ∧
    c.bestVinf = (if L.optimal then marker c.xlim c.ylim Point.vinf points else none) := by
  unfold figure at h
  dsimp only at h
  split at h
  · cases h
  · rename_i hn
    push Not at hn
    simp only [Figure.contours.injEq] at h
    subst h
    exact ⟨hn.1, hn.2, rfl, rfl, rfl, rfl, rfl, rfl, rfl, rfl, rfl, rfl, rfl, rfl⟩

/-! ## Theorems -/

/-- C185. The axes are, in order and once each, the dates of the solutions that belong on the plot; the grid of flight times is the
difference of the dates at every place, solution or not. -/
theorem C185_axes {c : Contours} (h : plot u L S = .ok (.contours c)) :
    c.x.Pairwise (· < ·) ∧ (∀ d, d ∈ c.x ↔ ∃ s ∈ S.rows, mjd s.dep = d ∧ ∃ e v, Drawn u L s e v) ∧
    c.y.Pairwise (· < ·) ∧ (∀ a, a ∈ c.y ↔ ∃ s ∈ S.rows, mjd s.arr = a ∧ ∃ e v, Drawn u L s e v) ∧
    2 ≤ c.x.length ∧ 2 ≤ c.y.length ∧
    ∀ (i j : Nat) (a d : ℝ), c.y[i]? = some a → c.x[j]? = some d → c.tof[i]?.bind (·[j]?) = some (a - d) := by
  obtain ⟨g, hf, hg⟩ := plot_points h
  obtain ⟨k1, k2, hx, hy, -, -, ht, -⟩ := contours_eq hf.symm
  refine ⟨hx ▸ unique_sorted _, fun d => ?_, hy ▸ unique_sorted _, fun a => ?_, hx ▸ k1, hy ▸ k2, fun i j a d hi hj => ?_⟩
  · rw [hx, mem_unique, List.mem_map]
    constructor
    · rintro ⟨p, hp, rfl⟩
      obtain ⟨s, hs, e, v, hd, rfl⟩ := (mem_points hg p).mp hp
      exact ⟨s, hs, rfl, e, v, hd⟩
    · rintro ⟨s, hs, rfl, e, v, hd⟩
      exact ⟨_, (mem_points hg _).mpr ⟨s, hs, e, v, hd, rfl⟩, rfl⟩
  · rw [hy, mem_unique, List.mem_map]
    constructor
    · rintro ⟨p, hp, rfl⟩
      obtain ⟨s, hs, e, v, hd, rfl⟩ := (mem_points hg p).mp hp
      exact ⟨s, hs, rfl, e, v, hd⟩
    · rintro ⟨s, hs, rfl, e, v, hd⟩
      exact ⟨_, (mem_points hg _).mpr ⟨s, hs, e, v, hd, rfl⟩, rfl⟩
  · rw [ht]
    simp [hi, hj]

theorem grid_cell {g : Solution → Option Point}
    (hg : ∀ s ∈ S.rows, ∀ p, g s = some p ↔ ∃ c v, Drawn u L s c v ∧ p = ⟨mjd s.dep, mjd s.arr, c, v, mjd s.arr - mjd s.dep⟩)
    {x y : List ℝ} (hx : x = unique ((S.rows.filterMap g).map Point.dep)) (hy : y = unique ((S.rows.filterMap g).map Point.arr))
    (value : Point → ℝ) {i j : Nat} {a d : ℝ} (hi : y[i]? = some a) (hj : x[j]? = some d) :
    ∃ cell, (fill y.length x.length ((S.rows.filterMap g).map fun p => (y.idxOf p.arr, x.idxOf p.dep, value p)))[i]?.bind (·[j]?) =
      some cell ∧
      ∀ e, cell = some e ↔ ∃ c v, LastAt u L S.rows d a c v ∧ e = value ⟨d, a, c, v, a - d⟩ := by
  have il : i < y.length := (List.getElem?_eq_some_iff.mp hi).1
  have jl : j < x.length := (List.getElem?_eq_some_iff.mp hj).1
  have xn : x.Nodup := hx ▸ unique_nodup _
  have yn : y.Nodup := hy ▸ unique_nodup _
  obtain ⟨-, -, h3⟩ := fill_spec y.length x.length ((S.rows.filterMap g).map fun p => (y.idxOf p.arr, x.idxOf p.dep, value p))
  refine ⟨_, h3 i il j jl, fun e => ?_⟩
  rw [List.filterMap_map, List.filterMap_filterMap]
  rw [getLast?_filterMap]
  -- what a row contributes to the cell
  have contrib : ∀ s ∈ S.rows, ∀ e, ((g s).bind ((cellAt i j) ∘ fun p => (y.idxOf p.arr, x.idxOf p.dep, value p))) = some e ↔
      ∃ c v, Drawn u L s c v ∧ mjd s.dep = d ∧ mjd s.arr = a ∧ e = value ⟨d, a, c, v, a - d⟩ := by
    intro s hs e
    constructor
    · intro he
      obtain ⟨p, hp, hc⟩ := Option.bind_eq_some_iff.mp he
      obtain ⟨c, v, hd, rfl⟩ := (hg s hs p).mp hp
      have hm : (⟨mjd s.dep, mjd s.arr, c, v, mjd s.arr - mjd s.dep⟩ : Point) ∈ S.rows.filterMap g := (mem_points hg _).mpr ⟨s, hs, c, v, hd, rfl⟩
      have mx : mjd s.dep ∈ x := hx ▸ mem_unique.mpr (List.mem_map.mpr ⟨_, hm, rfl⟩)
      have my : mjd s.arr ∈ y := hy ▸ mem_unique.mpr (List.mem_map.mpr ⟨_, hm, rfl⟩)
      simp only [Function.comp, cellAt] at hc
      split at hc
      · rename_i hij
        have e1 := (idxOf_iff yn my i).mp hij.1
        have e2 := (idxOf_iff xn mx j).mp hij.2
        rw [hi, Option.some.injEq] at e1
        rw [hj, Option.some.injEq] at e2
        rw [Option.some.injEq] at hc
        subst e1 e2
        exact ⟨c, v, hd, rfl, rfl, hc.symm⟩
      · cases hc
    · rintro ⟨c, v, hd, rfl, rfl, rfl⟩
      have hp := (hg s hs _).mpr ⟨c, v, hd, rfl⟩
      have mx : mjd s.dep ∈ x := List.mem_of_getElem? hj
      have my : mjd s.arr ∈ y := List.mem_of_getElem? hi
      rw [hp]
      simp only [Option.bind_some, Function.comp, cellAt]
      rw [if_pos ⟨(idxOf_iff yn my i).mpr hi, (idxOf_iff xn mx j).mpr hj⟩]
  constructor
  · rintro ⟨pre, s, post, hr, h1, h2⟩
    obtain ⟨c, v, hd, e1, e2, e3⟩ := (contrib s (by rw [hr]; simp) e).mp h1
    refine ⟨c, v, ⟨pre, s, post, hr, hd, e1, e2, fun t ht t1 t2 c' v' hd' => ?_⟩, e3⟩
    have := (contrib t (by rw [hr]; simp [ht]) _).mpr ⟨c', v', hd', t1, t2, rfl⟩
    rw [h2 t ht] at this
    cases this
  · rintro ⟨c, v, ⟨pre, s, post, hr, hd, e1, e2, h2⟩, e3⟩
    refine ⟨pre, s, post, hr, (contrib s (by rw [hr]; simp) e).mpr ⟨c, v, hd, e1, e2, e3⟩, fun t ht => ?_⟩
    by_contra hn
    obtain ⟨e', he'⟩ := Option.ne_none_iff_exists'.mp hn
    obtain ⟨c', v', hd', t1, t2, -⟩ := (contrib t (by rw [hr]; simp [ht]) e').mp he'
    exact h2 t ht t1 t2 c' v' hd'

/-- C185. Every place of the two contour grids holds C3 and V∞ of the last row with those dates that belongs on the plot, and NaN if
there is none. -/
theorem C185_cells {c : Contours} (h : plot u L S = .ok (.contours c)) {i j : Nat} {a d : ℝ} (hi : c.y[i]? = some a)
    (hj : c.x[j]? = some d) :
    (∃ cell, c.c3[i]?.bind (·[j]?) = some cell ∧ ∀ e, cell = some e ↔ ∃ v, LastAt u L S.rows d a e v) ∧
    (∃ cell, c.vinf[i]?.bind (·[j]?) = some cell ∧ ∀ v, cell = some v ↔ ∃ e, LastAt u L S.rows d a e v) := by
  obtain ⟨g, hf, hg⟩ := plot_points h
  obtain ⟨-, -, hx, hy, h1, h2, -⟩ := contours_eq hf.symm
  constructor
  · obtain ⟨cell, k1, k2⟩ := grid_cell hg hx hy Point.c3 hi hj
    refine ⟨cell, by rw [h1]; exact k1, fun e => (k2 e).trans ?_⟩
    constructor
    · rintro ⟨c', v, hl, rfl⟩
      exact ⟨v, hl⟩
    · rintro ⟨v, hl⟩
      exact ⟨e, v, hl, rfl⟩
  · obtain ⟨cell, k1, k2⟩ := grid_cell hg hx hy Point.vinf hi hj
    refine ⟨cell, by rw [h2]; exact k1, fun e => (k2 e).trans ?_⟩
    constructor
    · rintro ⟨c', v, hl, rfl⟩
      exact ⟨c', hl⟩
    · rintro ⟨v, hl⟩
      exact ⟨v, e, hl, rfl⟩

/-- C185. The shape of the grids: a row for every arrival date, a column for every departure date. -/
theorem C185_shape {c : Contours} (h : plot u L S = .ok (.contours c)) :
    (c.c3.length = c.y.length ∧ ∀ row ∈ c.c3, row.length = c.x.length) ∧
    (c.vinf.length = c.y.length ∧ ∀ row ∈ c.vinf, row.length = c.x.length) ∧
    (c.tof.length = c.y.length ∧ ∀ row ∈ c.tof, row.length = c.x.length) := by
  obtain ⟨g, hf, -⟩ := plot_points h
  obtain ⟨-, -, -, -, h1, h2, h3, -⟩ := contours_eq hf.symm
  refine ⟨?_, ?_, ?_⟩
  · rw [h1]
    exact ⟨(fill_spec _ _ _).1, (fill_spec _ _ _).2.1⟩
  · rw [h2]
    exact ⟨(fill_spec _ _ _).1, (fill_spec _ _ _).2.1⟩
  · rw [h3]
    refine ⟨by simp, fun row hr => ?_⟩
    obtain ⟨a, -, rfl⟩ := List.mem_map.mp hr
    simp

theorem points_split {g : Solution → Option Point}
    (hg : ∀ s ∈ S.rows, ∀ p, g s = some p ↔ ∃ c v, Drawn u L s c v ∧ p = ⟨mjd s.dep, mjd s.arr, c, v, mjd s.arr - mjd s.dep⟩)
    (value : Point → ℝ) (hne : S.rows.filterMap g ≠ []) (xlim ylim : ℝ × ℝ) :
    ∃ pre s post c v, S.rows = pre ++ s :: post ∧ Drawn u L s c v ∧
      (∀ t ∈ pre, ∀ c' v', Drawn u L t c' v' →
        value ⟨mjd s.dep, mjd s.arr, c, v, mjd s.arr - mjd s.dep⟩ < value ⟨mjd t.dep, mjd t.arr, c', v', mjd t.arr - mjd t.dep⟩) ∧
      (∀ t ∈ post, ∀ c' v', Drawn u L t c' v' →
        value ⟨mjd s.dep, mjd s.arr, c, v, mjd s.arr - mjd s.dep⟩ ≤ value ⟨mjd t.dep, mjd t.arr, c', v', mjd t.arr - mjd t.dep⟩) ∧
      marker xlim ylim value (S.rows.filterMap g) =
        if (xlim.1 ≤ mjd s.dep ∧ mjd s.dep ≤ xlim.2) ∧ (ylim.1 ≤ mjd s.arr ∧ mjd s.arr ≤ ylim.2) then some (mjd s.dep, mjd s.arr)
        else none := by
  obtain ⟨k1, k2⟩ := argmin_spec value (S.rows.filterMap g)
  cases hm : (S.rows.filterMap g).argmin value with
  | none => exact absurd (k1.mp hm) hne
  | some p =>
    obtain ⟨P, Q, hpq, hP, hQ⟩ := k2 p hm
    obtain ⟨l1, l2, e0, e1, e2⟩ := List.filterMap_eq_append_iff.mp hpq
    obtain ⟨m1, s, m2, e3, hn, hs, e4⟩ := List.filterMap_eq_cons_iff.mp e2
    subst e3
    have hrows : S.rows = (l1 ++ m1) ++ s :: m2 := by rw [e0]; simp
    obtain ⟨c, v, hd, rfl⟩ := (hg s (by rw [hrows]; simp) p).mp hs
    refine ⟨l1 ++ m1, s, m2, c, v, hrows, hd, fun t ht c' v' hd' => ?_, fun t ht c' v' hd' => ?_, ?_⟩
    · have htS : t ∈ S.rows := by
        rw [hrows]
        exact List.mem_append_left _ ht
      have hgt := (hg t htS _).mpr ⟨c', v', hd', rfl⟩
      rcases List.mem_append.mp ht with ht | ht
      · exact hP _ (by rw [← e1]; exact List.mem_filterMap.mpr ⟨t, ht, hgt⟩)
      · rw [hn t ht] at hgt
        cases hgt
    · have htS : t ∈ S.rows := by rw [hrows]; simp [ht]
      have hgt := (hg t htS _).mpr ⟨c', v', hd', rfl⟩
      exact hQ _ (by rw [← e4]; exact List.mem_filterMap.mpr ⟨t, ht, hgt⟩)
    · unfold marker
      rw [hm]

theorem within_default {l : List ℝ} {a : ℝ} (h : a ∈ l) : least l ≤ a ∧ a ≤ greatest l :=
  ⟨(least_spec (List.ne_nil_of_mem h)).2 a h, (greatest_spec (List.ne_nil_of_mem h)).2 a h⟩

/-- The dates are within the limits of the plot, if these are given. -/
def Inside (L : Limits) (s : Solution) : Prop :=
  (∀ r, L.xlim = some r → r.1 ≤ mjd s.dep ∧ mjd s.dep ≤ r.2) ∧ (∀ r, L.ylim = some r → r.1 ≤ mjd s.arr ∧ mjd s.arr ≤ r.2)

/-- C185. The markers, if asked for, are at the first row with the smallest C3 and the first with the smallest V∞ of all that belong on
the plot; the marker of a row outside given limits is left out, and no other takes its place. -/
theorem C185_best {c : Contours} (h : plot u L S = .ok (.contours c)) :
    (L.optimal = false → c.bestC3 = none ∧ c.bestVinf = none) ∧
    (L.optimal = true →
      (∃ pre s post e v, S.rows = pre ++ s :: post ∧ Drawn u L s e v ∧
        (∀ t ∈ pre, ∀ e' v', Drawn u L t e' v' → e < e') ∧ (∀ t ∈ post, ∀ e' v', Drawn u L t e' v' → e ≤ e') ∧
        c.bestC3 = if Inside L s then some (mjd s.dep, mjd s.arr) else none) ∧
      (∃ pre s post e v, S.rows = pre ++ s :: post ∧ Drawn u L s e v ∧
        (∀ t ∈ pre, ∀ e' v', Drawn u L t e' v' → v < v') ∧ (∀ t ∈ post, ∀ e' v', Drawn u L t e' v' → v ≤ v') ∧
        c.bestVinf = if Inside L s then some (mjd s.dep, mjd s.arr) else none)) := by
  obtain ⟨g, hf, hg⟩ := plot_points h
  obtain ⟨k1, -, hx, hy, -, -, -, -, -, -, h1, h2, h3, h4⟩ := contours_eq hf.symm
  have hne : S.rows.filterMap g ≠ [] := by
    intro hn
    rw [hn] at k1
    simp [unique] at k1
  have inside : ∀ s ∈ S.rows, ∀ e v, Drawn u L s e v →
      (((c.xlim.1 ≤ mjd s.dep ∧ mjd s.dep ≤ c.xlim.2) ∧ (c.ylim.1 ≤ mjd s.arr ∧ mjd s.arr ≤ c.ylim.2)) ↔ Inside L s) := by
    intro s hs e v hd
    have hm := (mem_points hg _).mpr ⟨s, hs, e, v, hd, rfl⟩
    have mx : mjd s.dep ∈ c.x := hx ▸ mem_unique.mpr (List.mem_map.mpr ⟨_, hm, rfl⟩)
    have my : mjd s.arr ∈ c.y := hy ▸ mem_unique.mpr (List.mem_map.mpr ⟨_, hm, rfl⟩)
    unfold Inside
    rw [h1, h2]
    refine and_congr ?_ ?_
    · cases L.xlim with
      | none => simpa using within_default mx
      | some r => simp
    · cases L.ylim with
      | none => simpa using within_default my
      | some r => simp
  refine ⟨fun ho => ?_, fun ho => ⟨?_, ?_⟩⟩
  · rw [h3, h4, ho]
    exact ⟨rfl, rfl⟩
  · obtain ⟨pre, s, post, e, v, hr, hd, a1, a2, a3⟩ := points_split hg Point.c3 hne c.xlim c.ylim
    refine ⟨pre, s, post, e, v, hr, hd, a1, a2, ?_⟩
    rw [h3, ho, if_pos rfl, a3]
    simp only [inside s (by rw [hr]; simp) e v hd]
  · obtain ⟨pre, s, post, e, v, hr, hd, a1, a2, a3⟩ := points_split hg Point.vinf hne c.xlim c.ylim
    refine ⟨pre, s, post, e, v, hr, hd, a1, a2, ?_⟩
    rw [h4, ho, if_pos rfl, a3]
    simp only [inside s (by rw [hr]; simp) e v hd]

/-- C185. Without at least two departure dates and two arrival dates among the rows that belong, the figure is empty; otherwise it is not. -/
theorem C185_insufficient {f : Figure} (h : plot u L S = .ok f) :
    f = .insufficient ↔
    ¬ ((∃ s ∈ S.rows, ∃ t ∈ S.rows, (∃ e v, Drawn u L s e v) ∧ (∃ e v, Drawn u L t e v) ∧ mjd s.dep ≠ mjd t.dep) ∧
       (∃ s ∈ S.rows, ∃ t ∈ S.rows, (∃ e v, Drawn u L s e v) ∧ (∃ e v, Drawn u L t e v) ∧ mjd s.arr ≠ mjd t.arr)) := by
  obtain ⟨g, hf, hg⟩ := plot_points h
  have key : ∀ (date : Point → ℝ) (of : Solution → ℝ), (∀ s e v, date ⟨mjd s.dep, mjd s.arr, e, v, mjd s.arr - mjd s.dep⟩ = of s) →
      (2 ≤ (unique ((S.rows.filterMap g).map date)).length ↔
        ∃ s ∈ S.rows, ∃ t ∈ S.rows, (∃ e v, Drawn u L s e v) ∧ (∃ e v, Drawn u L t e v) ∧ of s ≠ of t) := by
    intro date of hof
    rw [two_le_unique]
    constructor
    · rintro ⟨a, ha, b, hb, hab⟩
      obtain ⟨p, hp, rfl⟩ := List.mem_map.mp ha
      obtain ⟨q, hq, rfl⟩ := List.mem_map.mp hb
      obtain ⟨s, hs, e, v, hd, rfl⟩ := (mem_points hg p).mp hp
      obtain ⟨t, ht, e', v', hd', rfl⟩ := (mem_points hg q).mp hq
      rw [hof, hof] at hab
      exact ⟨s, hs, t, ht, ⟨e, v, hd⟩, ⟨e', v', hd'⟩, hab⟩
    · rintro ⟨s, hs, t, ht, ⟨e, v, hd⟩, ⟨e', v', hd'⟩, hab⟩
      refine ⟨_, List.mem_map.mpr ⟨_, (mem_points hg _).mpr ⟨s, hs, e, v, hd, rfl⟩, rfl⟩, _,
        List.mem_map.mpr ⟨_, (mem_points hg _).mpr ⟨t, ht, e', v', hd', rfl⟩, rfl⟩, ?_⟩
      rw [hof, hof]
      exact hab
  rw [← key Point.dep (fun s => mjd s.dep) (fun _ _ _ => rfl), ← key Point.arr (fun s => mjd s.arr) (fun _ _ _ => rfl), hf]
  unfold figure
  dsimp only
  split
  · rename_i hn
    simp only [true_iff]
    omega
  · rename_i hn
    simp only [reduceCtorEq, false_iff, not_not]
    omega

theorem levels_spec {values : List ℝ} (h : values ≠ []) :
    (levels values).lo ∈ values ∧ (levels values).hi ∈ values ∧ (∀ a ∈ values, (levels values).lo ≤ a ∧ a ≤ (levels values).hi) ∧
    0 < (levels values).step ∧
    ((levels values).lo < (levels values).hi → (levels values).lo + 10 * (levels values).step = (levels values).hi) := by
  obtain ⟨h1, h2⟩ := least_spec h
  obtain ⟨h3, h4⟩ := greatest_spec h
  refine ⟨h1, h3, fun a ha => ⟨h2 a ha, h4 a ha⟩, ?_, fun hl => ?_⟩
  · simp only [levels]
    split
    · exact one_pos
    · rename_i hn
      exact not_le.mp hn
  · simp only [levels] at hl ⊢
    rw [if_neg (by linarith)]
    ring

/-- C185. The contours start at the smallest value drawn and end at the largest, ten equal steps apart; those of the time of flight are a
positive multiple of five days apart. -/
theorem C185_levels {c : Contours} (h : plot u L S = .ok (.contours c)) :
    ((∃ s ∈ S.rows, ∃ v, Drawn u L s c.c3Levels.lo v) ∧ (∃ s ∈ S.rows, ∃ v, Drawn u L s c.c3Levels.hi v) ∧
      (∀ s ∈ S.rows, ∀ e v, Drawn u L s e v → c.c3Levels.lo ≤ e ∧ e ≤ c.c3Levels.hi) ∧ 0 < c.c3Levels.step ∧
      (c.c3Levels.lo < c.c3Levels.hi → c.c3Levels.lo + 10 * c.c3Levels.step = c.c3Levels.hi)) ∧
    ((∃ s ∈ S.rows, ∃ e, Drawn u L s e c.vinfLevels.lo) ∧ (∃ s ∈ S.rows, ∃ e, Drawn u L s e c.vinfLevels.hi) ∧
      (∀ s ∈ S.rows, ∀ e v, Drawn u L s e v → c.vinfLevels.lo ≤ v ∧ v ≤ c.vinfLevels.hi) ∧ 0 < c.vinfLevels.step ∧
      (c.vinfLevels.lo < c.vinfLevels.hi → c.vinfLevels.lo + 10 * c.vinfLevels.step = c.vinfLevels.hi)) ∧
    ((∀ s ∈ S.rows, ∀ e v, Drawn u L s e v → c.tofLevels.lo ≤ mjd s.arr - mjd s.dep ∧ mjd s.arr - mjd s.dep ≤ c.tofLevels.hi) ∧
      (∃ s ∈ S.rows, (∃ e v, Drawn u L s e v) ∧ mjd s.arr - mjd s.dep = c.tofLevels.lo) ∧
      (∃ s ∈ S.rows, (∃ e v, Drawn u L s e v) ∧ mjd s.arr - mjd s.dep = c.tofLevels.hi) ∧
      (∃ n : ℤ, 1 ≤ n ∧ c.tofLevels.step = 5 * n) ∧
      (50 ≤ c.tofLevels.hi - c.tofLevels.lo → |c.tofLevels.step - (c.tofLevels.hi - c.tofLevels.lo) / 10| ≤ 5 / 2)) := by
  obtain ⟨g, hf, hg⟩ := plot_points h
  obtain ⟨k1, -, -, -, -, -, -, h1, h2, h3, -⟩ := contours_eq hf.symm
  have hne : S.rows.filterMap g ≠ [] := by
    intro hn
    rw [hn] at k1
    simp [unique] at k1
  have hmap : ∀ f : Point → ℝ, (S.rows.filterMap g).map f ≠ [] := fun f hn => hne (List.map_eq_nil_iff.mp hn)
  have hto : ∀ s ∈ S.rows, ∀ e v, Drawn u L s e v → ∀ f : Point → ℝ, f ⟨mjd s.dep, mjd s.arr, e, v, mjd s.arr - mjd s.dep⟩ ∈
      (S.rows.filterMap g).map f :=
    fun s hs e v hd f => List.mem_map.mpr ⟨_, (mem_points hg _).mpr ⟨s, hs, e, v, hd, rfl⟩, rfl⟩
  refine ⟨?_, ?_, ?_⟩
  · obtain ⟨a1, a2, a3, a4, a5⟩ := levels_spec (hmap Point.c3)
    rw [h1]
    refine ⟨?_, ?_, fun s hs e v hd => a3 e (hto s hs e v hd Point.c3), a4, a5⟩
    · obtain ⟨p, hp, he⟩ := List.mem_map.mp a1
      obtain ⟨s, hs, e, v, hd, rfl⟩ := (mem_points hg p).mp hp
      exact ⟨s, hs, v, he ▸ hd⟩
    · obtain ⟨p, hp, he⟩ := List.mem_map.mp a2
      obtain ⟨s, hs, e, v, hd, rfl⟩ := (mem_points hg p).mp hp
      exact ⟨s, hs, v, he ▸ hd⟩
  · obtain ⟨a1, a2, a3, a4, a5⟩ := levels_spec (hmap Point.vinf)
    rw [h2]
    refine ⟨?_, ?_, fun s hs e v hd => a3 v (hto s hs e v hd Point.vinf), a4, a5⟩
    · obtain ⟨p, hp, he⟩ := List.mem_map.mp a1
      obtain ⟨s, hs, e, v, hd, rfl⟩ := (mem_points hg p).mp hp
      exact ⟨s, hs, e, he ▸ hd⟩
    · obtain ⟨p, hp, he⟩ := List.mem_map.mp a2
      obtain ⟨s, hs, e, v, hd, rfl⟩ := (mem_points hg p).mp hp
      exact ⟨s, hs, e, he ▸ hd⟩
  · obtain ⟨a1, a2⟩ := least_spec (hmap Point.tof)
    obtain ⟨a3, a4⟩ := greatest_spec (hmap Point.tof)
    rw [h3]
    obtain ⟨n, hn, hst⟩ := tofStep_spec (least ((S.rows.filterMap g).map Point.tof)) (greatest ((S.rows.filterMap g).map Point.tof))
    have hpos : 0 < tofStep (least ((S.rows.filterMap g).map Point.tof)) (greatest ((S.rows.filterMap g).map Point.tof)) := by
      rw [hst]
      have : (1 : ℝ) ≤ n := by exact_mod_cast hn
      linarith
    refine ⟨fun s hs e v hd => ⟨a2 _ (hto s hs e v hd Point.tof), a4 _ (hto s hs e v hd Point.tof)⟩, ?_, ?_, ⟨n, hn, ?_⟩, fun hw => ?_⟩
    · obtain ⟨p, hp, he⟩ := List.mem_map.mp a1
      obtain ⟨s, hs, e, v, hd, rfl⟩ := (mem_points hg p).mp hp
      exact ⟨s, hs, ⟨e, v, hd⟩, he⟩
    · obtain ⟨p, hp, he⟩ := List.mem_map.mp a3
      obtain ⟨s, hs, e, v, hd, rfl⟩ := (mem_points hg p).mp hp
      exact ⟨s, hs, ⟨e, v, hd⟩, he⟩
    · simp only [tofLevels]
      rw [if_neg (not_le.mpr hpos), hst]
    · simp only [tofLevels] at hw ⊢
      rw [if_neg (not_le.mpr hpos)]
      unfold tofStep
      rw [max_eq_right (by linarith)]
      have hr := abs_le.mp (roundEven_near ((greatest ((S.rows.filterMap g).map Point.tof) - least ((S.rows.filterMap g).map Point.tof)) / 10 / 5))
      rw [abs_le]
      constructor <;> linarith [hr.1, hr.2]

/-! ## Errors -/

theorem values_solved (f : ℝ × ℝ → ℝ) : none ∉ (S.rows.map fun s => (speeds u s).map f) ↔ ∀ s ∈ S.rows, s.v ≠ none := by
  rw [List.mem_map]
  push Not
  refine forall₂_congr fun s _ => ?_
  rw [ne_eq, ne_eq, ← speeds_none u s]
  cases speeds u s <;> simp

theorem c3Range_iff : C3Range u L S.rows ↔
    ∃ m, upper L.c3Max (S.rows.map fun s => (speeds u s).map Prod.fst) = .ok (some m) ∧ L.c3Min.getD 0 < m := by
  rw [range_ok, values_solved]
  unfold C3Range
  refine and_congr_right fun _ => forall_congr' fun _ => and_congr_right fun _ => ?_
  constructor
  · rintro ⟨s, hs, c, v, he, hl⟩
    exact ⟨c, List.mem_map.mpr ⟨s, hs, by rw [(speeds_iff u s c v).mpr he]; rfl⟩, hl⟩
  · rintro ⟨x, hx, hl⟩
    obtain ⟨s, hs, e⟩ := List.mem_map.mp hx
    obtain ⟨⟨c, v⟩, h1, rfl⟩ := Option.map_eq_some_iff.mp e
    exact ⟨s, hs, c, v, (speeds_iff u s c v).mp h1, hl⟩

theorem vinfRange_iff : VinfRange u L S.rows ↔
    ∃ m, upper L.vinfMax (S.rows.map fun s => (speeds u s).map Prod.snd) = .ok (some m) ∧ L.vinfMin.getD 0 < m := by
  rw [range_ok, values_solved]
  unfold VinfRange
  refine and_congr_right fun _ => forall_congr' fun _ => and_congr_right fun _ => ?_
  constructor
  · rintro ⟨s, hs, c, v, he, hl⟩
    exact ⟨v, List.mem_map.mpr ⟨s, hs, by rw [(speeds_iff u s c v).mpr he]; rfl⟩, hl⟩
  · rintro ⟨x, hx, hl⟩
    obtain ⟨s, hs, e⟩ := List.mem_map.mp hx
    obtain ⟨⟨c, v⟩, h1, rfl⟩ := Option.map_eq_some_iff.mp e
    exact ⟨s, hs, c, v, (speeds_iff u s c v).mp h1, hl⟩

/-- C185. When the plot is made and when it is refused, and how. -/
theorem C185_errors (u : Units.Consts ℝ) (L : Limits) (S : Solutions) :
    ((∃ f, plot u L S = .ok f) ↔ C3Range u L S.rows ∧ VinfRange u L S.rows ∧ (L.tofMax = none → S.rows ≠ [])) ∧
    (plot u L S = .error .valueError ↔
      S.rows = [] ∧ (L.c3Max = none ∨ C3Range u L S.rows ∧ (L.vinfMax = none ∨ L.tofMax = none))) ∧
    (∀ e, plot u L S = .error e → e = .valueError ∨ e = .assertionError) := by
  rw [c3Range_iff, vinfRange_iff]
  unfold plot
  simp only [bind, Except.bind]
  cases e1 : upper L.c3Max (S.rows.map fun s => (speeds u s).map Prod.fst) with
  | error e =>
    obtain ⟨rfl, h1, h2⟩ := upper_err.mp e1
    simp only [List.map_eq_nil_iff] at h2
    simp [h1, h2]
  | ok o1 =>
    have n1 : ¬ (S.rows = [] ∧ L.c3Max = none) := by
      rintro ⟨h1, h2⟩
      rw [h1, h2] at e1
      simp [upper, npMax] at e1
    simp only
    cases e2 : checked (L.c3Min.getD 0) o1 with
    | error e =>
      obtain ⟨rfl, h1⟩ := checked_err.mp e2
      have n2 : ¬ ∃ m, (Except.ok o1 : Except PyErr (Option ℝ)) = .ok (some m) ∧ L.c3Min.getD 0 < m := by
        rintro ⟨m, hm, hl⟩
        simp only [Except.ok.injEq] at hm
        exact absurd (h1 m hm) (not_le.mpr hl)
      simp only [n2, reduceCtorEq, false_and, or_false, Except.error.injEq, false_iff]
      exact ⟨by tauto, n1, fun e he => Or.inr he.symm⟩
    | ok m1 =>
      obtain ⟨rfl, l1⟩ := checked_ok.mp e2
      have y1 : ∃ m, (Except.ok (some m1) : Except PyErr (Option ℝ)) = .ok (some m) ∧ L.c3Min.getD 0 < m := ⟨m1, rfl, l1⟩
      simp only [y1, true_and]
      cases e3 : upper L.vinfMax (S.rows.map fun s => (speeds u s).map Prod.snd) with
      | error e =>
        obtain ⟨rfl, h1, h2⟩ := upper_err.mp e3
        simp only [List.map_eq_nil_iff] at h2
        simp [h1, h2]
      | ok o2 =>
        have n2 : ¬ (S.rows = [] ∧ L.vinfMax = none) := by
          rintro ⟨h1, h2⟩
          rw [h1, h2] at e3
          simp [upper, npMax] at e3
        simp only
        cases e4 : upper L.tofMax (S.rows.map fun s => some (timeOfFlight s)) with
        | error e =>
          obtain ⟨rfl, h1, h2⟩ := upper_err.mp e4
          simp only [List.map_eq_nil_iff] at h2
          simp [h1, h2]
        | ok o3 =>
          have n3 : ¬ (S.rows = [] ∧ L.tofMax = none) := by
            rintro ⟨h1, h2⟩
            rw [h1, h2] at e4
            simp [upper, npMax] at e4
          have n4 : ¬ (S.rows = [] ∧ (L.c3Max = none ∨ L.vinfMax = none ∨ L.tofMax = none)) := by tauto
          have n5 : L.tofMax = none → S.rows ≠ [] := fun h1 h2 => n3 ⟨h2, h1⟩
          simp only
          cases e5 : checked (L.vinfMin.getD 0) o2 with
          | error e =>
            obtain ⟨rfl, h1⟩ := checked_err.mp e5
            have n6 : ¬ ∃ m, (Except.ok o2 : Except PyErr (Option ℝ)) = .ok (some m) ∧ L.vinfMin.getD 0 < m := by
              rintro ⟨m, hm, hl⟩
              simp only [Except.ok.injEq] at hm
              exact absurd (h1 m hm) (not_le.mpr hl)
            simp only [n6, reduceCtorEq, false_and, Except.error.injEq, false_iff]
            exact ⟨by tauto, n4, fun e he => Or.inr he.symm⟩
          | ok m2 =>
            obtain ⟨rfl, l2⟩ := checked_ok.mp e5
            have y2 : ∃ m, (Except.ok (some m2) : Except PyErr (Option ℝ)) = .ok (some m) ∧ L.vinfMin.getD 0 < m := ⟨m2, rfl, l2⟩
            have hs : ¬ tofStep (L.tofMin.getD 0) (o3.getD 0) ≤ 0 := by
              obtain ⟨n, hn, e⟩ := tofStep_spec (L.tofMin.getD 0) (o3.getD 0)
              rw [e]
              have : (1 : ℝ) ≤ n := by exact_mod_cast hn
              linarith
            simp only [y2, true_and, if_neg hs, reduceCtorEq, false_iff]
            exact ⟨⟨fun _ => n5, fun _ => ⟨_, rfl⟩⟩, n4, fun e he => by cases he⟩

/-- C185. Not true that unsolved rows are only left out: a single one makes the plot fail, unless both upper limits are given. -/
theorem C185_unsolved_false (u : Units.Consts ℝ) (L : Limits) (S : Solutions) {s : Solution} (hs : s ∈ S.rows) (hv : s.v = none)
    (hl : L.c3Max = none ∨ L.vinfMax = none) : plot u L S = .error .assertionError := by
  obtain ⟨h1, h2, h3⟩ := C185_errors u L S
  cases hp : plot u L S with
  | ok f =>
    obtain ⟨k1, k2, -⟩ := h1.mp ⟨f, hp⟩
    rcases hl with hl | hl
    · exact absurd hv ((k1.2 hl).1 s hs)
    · exact absurd hv ((k2.2 hl).1 s hs)
  | error e =>
    rcases h3 e hp with rfl | rfl
    · have := (h2.mp hp).1
      rw [this] at hs
      cases hs
    · rfl

/-- The arguments by default. -/
def defaults : Limits := ⟨none, none, none, none, none, none, none, none, true⟩

/-- C185. With the default limits every row of solved porkchop data belongs on the plot. -/
theorem C185_all {P : Params} {pick : Nat → Nat} {maxProc : Option Nat} {dep arr : Bodies} {S : Solutions}
    (h : generate P pick maxProc dep arr = .ok S) (u : Units.Consts ℝ) (hu : 0 < u.kmPerAu ∧ 0 < u.secondsPerDay) {s : Solution}
    (hs : s ∈ S.rows) (hv : s.v ≠ none) : ∃ e v, Drawn u defaults s e v := by
  have hp := (Props.C105_pairs h).1
  have hm : (s.dep, s.arr) ∈ S.rows.map fun s => (s.dep, s.arr) := List.mem_map.mpr ⟨s, hs, rfl⟩
  have ht := (List.mem_filter.mp (hp.subset hm)).2
  simp only [decide_eq_true_eq] at ht
  obtain ⟨⟨v1, v2⟩, e⟩ := Option.ne_none_iff_exists'.mp hv
  refine ⟨_, _, ⟨v1, v2, e, rfl, rfl⟩, ⟨?_, by simp [defaults]⟩, ⟨?_, by simp [defaults]⟩, ⟨?_, by simp [defaults]⟩⟩
  · exact sq_nonneg _
  · exact mul_nonneg (Real.sqrt_nonneg _) (div_pos hu.1 hu.2).le
  · simp only [defaults, Option.getD_none]
    linarith

/-! ## Cases -/

theorem norm_x (a : ℝ) : V3.norm (V3.sub ⟨a, 0, 0⟩ ⟨0, 0, 0⟩) = |a| := by
  rw [← Real.sqrt_sq_eq_abs]
  simp [V3.norm, V3.sub, sq]

/-- A row that leaves on day `d`, arrives on day `a` and has the speed `v` at both ends. -/
noncomputable def rowOf (d a : ℤ) (v : ℝ) : Solution :=
  ⟨⟨"d", d, 0, "SUN", ⟨1, 0, 0⟩, ⟨0, 0, 0⟩⟩, ⟨"a", a, 0, "SUN", ⟨1, 0, 0⟩, ⟨0, 0, 0⟩⟩, some (⟨v, 0, 0⟩, ⟨v, 0, 0⟩), "SUN"⟩

theorem rowOf_energy (d a : ℤ) (v : ℝ) (hv : 0 ≤ v) (c w : ℝ) : Energy ⟨1, 1⟩ (rowOf d a v) c w ↔ c = v ^ 2 ∧ w = v := by
  unfold Energy rowOf
  constructor
  · rintro ⟨v1, v2, e, h1, h2⟩
    simp only [Option.some.injEq, Prod.mk.injEq] at e
    obtain ⟨rfl, rfl⟩ := e
    simp only [norm_x, abs_of_nonneg hv] at h1 h2
    exact ⟨by rw [h1]; ring, by rw [h2]; ring⟩
  · rintro ⟨rfl, rfl⟩
    refine ⟨_, _, rfl, ?_, ?_⟩ <;> simp only [norm_x, abs_of_nonneg hv] <;> ring

theorem rowOf_drawn (d a : ℤ) (hda : d ≤ a) (v : ℝ) (hv : 0 ≤ v) (c w : ℝ) :
    Drawn ⟨1, 1⟩ defaults (rowOf d a v) c w ↔ c = v ^ 2 ∧ w = v := by
  unfold Drawn
  rw [rowOf_energy d a v hv]
  refine ⟨And.left, fun h => ⟨h, ?_, ?_, ?_⟩⟩
  · exact ⟨by rw [h.1]; exact sq_nonneg _, by simp [defaults]⟩
  · exact ⟨by rw [h.2]; exact hv, by simp [defaults]⟩
  · refine ⟨?_, by simp [defaults]⟩
    have : (d : ℝ) ≤ a := by exact_mod_cast hda
    simpa [defaults, mjd, rowOf] using this

/-- Three solved rows, two of them with the same dates. -/
noncomputable def rows3 : Solutions := ⟨"ecliptic", [rowOf 0 10 1, rowOf 0 10 3, rowOf 1 11 2]⟩

theorem rows3_ok : ∃ c, plot ⟨1, 1⟩ defaults rows3 = .ok (.contours c) := by
  have hr : C3Range ⟨1, 1⟩ defaults rows3.rows := by
    refine ⟨by simp [defaults], fun _ => ⟨?_, rowOf 1 11 2, by simp [rows3], 4, 2, (rowOf_energy _ _ _ (by norm_num) _ _).mpr ⟨by norm_num, rfl⟩, by simp [defaults]⟩⟩
    intro s hs
    simp only [rows3, List.mem_cons, List.not_mem_nil, or_false] at hs
    rcases hs with rfl | rfl | rfl <;> simp [rowOf]
  have hv : VinfRange ⟨1, 1⟩ defaults rows3.rows := by
    refine ⟨by simp [defaults], fun _ => ⟨(hr.2 rfl).1, rowOf 1 11 2, by simp [rows3], 4, 2, (rowOf_energy _ _ _ (by norm_num) _ _).mpr ⟨by norm_num, rfl⟩, by simp [defaults]⟩⟩
  obtain ⟨f, hf⟩ := (C185_errors ⟨1, 1⟩ defaults rows3).1.mpr ⟨hr, hv, fun _ => by simp [rows3]⟩
  cases f with
  | contours c => exact ⟨c, hf⟩
  | insufficient =>
    exfalso
    refine (C185_insufficient hf).mp rfl ⟨⟨rowOf 0 10 1, by simp [rows3], rowOf 1 11 2, by simp [rows3], ⟨1, 1, ?_⟩, ⟨4, 2, ?_⟩, ?_⟩,
      ⟨rowOf 0 10 1, by simp [rows3], rowOf 1 11 2, by simp [rows3], ⟨1, 1, ?_⟩, ⟨4, 2, ?_⟩, ?_⟩⟩
    · exact (rowOf_drawn _ _ (by norm_num) _ (by norm_num) _ _).mpr ⟨by norm_num, rfl⟩
    · exact (rowOf_drawn _ _ (by norm_num) _ (by norm_num) _ _).mpr ⟨by norm_num, rfl⟩
    · simp [mjd, rowOf]
    · exact (rowOf_drawn _ _ (by norm_num) _ (by norm_num) _ _).mpr ⟨by norm_num, rfl⟩
    · exact (rowOf_drawn _ _ (by norm_num) _ (by norm_num) _ _).mpr ⟨by norm_num, rfl⟩
    · simp [mjd, rowOf]

/-- C185. Not true that the marker is at the smallest value of the grid: if two rows have the same dates, the grid shows the last and the
marker may be of the first. Here the marker stands where the grid shows the largest C3. -/
theorem C185_marker_false : ∃ c, plot ⟨1, 1⟩ defaults rows3 = .ok (.contours c) ∧ c.bestC3 = some (0, 10) ∧
    c.x[0]? = some 0 ∧ c.y[0]? = some 10 ∧ c.c3[0]?.bind (·[0]?) = some (some 9) ∧ c.x[1]? = some 1 ∧ c.y[1]? = some 11 ∧
    c.c3[1]?.bind (·[1]?) = some (some 4) ∧ c.c3[0]?.bind (·[1]?) = some none ∧ c.tof[0]?.bind (·[1]?) = some 9 := by
  obtain ⟨c, hc⟩ := rows3_ok
  have d1 : ∀ e v, Drawn ⟨1, 1⟩ defaults (rowOf 0 10 1) e v ↔ e = 1 ∧ v = 1 := fun e v => by
    rw [rowOf_drawn 0 10 (by norm_num) 1 (by norm_num)]; norm_num
  have d2 : ∀ e v, Drawn ⟨1, 1⟩ defaults (rowOf 0 10 3) e v ↔ e = 9 ∧ v = 3 := fun e v => by
    rw [rowOf_drawn 0 10 (by norm_num) 3 (by norm_num)]; norm_num
  have d3 : ∀ e v, Drawn ⟨1, 1⟩ defaults (rowOf 1 11 2) e v ↔ e = 4 ∧ v = 2 := fun e v => by
    rw [rowOf_drawn 1 11 (by norm_num) 2 (by norm_num)]; norm_num
  have md : ∀ (d a : ℤ) v, mjd (rowOf d a v).dep = d := fun d a v => by simp [mjd, rowOf]
  have ma : ∀ (d a : ℤ) v, mjd (rowOf d a v).arr = a := fun d a v => by simp [mjd, rowOf]
  obtain ⟨sx, mx, sy, my, lx, ly, ht⟩ := C185_axes hc
  have sorted_pair : ∀ (l : List ℝ) (a b : ℝ), a < b → l.Pairwise (· < ·) → (∀ z, z ∈ l ↔ z = a ∨ z = b) → l = [a, b] := by
    intro l a b hab hs hm
    refine List.Perm.eq_of_pairwise (fun x y _ _ h1 h2 => absurd h1 (not_lt.mpr h2.le)) hs (by simp [hab]) ?_
    refine (List.perm_ext_iff_of_nodup (hs.imp ne_of_lt) (by simp [hab.ne])).mpr fun z => ?_
    rw [hm]
    simp
  have ex : c.x = [0, 1] := by
    refine sorted_pair _ _ _ one_pos sx fun z => ?_
    rw [mx]
    simp only [rows3, List.mem_cons, List.not_mem_nil, or_false]
    constructor
    · rintro ⟨s, rfl | rfl | rfl, h, -⟩ <;> rw [md] at h <;> rw [← h] <;> norm_num
    · rintro (rfl | rfl)
      · exact ⟨_, Or.inl rfl, by rw [md]; norm_num, 1, 1, (d1 _ _).mpr ⟨rfl, rfl⟩⟩
      · exact ⟨_, Or.inr (Or.inr rfl), by rw [md]; norm_num, 4, 2, (d3 _ _).mpr ⟨rfl, rfl⟩⟩
  have ey : c.y = [10, 11] := by
    refine sorted_pair _ _ _ (by norm_num) sy fun z => ?_
    rw [my]
    simp only [rows3, List.mem_cons, List.not_mem_nil, or_false]
    constructor
    · rintro ⟨s, rfl | rfl | rfl, h, -⟩ <;> rw [ma] at h <;> rw [← h] <;> norm_num
    · rintro (rfl | rfl)
      · exact ⟨_, Or.inl rfl, by rw [ma]; norm_num, 1, 1, (d1 _ _).mpr ⟨rfl, rfl⟩⟩
      · exact ⟨_, Or.inr (Or.inr rfl), by rw [ma]; norm_num, 4, 2, (d3 _ _).mpr ⟨rfl, rfl⟩⟩
  have hx0 : c.x[0]? = some 0 := by rw [ex]; rfl
  have hx1 : c.x[1]? = some 1 := by rw [ex]; rfl
  have hy0 : c.y[0]? = some 10 := by rw [ey]; rfl
  have hy1 : c.y[1]? = some 11 := by rw [ey]; rfl
  refine ⟨c, hc, ?_, hx0, hy0, ?_, hx1, hy1, ?_, ?_, ?_⟩
  · obtain ⟨pre, s, post, e, v, hr, hd, h1, h2, hb⟩ := ((C185_best hc).2 rfl).1
    have hin : Inside defaults s := ⟨by simp [defaults], by simp [defaults]⟩
    rw [if_pos hin] at hb
    have hmem : s ∈ rows3.rows := by rw [hr]; simp
    have hfirst : rowOf 0 10 1 ∈ pre ∨ rowOf 0 10 1 = s ∨ rowOf 0 10 1 ∈ post := by
      have : rowOf 0 10 1 ∈ rows3.rows := by simp [rows3]
      rw [hr] at this
      simpa using this
    have hle : e ≤ 1 := by
      rcases hfirst with h | h | h
      · exact (h1 _ h 1 1 ((d1 _ _).mpr ⟨rfl, rfl⟩)).le
      · rw [← h] at hd
        exact ((d1 _ _).mp hd).1.le
      · exact h2 _ h 1 1 ((d1 _ _).mpr ⟨rfl, rfl⟩)
    simp only [rows3, List.mem_cons, List.not_mem_nil, or_false] at hmem
    rcases hmem with rfl | rfl | rfl
    · rw [hb, md, ma]
      norm_num
    · rw [((d2 _ _).mp hd).1] at hle
      norm_num at hle
    · rw [((d3 _ _).mp hd).1] at hle
      norm_num at hle
  · obtain ⟨⟨cell, k1, k2⟩, -⟩ := C185_cells hc hy0 hx0
    rw [k1, Option.some.injEq, k2]
    refine ⟨3, [rowOf 0 10 1], rowOf 0 10 3, [rowOf 1 11 2], rfl, (d2 _ _).mpr ⟨rfl, rfl⟩, by rw [md]; norm_num, by rw [ma]; norm_num, ?_⟩
    intro t ht' h
    rw [List.mem_singleton.mp ht', md] at h
    norm_num at h
  · obtain ⟨⟨cell, k1, k2⟩, -⟩ := C185_cells hc hy1 hx1
    rw [k1, Option.some.injEq, k2]
    exact ⟨2, [rowOf 0 10 1, rowOf 0 10 3], rowOf 1 11 2, [], rfl, (d3 _ _).mpr ⟨rfl, rfl⟩, by rw [md]; norm_num, by rw [ma]; norm_num, by simp⟩
  · obtain ⟨⟨cell, k1, k2⟩, -⟩ := C185_cells hc hy0 hx1
    rw [k1, Option.some.injEq]
    by_contra hn
    obtain ⟨e, he⟩ := Option.ne_none_iff_exists'.mp hn
    obtain ⟨v, pre, s, post, hr, -, h1, h2, -⟩ := (k2 e).mp he
    have hmem : s ∈ rows3.rows := by rw [hr]; simp
    simp only [rows3, List.mem_cons, List.not_mem_nil, or_false] at hmem
    rcases hmem with rfl | rfl | rfl
    · rw [md] at h1; norm_num at h1
    · rw [md] at h1; norm_num at h1
    · rw [ma] at h2; norm_num at h2
  · rw [ht 0 1 10 1 hy0 hx1]
    norm_num

end Verif.Porkchop.PlotProps
