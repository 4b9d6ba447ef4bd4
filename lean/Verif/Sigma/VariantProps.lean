import Verif.Sigma.Props

/-! # Properties of variants of coordinates (C104) -/

namespace Verif.Sigma.Props

open Verif Verif.Sigma Matrix

variable {σ τ : Type}

/-- The covariances of a table are symmetric. -/
def Symmetric (cs : List (Coord τ)) : Prop := ∀ c ∈ cs, ∀ i j, c.cov i j = c.cov j i

/-- The row has the values `m` and the covariance `C`, none missing. -/
def Complete (c : Coord τ) (m : Vec 6) (C : Mat 6) : Prop := (∀ i, c.values i = some (m i)) ∧ ∀ i j, c.cov i j = some (C i j)

theorem variantsOf_ok {p : Params σ} {i : Nat} {c : Coord τ} {hs : ∀ i j, c.cov i j = c.cov j i} {rows : List (Variant τ)}
    (h : variantsOf p i c hs = .ok rows) : ∃ (m : Vec 6) (C : Mat 6) (hC : C.IsHermitian) (s : Sampled 6),
      Complete c m C ∧ sampleRow p m C hC = .ok s ∧ rows = rowsOf i c s := by
  unfold variantsOf at h
  split at h
  · cases h
  rename_i h1
  split at h
  · cases h
  rename_i h2
  split at h
  · cases h
  rename_i s hs'
  injection h with h
  refine ⟨_, _, _, s, ⟨fun i => ?_, fun i j => ?_⟩, hs', h.symm⟩
  · cases hv : c.values i with
    | none => exact absurd ⟨i, hv⟩ h2
    | some v => rfl
  · cases hv : c.cov i j with
    | none => exact absurd ⟨i, j, hv⟩ h1
    | some v => simp

theorem variantsFrom_cons {p : Params σ} {c : Coord τ} {cs : List (Coord τ)} {i : Nat} {hs : Symmetric (c :: cs)}
    {rows : List (Variant τ)} (h : variantsFrom p i (c :: cs) hs = .ok rows) : ∃ r rest,
      variantsOf p i c (hs c List.mem_cons_self) = .ok r ∧
      variantsFrom p (i + 1) cs (fun d hd => hs d (List.mem_cons_of_mem _ hd)) = .ok rest ∧ rows = r ++ rest := by
  have h' : appendRows (variantsOf p i c (hs c List.mem_cons_self))
    (variantsFrom p (i + 1) cs fun d hd => hs d (List.mem_cons_of_mem _ hd)) = .ok rows := h
  generalize variantsOf p i c (hs c List.mem_cons_self) = x at h'
  generalize variantsFrom p (i + 1) cs (fun d hd => hs d (List.mem_cons_of_mem _ hd)) = y at h'
  cases x with
  | error e => cases h'
  | ok r =>
    cases y with
    | error e => cases h'
    | ok rest =>
      simp only [appendRows, Except.ok.injEq] at h'
      exact ⟨r, rest, rfl, rfl, h'.symm⟩

theorem variantsFrom_ok {p : Params σ} (cs : List (Coord τ)) : ∀ (i : Nat) (hs : Symmetric cs) (rows : List (Variant τ)),
    variantsFrom p i cs hs = .ok rows →
    (∀ v ∈ rows, i ≤ v.index ∧ v.index < i + cs.length) ∧ rows.Pairwise (fun a b => a.index ≤ b.index) ∧
    ∀ (k : Nat) (c : Coord τ), cs[k]? = some c → ∃ (m : Vec 6) (C : Mat 6) (hC : C.IsHermitian) (s : Sampled 6),
      Complete c m C ∧ sampleRow p m C hC = .ok s ∧ rows.filter (fun v => v.index = i + k) = rowsOf (i + k) c s := by
  induction cs with
  | nil =>
    intro i hs rows h
    have h' : (Except.ok [] : Except PyErr (List (Variant τ))) = .ok rows := h
    injection h' with h'
    subst h'
    simp
  | cons c cs ih =>
    intro i hs rows h
    obtain ⟨r, rest, hr, hrest, rfl⟩ := variantsFrom_cons h
    obtain ⟨m, C, hC, s, hcomp, hrow, rfl⟩ := variantsOf_ok hr
    obtain ⟨h1, h2, h3⟩ := ih (i + 1) _ rest hrest
    have hidx : ∀ v ∈ rowsOf i c s, v.index = i := by
      intro v hv
      unfold rowsOf at hv
      obtain ⟨q, -, rfl⟩ := List.mem_map.mp hv
      rfl
    refine ⟨?_, ?_, ?_⟩
    · intro v hv
      rcases List.mem_append.mp hv with hv | hv
      · rw [hidx v hv]; simp
      · have := h1 v hv; simp only [List.length_cons]; omega
    · rw [List.pairwise_append]
      refine ⟨?_, h2, fun a ha b hb => ?_⟩
      · rw [List.pairwise_iff_getElem]
        intro a b ha hb _
        rw [hidx _ (List.getElem_mem ha), hidx _ (List.getElem_mem hb)]
      · have := h1 b hb; rw [hidx a ha]; omega
    · intro k d hk
      cases k with
      | zero =>
        simp only [List.getElem?_cons_zero, Option.some.injEq] at hk
        subst hk
        refine ⟨m, C, hC, s, hcomp, hrow, ?_⟩
        rw [List.filter_append, List.filter_eq_self.mpr (fun v hv => by simp [hidx v hv]),
          List.filter_eq_nil_iff.mpr (fun v hv => by have := h1 v hv; simp; omega), List.append_nil, add_zero]
      | succ k =>
        simp only [List.getElem?_cons_succ] at hk
        obtain ⟨m', C', hC', s', a, b, e⟩ := h3 k d hk
        refine ⟨m', C', hC', s', a, b, ?_⟩
        rw [List.filter_append, List.filter_eq_nil_iff.mpr (fun v hv => by simp [hidx v hv]), List.nil_append,
          show i + (k + 1) = i + 1 + k by ring, e]

/-- C104. The variants come in the order of the coordinates; the variants with index `k` are the samples of row `k`, in order, each
with the origin and the time of that row. -/
theorem C104_rows {p : Params σ} {cs : List (Coord τ)} {hs : Symmetric cs} {rows : List (Variant τ)}
    (h : createVariants p cs hs = .ok rows) :
    (∀ v ∈ rows, v.index < cs.length) ∧ rows.Pairwise (fun a b => a.index ≤ b.index) ∧
    ∀ (k : Nat) (c : Coord τ), cs[k]? = some c → ∃ (m : Vec 6) (C : Mat 6) (hC : C.IsHermitian) (s : Sampled 6),
      Complete c m C ∧ sampleRow p m C hC = .ok s ∧
      rows.filter (fun v => v.index = k) =
        (s.samples.zip (s.W.zip s.Wcov)).map fun q => ⟨k, q.1, c.origin, c.time, q.2.1, q.2.2⟩ := by
  unfold createVariants at h
  split at h
  · cases h
  obtain ⟨h1, h2, h3⟩ := variantsFrom_ok cs 0 hs rows h
  refine ⟨fun v hv => by have := h1 v hv; omega, h2, fun k c hk => ?_⟩
  obtain ⟨m, C, hC, s, a, b, e⟩ := h3 k c hk
  rw [zero_add] at e
  exact ⟨m, C, hC, s, a, b, e⟩

/-- C104. With sigma points there is a result exactly if there is at least one row, no value and no covariance is missing, and
`α² (6 + κ)` is not zero; otherwise a ValueError or, for the last, a ZeroDivisionError. -/
theorem C104_defined {p : Params σ} (hm : p.method = .sigmaPoint) (cs : List (Coord τ)) (hs : Symmetric cs) :
    (∃ rows, createVariants p cs hs = .ok rows) ↔
      cs ≠ [] ∧ (∀ c ∈ cs, ∃ m C, Complete c m C) ∧ p.alpha ≠ 0 ∧ (6 : ℝ) + p.kappa ≠ 0 := by
  constructor
  · rintro ⟨rows, h⟩
    have hne : cs ≠ [] := by
      rintro rfl
      unfold createVariants at h
      rw [if_pos (by simp)] at h
      cases h
    obtain ⟨-, -, h3⟩ := C104_rows h
    have hcomp : ∀ c ∈ cs, ∃ m C, Complete c m C := by
      intro c hc
      obtain ⟨k, hk⟩ := List.mem_iff_getElem?.mp hc
      obtain ⟨m, C, _, _, a, -⟩ := h3 k c hk
      exact ⟨m, C, a⟩
    refine ⟨hne, hcomp, ?_⟩
    obtain ⟨c, cs', rfl⟩ := List.exists_cons_of_ne_nil hne
    obtain ⟨m, C, hC, s, -, b, -⟩ := h3 0 c rfl
    unfold sampleRow at b
    rw [hm] at b
    simp only at b
    have hn : ¬ ∃ e, sigmaPoints p.sqrtm m C p.alpha p.beta p.kappa = .error e := by
      rintro ⟨e, he⟩; rw [b] at he; cases he
    rw [C48_error] at hn
    push Not at hn
    exact_mod_cast hn
  · rintro ⟨hne, hcomp, ha, hk⟩
    unfold createVariants
    rw [if_neg (by
      intro hall
      obtain ⟨c, cs', rfl⟩ := List.exists_cons_of_ne_nil hne
      obtain ⟨m, C, hc⟩ := hcomp c List.mem_cons_self
      have := hall c List.mem_cons_self 0 0
      rw [hc.2] at this; cases this)]
    clear hne
    have key : ∀ (cs : List (Coord τ)) (i : Nat) (hs : Symmetric cs), (∀ c ∈ cs, ∃ m C, Complete c m C) →
        ∃ rows, variantsFrom p i cs hs = .ok rows := by
      intro cs
      induction cs with
      | nil => intro i hs _; exact ⟨[], rfl⟩
      | cons c cs ih =>
        intro i hs hcomp
        obtain ⟨m, C, hc⟩ := hcomp c List.mem_cons_self
        have hv : ∃ rows, variantsOf p i c (hs c List.mem_cons_self) = .ok rows := by
          unfold variantsOf
          rw [if_neg (by rintro ⟨a, b, e⟩; rw [hc.2] at e; cases e), if_neg (by rintro ⟨a, e⟩; rw [hc.1] at e; cases e)]
          unfold sampleRow
          simp only [hm]
          cases hsp : sigmaPoints p.sqrtm (fun i => (c.values i).getD 0) (fun i j => (c.cov i j).getD 0) p.alpha p.beta p.kappa with
          | error e =>
            have := (C48_error p.sqrtm _ _ _ _ _).mp ⟨e, hsp⟩
            rcases this with h' | h'
            · exact absurd h' ha
            · exact absurd (by exact_mod_cast h') hk
          | ok s => exact ⟨_, rfl⟩
        obtain ⟨r, hr⟩ := hv
        obtain ⟨rest, hrest⟩ := ih (i + 1) (fun d hd => hs d (List.mem_cons_of_mem _ hd))
          fun d hd => hcomp d (List.mem_cons_of_mem _ hd)
        refine ⟨r ++ rest, ?_⟩
        show appendRows _ _ = _
        rw [hr, hrest]
        rfl
    exact key cs 0 hs hcomp

/-- C104. Nothing is returned for a table with a missing number, or an empty one, whatever the method. -/
theorem C104_missing {p : Params σ} {cs : List (Coord τ)} {hs : Symmetric cs}
    (h : cs = [] ∨ ∃ c ∈ cs, (∃ i, c.values i = none) ∨ ∃ i j, c.cov i j = none) : ∃ e, createVariants p cs hs = .error e := by
  cases hr : createVariants p cs hs with
  | error e => exact ⟨e, rfl⟩
  | ok rows =>
    exfalso
    rcases h with rfl | ⟨c, hc, h⟩
    · unfold createVariants at hr
      rw [if_pos (by simp)] at hr
      cases hr
    · obtain ⟨k, hk⟩ := List.mem_iff_getElem?.mp hc
      obtain ⟨m, C, _, _, a, -⟩ := (C104_rows hr).2.2 k c hk
      rcases h with ⟨i, hi⟩ | ⟨i, j, hij⟩
      · rw [a.1] at hi; cases hi
      · rw [a.2] at hij; cases hij

/-- `root` is a symmetric square root. -/
def IsRoot (root M : Mat 6) : Prop := rootᵀ = root ∧ root * root = M

/-- C104. If the square root is exact, `auto` is the same as `sigma-point`. -/
theorem C104_auto {p : Params σ} (m : Vec 6) (C : Mat 6) (hC : C.IsHermitian)
    (hroot : IsRoot (p.sqrtm ((p.alpha ^ 2 * (6 + p.kappa)) • C)) ((p.alpha ^ 2 * (6 + p.kappa)) • C)) :
    sampleRow { p with method := .auto } m C hC = sampleRow { p with method := .sigmaPoint } m C hC := by
  unfold sampleRow
  simp only
  cases h : sigmaPoints p.sqrtm m C p.alpha p.beta p.kappa with
  | error e => rfl
  | ok s =>
    simp only
    have hmean := C48_mean h
    have hcov := C48_covariance h (by exact_mod_cast hroot.1) (by exact_mod_cast hroot.2)
    rw [if_neg]
    rw [hmean, hcov]
    rintro (⟨i, hi⟩ | ⟨i, j, hij⟩)
    · rw [sub_self, abs_zero] at hi; norm_num at hi
    · rw [sub_self, abs_zero] at hij; norm_num at hij

/-- C104. From the variants of a row, made with sigma points (or `auto`) and an exact square root, the row comes back: there are 13,
their weights add up to one, the weighted mean is the row and the weighted covariance is its covariance. -/
theorem C104_recover {p : Params σ} (hm : p.method = .sigmaPoint ∨ p.method = .auto) {cs : List (Coord τ)} {hs : Symmetric cs}
    {rows : List (Variant τ)} (h : createVariants p cs hs = .ok rows) {k : Nat} {c : Coord τ} (hk : cs[k]? = some c)
    {m : Vec 6} {C : Mat 6} (hc : Complete c m C)
    (hroot : IsRoot (p.sqrtm ((p.alpha ^ 2 * (6 + p.kappa)) • C)) ((p.alpha ^ 2 * (6 + p.kappa)) • C)) :
    (rows.filter fun v => v.index = k).length = 13 ∧
    ((rows.filter fun v => v.index = k).map (·.weight)).sum = 1 ∧
    (∀ i, ((rows.filter fun v => v.index = k).map fun v => v.weight * v.values i).sum = m i) ∧
    ∀ i j, ((rows.filter fun v => v.index = k).map fun v => v.weightCov * (v.values i - m i) * (v.values j - m j)).sum = C i j := by
  obtain ⟨m', C', hC, s, a, b, e⟩ := (C104_rows h).2.2 k c hk
  have hmm : m' = m := by
    ext i
    have := (a.1 i).symm.trans (hc.1 i)
    exact Option.some.inj this
  have hCC : C' = C := by
    ext i j
    have := (a.2 i j).symm.trans (hc.2 i j)
    exact Option.some.inj this
  subst hmm; subst hCC
  have hsp : sigmaPoints p.sqrtm m' C' p.alpha p.beta p.kappa = .ok s := by
    rcases hm with hm | hm
    · unfold sampleRow at b; rw [hm] at b; exact b
    · have h1 := C104_auto (p := p) m' C' hC hroot
      have h2 : sampleRow { p with method := Method.auto } m' C' hC = sampleRow p m' C' hC := by
        congr 1
        cases p; simp only at hm; subst hm; rfl
      rw [h2, b] at h1
      exact h1.symm
  obtain ⟨l1, l2, l3, -⟩ := C48_count hsp
  have hz1 : (s.samples.zip (s.W.zip s.Wcov)).map (fun q => (q.1, q.2.1)) = s.samples.zip s.W := by
    apply List.ext_getElem
    · simp [l1, l2, l3]
    · intro i h1 h2; simp
  have hz2 : (s.samples.zip (s.W.zip s.Wcov)).map (fun q => (q.1, q.2.2)) = s.samples.zip s.Wcov := by
    apply List.ext_getElem
    · simp [l1, l2, l3]
    · intro i h1 h2; simp
  have hz3 : (s.samples.zip (s.W.zip s.Wcov)).map (fun q => q.2.1) = s.W := by
    apply List.ext_getElem
    · simp [l1, l2, l3]
    · intro i h1 h2; simp
  rw [e]
  refine ⟨by simp [l1, l2, l3], ?_, fun i => ?_, fun i j => ?_⟩
  · rw [List.map_map]
    simp only [Function.comp_def]
    rw [hz3]
    exact (C48_weights hsp).1
  · have hmean := congrFun (C48_mean hsp) i
    rw [List.map_map]
    simp only [Function.comp_def]
    rw [← hmean]
    unfold weightedMean
    rw [← hz1, List.map_map]
    simp only [Function.comp_def]
    generalize s.samples.zip (s.W.zip s.Wcov) = l
    induction l with
    | nil => simp
    | cons q l ih => simp [ih]
  · have hcov := congrFun (congrFun (C48_covariance hsp (by exact_mod_cast hroot.1) (by exact_mod_cast hroot.2)) i) j
    rw [List.map_map]
    simp only [Function.comp_def]
    rw [← hcov]
    unfold weightedCovariance
    rw [← hz2, List.map_map]
    simp [Function.comp_def]

theorem random_seed {p : Params σ} {sd : σ} (m : Vec 6) (C : Mat 6) (hC : C.IsHermitian) (e : σ) :
    random { p with entropy := e } m C hC (some sd) = random p m C hC (some sd) := rfl

/-- C104. With `monte-carlo` and a seed the result does not depend on the entropy of the system. -/
theorem C104_seed {p : Params σ} (hm : p.method = .monteCarlo) {sd : σ} (hsd : p.seed = some sd) (e : σ) (cs : List (Coord τ))
    (hs : Symmetric cs) : createVariants { p with entropy := e } cs hs = createVariants p cs hs := by
  have hrow : ∀ (m : Vec 6) (C : Mat 6) (hC : C.IsHermitian), sampleRow { p with entropy := e } m C hC = sampleRow p m C hC := by
    intro m C hC
    unfold sampleRow
    simp only [hm, hsd]
    rfl
  have hfrom : ∀ (cs : List (Coord τ)) (i : Nat) (hs : Symmetric cs),
      variantsFrom { p with entropy := e } i cs hs = variantsFrom p i cs hs := by
    intro cs
    induction cs with
    | nil => intro i hs; rfl
    | cons c cs ih =>
      intro i hs
      show appendRows _ _ = appendRows _ _
      refine congr (congrArg appendRows ?_) (ih (i + 1) _)
      unfold variantsOf
      split
      · rfl
      split
      · rfl
      congr 1
      exact hrow _ _ _
  unfold createVariants
  rw [hfrom]

/-- Coordinates with the variance 1000 in each of the six dimensions. -/
noncomputable def wide : Coord Unit := ⟨fun _ => some 0, fun i j => some (if i = j then 1000 else 0), (), ()⟩

/-- A square root of a multiple of the unit matrix, to a relative accuracy of `1e-15`. -/
noncomputable def nearRoot (A : Mat 6) : Mat 6 := ((1 + 1e-15) * √(A 0 0)) • 1

/-- C104. Not so with `auto`: with a relative error of `1e-15` in the square root, `auto` leaves sigma points for random ones drawn
without the seed. -/
theorem C104_seed_false : ¬ ∀ (p : Params ℝ) (e : ℝ) (cs : List (Coord Unit)) (hs : Symmetric cs), p.method = .auto →
    p.seed = some 0 → createVariants { p with entropy := e } cs hs = createVariants p cs hs := by
  intro hall
  have hsym : Symmetric [wide] := by
    intro c hc i j
    rw [List.mem_singleton.mp hc]
    simp [wide, eq_comm]
  let p : Params ℝ := ⟨nearRoot, fun _ _ n s => List.replicate n fun _ => s, 1, .auto, 2, 1, 0, 0, some 0⟩
  have h := hall p 2 [wide] hsym rfl rfl
  set C : Mat 6 := fun i j => (wide.cov i j).getD 0 with hCdef
  have hC1 : C = (1000 : ℝ) • (1 : Mat 6) := by
    ext i j
    simp [hCdef, wide, Matrix.smul_apply, Matrix.one_apply]
  have hCh : C.IsHermitian := by rw [hC1]; simp [Matrix.IsHermitian]
  have hpsd : C.PosSemidef := by
    rw [hC1]
    exact Matrix.PosSemidef.one.smul (by norm_num)
  have hval : ∀ e : ℝ, createVariants { p with entropy := e } [wide] hsym =
      .ok (rowsOf 0 wide ⟨List.replicate 2 fun _ => e, List.replicate 2 (1 / 2), List.replicate 2 (1 / 2)⟩) := by
    intro e
    unfold createVariants
    rw [if_neg (by intro h'; have := h' wide List.mem_cons_self 0 0; simp [wide] at this)]
    have hone : variantsOf { p with entropy := e } 0 wide (hsym wide List.mem_cons_self) =
        .ok (rowsOf 0 wide ⟨List.replicate 2 fun _ => e, List.replicate 2 (1 / 2), List.replicate 2 (1 / 2)⟩) := by
      unfold variantsOf
      rw [if_neg (by rintro ⟨i, j, h'⟩; simp [wide] at h'), if_neg (by rintro ⟨i, h'⟩; simp [wide] at h')]
      have hrow : ∀ (m : Vec 6) (hC : C.IsHermitian), sampleRow { p with entropy := e } m C hC =
          .ok ⟨List.replicate 2 fun _ => e, List.replicate 2 (1 / 2), List.replicate 2 (1 / 2)⟩ := by
        intro m hC
        unfold sampleRow
        simp only [p]
        cases hsp : sigmaPoints nearRoot m C 1 0 0 with
        | error e' =>
          have := (C48_error nearRoot m C 1 0 0).mp ⟨e', hsp⟩
          norm_num at this
        | ok s =>
          simp only
          rw [if_pos]
          · have hpc : C.PosSemidef := hpsd
            obtain ⟨s', e1, e2, e3, e4, e5, e6⟩ := C103_random (σ := ℝ) (fun _ _ n s => List.replicate n fun _ => s) e m hpc
              (n := 2) (by norm_num) none 1e-15
            unfold random
            simp only
            rw [e1]
            simp only
            rw [if_neg (by norm_num)]
            obtain ⟨ss, W, Wc⟩ := s'
            simp only at e2 e3 e4 e6
            subst e3
            have hW : W = List.replicate 2 (1 / 2) := List.eq_replicate_iff.mpr ⟨e4, by simpa using e6⟩
            rw [e2, hW]
            rfl
          · right
            refine ⟨0, 0, ?_⟩
            have hmean := C48_mean hsp
            rw [hmean]
            unfold sigmaPoints at hsp
            simp only at hsp
            rw [if_neg (by norm_num)] at hsp
            injection hsp with hsp
            rw [← hsp]
            unfold weightedCovariance
            simp only
            rw [zip_points, List.map_cons, List.sum_cons, List.map_map, List.map_append, List.sum_append, ofFn_map_sum,
              ofFn_map_sum]
            simp only [Function.comp, sub_self, Pi.zero_apply, mul_zero, zero_add, add_sub_cancel_left, sub_sub_cancel_left,
              Pi.neg_apply]
            rw [← Finset.sum_add_distrib]
            have hL : ∀ k : Fin 6, nearRoot (((6 : ℕ) + ((1 : ℝ) ^ 2 * ((6 : ℕ) + 0) - (6 : ℕ)) : ℝ) • C) k 0 =
                if k = 0 then (1 + 1e-15) * √6000 else 0 := by
              intro k
              unfold nearRoot
              rw [hC1]
              by_cases hk : k = 0
              · subst hk; norm_num [Matrix.smul_apply]
              · simp [Matrix.smul_apply, hk]
            simp only [hL]
            have h6 : √(6000 : ℝ) * √6000 = 6000 := Real.mul_self_sqrt (by norm_num)
            have hC00 : C 0 0 = 1000 := by rw [hC1]; simp
            rw [hC00]
            simp only [mul_ite, mul_zero, ite_mul, zero_mul]
            rw [Fin.sum_univ_six]
            norm_num [Fin.ext_iff]
            rw [show (1 / 12 : ℝ) * (1000000000000001 / 1000000000000000 * √6000) * (1000000000000001 / 1000000000000000 * √6000) =
              1 / 12 * (1000000000000001 / 1000000000000000) ^ 2 * (√6000 * √6000) by ring, h6]
            rw [le_abs]
            left
            norm_num
      have := hrow (fun i => (wide.values i).getD 0)
      simp only [← hCdef]
      rw [this]
    show appendRows _ (.ok []) = _
    rw [hone]
    simp only [appendRows, List.append_nil]
  have h1 := hval 2
  have h2 := hval 1
  rw [h, show p = { p with entropy := 1 } from rfl, h2] at h1
  injection h1 with h1
  simp [rowsOf, List.replicate] at h1
  have := congrFun h1 0
  norm_num at this

/-- C104. A single random sample is an IndexError. -/
theorem C104_single {p : Params σ} (hm : p.method = .monteCarlo) (hn : p.numSamples = 1) (m : Vec 6) {C : Mat 6}
    (hC : C.PosSemidef) : sampleRow p m C hC.1 = .error .indexError := by
  obtain ⟨s, e1, -⟩ := C103_random p.rvs p.entropy m hC (n := p.numSamples) (by rw [hn]; norm_num) p.seed 1e-15
  unfold sampleRow random
  rw [hm]
  simp only
  rw [e1]
  simp only
  rw [if_pos hn]

/-- The hypotheses of C104 are met. -/
example : ∃ (p : Params Nat) (rows : List (Variant Unit)) (hs : Symmetric [wide]), p.method = .sigmaPoint ∧
    createVariants p [wide] hs = .ok rows := by
  have hsym : Symmetric [wide] := by
    intro c hc i j
    rw [List.mem_singleton.mp hc]
    simp [wide, eq_comm]
  let p : Params Nat := ⟨nearRoot, fun _ _ _ _ => [], 0, .sigmaPoint, 10, 1, 0, 0, none⟩
  obtain ⟨rows, h⟩ := (C104_defined (p := p) rfl [wide] hsym).mpr ⟨by simp, by
    intro c hc
    rw [List.mem_singleton.mp hc]
    exact ⟨fun _ => 0, fun i j => if i = j then 1000 else 0, fun _ => rfl, fun _ _ => rfl⟩, by simp [p], by simp [p]⟩
  exact ⟨p, rows, hsym, rfl, h⟩

end Verif.Sigma.Props
