import Verif.Sigma.Transform
import Verif.Sigma.Props
import Mathlib.Analysis.Calculus.FDeriv.Comp
import Mathlib.Analysis.Calculus.FDeriv.Linear
import Mathlib.Analysis.Calculus.FDeriv.Add
import Mathlib.Topology.Algebra.Module.FiniteDimension

/-! # Properties of the transformation of covariances by sampling (C171) and by derivatives (C172) -/

namespace Verif.Sigma.TransformProps

open Verif Verif.Sigma Verif.Sigma.Transform Verif.Sigma.Props Matrix

variable {D E F : Nat}

/-! ## C171: sampling -/

theorem loop_ok {σ : Type} {rvs : Vec D → Mat D → Nat → σ → List (Vec D)} {func : List (Vec D) → List (Vec E)} {n : Nat} {entropy : Nat → σ}
    (rows : List (Vec D × {c : Mat D // c.IsHermitian})) (k : Nat) (out : List (Option (Mat E)))
    (h : samplingLoop rvs func n entropy k rows = .ok out) :
    out.length = rows.length ∧ ∀ (i : Nat) (x : Vec D) (c : {c : Mat D // c.IsHermitian}), rows[i]? = some (x, c) →
      ∃ s, sampleRandom rvs (entropy (k + i)) x c.1 c.2 n none 1e-15 = .ok s ∧ out[i]? = some (npCov (func s.samples)) := by
  induction rows generalizing k out with
  | nil => cases h; exact ⟨rfl, by simp⟩
  | cons r rest ih =>
    obtain ⟨x, c⟩ := r
    rw [samplingLoop] at h
    cases h1 : sampleRandom rvs (entropy k) x c.1 c.2 n none 1e-15 with
    | error e => simp only [bind, Except.bind, h1] at h; cases h
    | ok s =>
      cases h2 : samplingLoop rvs func n entropy (k + 1) rest with
      | error e => simp only [bind, Except.bind, h1, h2] at h; cases h
      | ok tail =>
        simp only [bind, Except.bind, h1, h2, Except.ok.injEq] at h
        subst h
        obtain ⟨e1, e2⟩ := ih (k + 1) tail h2
        refine ⟨by simp [e1], fun i y d hi => ?_⟩
        cases i with
        | zero =>
          simp only [List.getElem?_cons_zero, Option.some.injEq, Prod.mk.injEq] at hi
          obtain ⟨rfl, rfl⟩ := hi
          exact ⟨s, h1, rfl⟩
        | succ i =>
          obtain ⟨s', h3, h4⟩ := e2 i y d (by simpa using hi)
          exact ⟨s', by rw [show k + (i + 1) = k + 1 + i by omega]; exact h3, by simpa using h4⟩

/-- One covariance for each row that has coordinates and a covariance, in their order; that of a row is the sample covariance of what the function
makes of the samples drawn for that row, and depends on no other row. -/
theorem C171_rows {σ : Type} {rvs : Vec D → Mat D → Nat → σ → List (Vec D)} {func : List (Vec D) → List (Vec E)} {n : Nat} {entropy : Nat → σ}
    {coords : List (Vec D)} {covs : List {c : Mat D // c.IsHermitian}} {out : List (Option (Mat E))}
    (h : transformSampling rvs func n entropy coords covs = .ok out) :
    out.length = min coords.length covs.length ∧ ∀ (k : Nat) (x : Vec D) (c : {c : Mat D // c.IsHermitian}), coords[k]? = some x →
      covs[k]? = some c → ∃ s, sampleRandom rvs (entropy k) x c.1 c.2 n none 1e-15 = .ok s ∧ out[k]? = some (npCov (func s.samples)) := by
  unfold transformSampling at h
  cases h1 : samplingLoop rvs func n entropy 0 (coords.zip covs) with
  | error e => rw [h1] at h; cases h
  | ok o =>
    rw [h1] at h
    have ho : o = out := by
      cases o with
      | nil => cases h
      | cons a b => simpa using h
    subst ho
    obtain ⟨e1, e2⟩ := loop_ok _ _ _ h1
    refine ⟨by rw [e1, List.length_zip], fun k x c hx hc => ?_⟩
    obtain ⟨s, e3, e4⟩ := e2 k x c (by rw [List.getElem?_zip_eq_some]; exact ⟨hx, hc⟩)
    exact ⟨s, by simpa using e3, e4⟩

/-- The call succeeds exactly if there is a row, and no covariance has an eigenvalue below -1e-15. -/
theorem C171_errors {σ : Type} (rvs : Vec D → Mat D → Nat → σ → List (Vec D)) (func : List (Vec D) → List (Vec E)) {n : Nat} (hn : n ≠ 0)
    (entropy : Nat → σ) (coords : List (Vec D)) (covs : List {c : Mat D // c.IsHermitian}) :
    ((∃ out, transformSampling rvs func n entropy coords covs = .ok out) ↔
      coords.zip covs ≠ [] ∧ ∀ p ∈ coords.zip covs, ¬ ∃ l < -(1e-15 : ℝ), HasEig p.2.1 l) ∧
    (coords.zip covs = [] → transformSampling rvs func n entropy coords covs = .error .valueError) := by
  have key : ∀ (rows : List (Vec D × {c : Mat D // c.IsHermitian})) (k : Nat),
      (∃ out, samplingLoop rvs func n entropy k rows = .ok out) ↔ ∀ p ∈ rows, ¬ ∃ l < -(1e-15 : ℝ), HasEig p.2.1 l := by
    intro rows
    induction rows with
    | nil => intro k; simp [samplingLoop]
    | cons r rest ih =>
      intro k
      obtain ⟨x, c⟩ := r
      have he := C103_random_error rvs (entropy k) x c.2 hn none (tol := 1e-15) (by norm_num)
      rw [min_self] at he
      rw [List.forall_mem_cons, ← ih (k + 1), ← he, samplingLoop]
      cases h1 : sampleRandom rvs (entropy k) x c.1 c.2 n none 1e-15 with
      | error e => simp [bind, Except.bind]
      | ok s =>
        cases h2 : samplingLoop rvs func n entropy (k + 1) rest with
        | error e => simp [bind, Except.bind]
        | ok tail => simp [bind, Except.bind]
  have hempty : coords.zip covs = [] → transformSampling rvs func n entropy coords covs = .error .valueError := fun h => by
    unfold transformSampling
    rw [h]
    rfl
  refine ⟨?_, hempty⟩
  rw [← key _ 0]
  constructor
  · rintro ⟨out, h⟩
    refine ⟨fun h0 => (by rw [hempty h0] at h; cases h), ?_⟩
    unfold transformSampling at h
    cases h1 : samplingLoop rvs func n entropy 0 (coords.zip covs) with
    | error e => rw [h1] at h; cases h
    | ok o => exact ⟨o, rfl⟩
  · rintro ⟨h0, out, h⟩
    have hl := (loop_ok _ _ _ h).1
    unfold transformSampling
    rw [h]
    cases out with
    | nil => exact absurd (List.length_eq_zero_iff.mp hl.symm) h0
    | cons a b => exact ⟨a :: b, rfl⟩

theorem sum_apply (xs : List (Vec E)) (i : Fin E) : xs.sum i = (xs.map fun x => x i).sum := by
  induction xs with
  | nil => rfl
  | cons a l ih => simp [ih]

theorem sum_div (l : List ℝ) (d : ℝ) : l.sum / d = (l.map fun x => x / d).sum := by
  induction l with
  | nil => simp
  | cons a l ih => rw [List.sum_cons, List.map_cons, List.sum_cons, add_div, ih]

theorem list_finset_sum {α : Type} (l : List α) (f : α → Fin E → ℝ) : ∑ i, (l.map fun a => f a i).sum = (l.map fun a => ∑ i, f a i).sum := by
  induction l with
  | nil => simp
  | cons a l ih => simp [Finset.sum_add_distrib, ih]

/-- The covariance of at least two samples: the spread of any combination `v` of the coordinates is the sum of its squared deviations from the mean
over the number of samples less one. In particular it is symmetric and no combination has a negative spread. -/
theorem C171_spread {xs : List (Vec E)} (h : 2 ≤ xs.length) :
    ∃ (M : Mat E) (m : Vec E), npCov xs = some M ∧ (∀ i, m i * xs.length = (xs.map fun x => x i).sum) ∧ Mᵀ = M ∧
      ∀ v : Vec E, v ⬝ᵥ (M *ᵥ v) = (xs.map fun x => (v ⬝ᵥ (x - m)) ^ 2).sum / (xs.length - 1) ∧ 0 ≤ v ⬝ᵥ (M *ᵥ v) := by
  have h0 : (0 : ℝ) < xs.length := by exact_mod_cast (by omega : 0 < xs.length)
  have h1 : (0 : ℝ) < (xs.length : ℝ) - 1 := by
    have : (2 : ℝ) ≤ xs.length := by exact_mod_cast h
    linarith
  refine ⟨Matrix.of fun i j => (xs.map fun x => (x - rowMean xs) i * (x - rowMean xs) j).sum / ((xs.length : ℝ) - 1), rowMean xs,
    by unfold npCov; rw [if_neg (by omega)], fun i => ?_, ?_, fun v => ?_⟩
  · unfold rowMean
    rw [Pi.smul_apply, smul_eq_mul, sum_apply]
    field_simp
  · ext i j
    simp only [transpose_apply, of_apply]
    congr 2
    refine List.map_congr_left fun x _ => mul_comm _ _
  · have hv : v ⬝ᵥ ((Matrix.of fun i j => (xs.map fun x => (x - rowMean xs) i * (x - rowMean xs) j).sum / ((xs.length : ℝ) - 1) : Mat E) *ᵥ v) =
        (xs.map fun x => (v ⬝ᵥ (x - rowMean xs)) ^ 2).sum / ((xs.length : ℝ) - 1) := by
      simp only [dotProduct, mulVec, of_apply]
      set d := (xs.length : ℝ) - 1
      have e1 : ∀ i j, (xs.map fun x => (x - rowMean xs) i * (x - rowMean xs) j).sum / d * v j =
          (xs.map fun x => (x - rowMean xs) i * (x - rowMean xs) j / d * v j).sum := by
        intro i j
        rw [sum_div, ← List.sum_map_mul_right, List.map_map]
        rfl
      simp only [e1]
      have e2 : ∀ i, v i * ∑ j, (xs.map fun x => (x - rowMean xs) i * (x - rowMean xs) j / d * v j).sum =
          (xs.map fun x => v i * ∑ j, (x - rowMean xs) i * (x - rowMean xs) j / d * v j).sum := by
        intro i
        rw [list_finset_sum, List.sum_map_mul_left]
      simp only [e2]
      rw [list_finset_sum, sum_div, List.map_map]
      congr 1
      refine List.map_congr_left fun x _ => ?_
      simp only [Function.comp_apply]
      rw [sq, Finset.sum_mul_sum, Finset.sum_div]
      refine Finset.sum_congr rfl fun i _ => ?_
      rw [Finset.mul_sum, Finset.sum_div]
      refine Finset.sum_congr rfl fun j _ => ?_
      ring
    refine ⟨hv, ?_⟩
    rw [hv]
    refine div_nonneg (List.sum_nonneg ?_) h1.le
    intro y hy
    obtain ⟨x, -, rfl⟩ := List.mem_map.mp hy
    exact sq_nonneg _

theorem rowMean_affine (A : Matrix (Fin F) (Fin E) ℝ) (b : Vec F) (xs : List (Vec E)) (h : xs ≠ []) :
    rowMean (xs.map fun x => A *ᵥ x + b) = A *ᵥ rowMean xs + b := by
  have h0 : (xs.length : ℝ) ≠ 0 := by
    have : xs.length ≠ 0 := by simpa using h
    exact_mod_cast this
  have hs : ∀ ys : List (Vec E), (ys.map fun x => A *ᵥ x + b).sum = A *ᵥ ys.sum + (ys.length : ℝ) • b := by
    intro ys
    induction ys with
    | nil => simp
    | cons y ys ih =>
      rw [List.map_cons, List.sum_cons, ih, List.sum_cons, mulVec_add, List.length_cons]
      push_cast
      rw [add_smul, one_smul]
      abel
  unfold rowMean
  rw [hs, List.length_map, smul_add, mulVec_smul, smul_smul]
  congr 1
  rw [one_div, inv_mul_cancel₀ h0, one_smul]

/-- The covariance is undefined (NaN) exactly for fewer than two samples. -/
theorem C171_undefined (xs : List (Vec E)) : npCov xs = none ↔ xs.length < 2 := by
  unfold npCov
  split <;> simp <;> omega

/-- A function that acts on every sample as `x ↦ A x + b`: the covariances are `A M Aᵀ`, where `M` are those that come out of the same samples
without the function. -/
theorem C171_affine (A : Matrix (Fin F) (Fin E) ℝ) (b : Vec F) (xs : List (Vec E)) :
    npCov (xs.map fun x => A *ᵥ x + b) = (npCov xs).map fun M => A * M * Aᵀ := by
  unfold npCov
  rw [List.length_map]
  split
  · rfl
  · rename_i hlen
    rw [Option.map_some, rowMean_affine A b xs (by rintro rfl; simp at hlen)]
    congr 1
    ext i j
    rw [mul_apply]
    simp only [mul_apply, transpose_apply, of_apply, List.map_map]
    set d := (xs.length : ℝ) - 1
    rw [sum_div, List.map_map]
    have e1 : ∀ (p q : Fin E), (xs.map fun x => (x - rowMean xs) p * (x - rowMean xs) q).sum / d =
        (xs.map fun x => (x - rowMean xs) p * (x - rowMean xs) q / d).sum := by
      intro p q
      rw [sum_div, List.map_map]
      rfl
    simp only [e1]
    have e2 : ∀ q, (∑ p, A i p * (xs.map fun x => (x - rowMean xs) p * (x - rowMean xs) q / d).sum) * A j q =
        (xs.map fun x => (∑ p, A i p * ((x - rowMean xs) p * (x - rowMean xs) q / d)) * A j q).sum := by
      intro q
      rw [List.sum_map_mul_right, ← list_finset_sum]
      congr 1
      refine Finset.sum_congr rfl fun p _ => ?_
      rw [List.sum_map_mul_left]
    simp only [e2]
    rw [list_finset_sum]
    congr 1
    refine List.map_congr_left fun x _ => ?_
    simp only [Function.comp_apply]
    rw [show A *ᵥ x + b - (A *ᵥ rowMean xs + b) = A *ᵥ (x - rowMean xs) by rw [mulVec_sub]; abel]
    simp only [mulVec, dotProduct]
    rw [Finset.sum_mul_sum, Finset.sum_div]
    simp only [Finset.sum_mul, Finset.sum_div]
    refine Eq.trans Finset.sum_comm ?_
    refine Finset.sum_congr rfl fun q _ => Finset.sum_congr rfl fun p _ => ?_
    ring

/-- Not true: that two calls with the same arguments give the same covariances. No seed is passed to the sampler. -/
theorem C171_repeat_false : ¬ ∀ (rvs : Vec 2 → Mat 2 → Nat → Bool → List (Vec 2)) (e e' : Nat → Bool) (coords : List (Vec 2))
    (covs : List {c : Mat 2 // c.IsHermitian}), transformSampling rvs id 2 e coords covs = transformSampling rvs id 2 e' coords covs := by
  intro hall
  let rvs : Vec 2 → Mat 2 → Nat → Bool → List (Vec 2) := fun _ _ _ b => if b then [0, 0] else [0, 1]
  let I : {c : Mat 2 // c.IsHermitian} := ⟨1, isHermitian_one⟩
  have h1 := hall rvs (fun _ => true) (fun _ => false) [0] [I]
  have run : ∀ b, ∃ out, transformSampling rvs id 2 (fun _ => b) [0] [I] = .ok out ∧ out[0]? = some (npCov (rvs 0 1 2 b)) := by
    intro b
    obtain ⟨s, hs, e1, -⟩ := C103_random rvs b (0 : Vec 2) (PosSemidef.one (n := Fin 2) (R := ℝ)) (n := 2) (by norm_num) none 1e-15
    have hs' : sampleRandom rvs b 0 I.1 I.2 2 none 1e-15 = .ok s := hs
    have : transformSampling rvs id 2 (fun _ => b) [0] [I] = .ok [npCov s.samples] := by
      unfold transformSampling
      simp only [List.zip_cons_cons, List.zip_nil_right, samplingLoop, bind, Except.bind, hs', id]
    exact ⟨_, this, by rw [e1]; rfl⟩
  obtain ⟨o1, a1, b1⟩ := run true
  obtain ⟨o2, a2, b2⟩ := run false
  rw [a1, a2] at h1
  injection h1 with h1
  rw [h1, b2] at b1
  have h2 : npCov (rvs 0 1 2 false) = npCov (rvs 0 1 2 true) := by simpa using b1
  simp only [npCov, rvs, rowMean] at h2
  norm_num at h2
  have := congrFun (congrFun h2 0) 0
  norm_num at this

/-! ## C172: derivatives -/

/-- The derivative as a matrix acts like the derivative. -/
theorem jacfwd_mulVec {f : Vec D → Vec E} {x v : Vec D} : jacfwd f x *ᵥ v = fderiv ℝ f x v := by
  ext i
  simp only [mulVec, dotProduct, jacfwd]
  conv_rhs => rw [show v = ∑ j, v j • (Pi.single j 1 : Vec D) by
    ext k; simp [Finset.sum_apply, Pi.single_apply]]
  rw [map_sum, Finset.sum_apply]
  refine Finset.sum_congr rfl fun j _ => ?_
  rw [map_smul, Pi.smul_apply, smul_eq_mul, mul_comm]

theorem ext_mulVec {M N : Matrix (Fin E) (Fin D) ℝ} (h : ∀ v, M *ᵥ v = N *ᵥ v) : M = N := by
  ext i j
  have := congrFun (h (Pi.single j 1)) i
  simpa [mulVec_single_one] using this

theorem jacfwd_comp {f : Vec D → Vec E} {g : Vec E → Vec F} {x : Vec D} (hf : DifferentiableAt ℝ f x) (hg : DifferentiableAt ℝ g (f x)) :
    jacfwd (g ∘ f) x = jacfwd g (f x) * jacfwd f x := by
  refine ext_mulVec fun v => ?_
  rw [← mulVec_mulVec, jacfwd_mulVec, jacfwd_mulVec, jacfwd_mulVec, fderiv_comp _ hg hf]
  rfl

theorem calc_ok {A : Type} {f : Func A D E} {coords : List (Vec D)} {mapped : List Bool} {kwargs : List (List Char × Value A)}
    {js : List (Matrix (Fin E) (Fin D) ℝ)} (h : calcJacobian f coords mapped kwargs = .ok js) :
    (mapped.length = kwargs.length + 1 ∧ mapped.head? = some true ∧ (mapped.tail.zip (kwargs.map (·.2))).all (Value.fits coords.length) = true ∧
      f.required ≤ kwargs.length ∧ kwargs.length ≤ f.total) ∧
    js = (coords.zipIdx).map fun p => jacfwd (f.run ((mapped.tail.zip (kwargs.map (·.2))).filterMap (Value.at p.2))) p.1 := by
  unfold calcJacobian at h
  simp only at h
  split at h
  · cases h
  rename_i h1
  split at h
  · cases h
  rename_i h2
  split at h
  · cases h
  rename_i h3
  push Not at h1 h3
  injection h with h
  rw [List.length_map] at h1 h3
  exact ⟨⟨h1.1, h1.2, not_not.mp h2, h3.1, h3.2⟩, h.symm⟩

theorem zipWith_get {α β γ : Type} (g : α → β → γ) (l : List α) (m : List β) (k : Nat) (a : α) (b : β) (ha : l[k]? = some a) (hb : m[k]? = some b) :
    (List.zipWith g l m)[k]? = some (g a b) := by
  rw [List.getElem?_zipWith, ha, hb]

theorem rows_model {A : Type} {f : Func A D E} {coords : List (Vec D)} {covs : List (Mat D)} {mapped : List Bool}
    {kwargs : List (List Char × Value A)} {out : List (Mat E)} (h : transformJacobian f coords covs mapped kwargs = .ok out) :
    out.length = coords.length ∧ coords.length = covs.length ∧
    ∀ (k : Nat) (x : Vec D) (C : Mat D), coords[k]? = some x → covs[k]? = some C → ∃ M J,
      out[k]? = some M ∧ M = J * C * Jᵀ ∧
      (∀ v, J *ᵥ v = fderiv ℝ (f.run ((mapped.tail.zip (kwargs.map (·.2))).filterMap (Value.at k))) x v) ∧
      (Cᵀ = C → Mᵀ = M) ∧ ((∀ v, 0 ≤ v ⬝ᵥ (C *ᵥ v)) → ∀ w, 0 ≤ w ⬝ᵥ (M *ᵥ w)) := by
  unfold transformJacobian at h
  cases h1 : calcJacobian f coords mapped kwargs with
  | error e => rw [h1] at h; cases h
  | ok js =>
    rw [h1] at h
    simp only at h
    split at h
    · cases h
    rename_i h2
    push Not at h2
    injection h with h
    obtain ⟨-, rfl⟩ := calc_ok h1
    rw [List.length_map, List.length_zipIdx] at h2
    refine ⟨by rw [← h, List.length_zipWith, List.length_map, List.length_zipIdx, ← h2, min_self], h2, fun k x C hx hC => ?_⟩
    refine ⟨_, jacfwd (f.run ((mapped.tail.zip (kwargs.map (·.2))).filterMap (Value.at k))) x, ?_, rfl, fun v => jacfwd_mulVec, fun hs => ?_,
      fun hp w => ?_⟩
    · rw [← h]
      exact zipWith_get _ _ _ _ _ _ (by rw [List.getElem?_map, List.getElem?_zipIdx, hx]; simp) hC
    · rw [transpose_mul, transpose_mul, transpose_transpose, hs, Matrix.mul_assoc]
    · rw [← mulVec_mulVec, ← mulVec_mulVec, dotProduct_mulVec, ← mulVec_transpose]
      exact hp _

/-- What an argument gives to row `k`: of one that is mapped over its entry for the row, of any other the whole. -/
def Gets {A : Type} (k : Nat) : Bool → Value A → Value A → Prop
  | true, v, w => ∃ xs a, v = .rows xs ∧ xs[k]? = some a ∧ w = .one a
  | false, v, w => w = v

theorem gets_all {A : Type} {n k : Nat} (hk : k < n) (L : List (Bool × Value A)) (h : L.all (Value.fits n) = true) :
    List.Forall₂ (fun p w => Gets k p.1 p.2 w) L (L.filterMap (Value.at k)) := by
  induction L with
  | nil => exact .nil
  | cons p L ih =>
    rw [List.all_cons, Bool.and_eq_true] at h
    have ih := ih h.2
    have hp := h.1
    obtain ⟨b, v⟩ := p
    cases b with
    | false =>
      rw [List.filterMap_cons_some (f := Value.at k) (a := (false, v)) (b := v) rfl]
      exact .cons rfl ih
    | true =>
      cases v with
      | one a => exact absurd hp (by simp [Value.fits])
      | rows xs =>
        have hl : xs.length = n := by simpa [Value.fits] using hp
        have hx : xs[k]? = some (xs[k]'(by omega)) := List.getElem?_eq_getElem (by omega)
        rw [List.filterMap_cons_some (b := .one (xs[k]'(by omega))) (by simp [Value.at, hx])]
        exact .cons ⟨xs, _, rfl, hx, rfl⟩ ih

/-- One covariance for each row: `J C Jᵀ` of the row's covariance, where `J` is the derivative at the row of the function with the row's arguments,
one for each keyword argument in their order; it is symmetric if `C` is, and no combination has a negative spread if that is so for `C`. -/
theorem C172_rows {A : Type} {f : Func A D E} {coords : List (Vec D)} {covs : List (Mat D)} {mapped : List Bool}
    {kwargs : List (List Char × Value A)} {out : List (Mat E)} (h : transformJacobian f coords covs mapped kwargs = .ok out) :
    out.length = coords.length ∧ coords.length = covs.length ∧
    ∀ (k : Nat) (x : Vec D) (C : Mat D), coords[k]? = some x → covs[k]? = some C → ∃ M J args,
      out[k]? = some M ∧ M = J * C * Jᵀ ∧ args.length = kwargs.length ∧
      (∀ (j : Nat) (b : Bool) (v : List Char × Value A) (w : Value A), mapped[j + 1]? = some b → kwargs[j]? = some v → args[j]? = some w →
        Gets k b v.2 w) ∧
      (∀ v, J *ᵥ v = fderiv ℝ (f.run args) x v) ∧
      (Cᵀ = C → Mᵀ = M) ∧ ((∀ v, 0 ≤ v ⬝ᵥ (C *ᵥ v)) → ∀ w, 0 ≤ w ⬝ᵥ (M *ᵥ w)) := by
  obtain ⟨h1, h2, h3⟩ := rows_model h
  refine ⟨h1, h2, fun k x C hx hC => ?_⟩
  obtain ⟨M, J, e1, e2, e3, e4, e5⟩ := h3 k x C hx hC
  have hk : k < coords.length := (List.getElem?_eq_some_iff.mp hx).1
  have fits : mapped.length = kwargs.length + 1 ∧ (mapped.tail.zip (kwargs.map (·.2))).all (Value.fits coords.length) = true := by
    unfold transformJacobian at h
    cases h1 : calcJacobian f coords mapped kwargs with
    | error e => rw [h1] at h; cases h
    | ok js =>
      obtain ⟨⟨a, -, b, -⟩, -⟩ := calc_ok h1
      exact ⟨a, b⟩
  have g := gets_all hk _ fits.2
  refine ⟨M, J, _, e1, e2, ?_, ?_, e3, e4, e5⟩
  · rw [← g.length_eq, List.length_zip, List.length_tail, List.length_map, fits.1]
    omega
  · intro j b v w hb hv hw
    have hz : (mapped.tail.zip (kwargs.map (·.2)))[j]? = some (b, v.2) := by
      rw [List.getElem?_zip_eq_some, List.getElem?_tail, List.getElem?_map, hv]
      exact ⟨hb, rfl⟩
    obtain ⟨hz1, hz2⟩ := List.getElem?_eq_some_iff.mp hz
    obtain ⟨hw1, hw2⟩ := List.getElem?_eq_some_iff.mp hw
    have := (List.forall₂_iff_get.mp g).2 j hz1 hw1
    simp only [List.get_eq_getElem] at this
    rw [hz2, hw2] at this
    exact this

/-- Of two functions one after the other, the second at the image of the first: the covariances are those of the composition; if the second undoes
the first near the row, the row's covariance comes back. -/
theorem C172_compose {f : Vec D → Vec E} {g : Vec E → Vec F} {x : Vec D} (C : Mat D) (hf : DifferentiableAt ℝ f x)
    (hg : DifferentiableAt ℝ g (f x)) :
    jacfwd g (f x) * (jacfwd f x * C * (jacfwd f x)ᵀ) * (jacfwd g (f x))ᵀ = jacfwd (g ∘ f) x * C * (jacfwd (g ∘ f) x)ᵀ := by
  rw [jacfwd_comp hf hg, transpose_mul]
  simp only [Matrix.mul_assoc]

theorem C172_back {f : Vec D → Vec E} {g : Vec E → Vec D} {x : Vec D} {C : Mat D} (hf : DifferentiableAt ℝ f x)
    (hg : DifferentiableAt ℝ g (f x)) (hinv : ∀ᶠ y in nhds x, g (f y) = y) {o1 : List (Mat E)} {o2 : List (Mat D)}
    (h1 : transformJacobian (⟨0, 0, fun _ => f⟩ : Func Unit D E) [x] [C] [true] [] = .ok o1)
    (h2 : transformJacobian (⟨0, 0, fun _ => g⟩ : Func Unit E D) [f x] o1 [true] [] = .ok o2) : o2 = [C] := by
  have e1 : o1 = [jacfwd f x * C * (jacfwd f x)ᵀ] := by
    simpa [transformJacobian, calcJacobian, List.zipIdx] using h1.symm
  subst e1
  have e2 : o2 = [jacfwd g (f x) * (jacfwd f x * C * (jacfwd f x)ᵀ) * (jacfwd g (f x))ᵀ] := by
    simpa [transformJacobian, calcJacobian, List.zipIdx] using h2.symm
  rw [e2, C172_compose C hf hg]
  have hid : jacfwd (g ∘ f) x = 1 := by
    refine ext_mulVec fun v => ?_
    rw [jacfwd_mulVec, Filter.EventuallyEq.fderiv_eq (show g ∘ f =ᶠ[nhds x] id from hinv), fderiv_id, one_mulVec]
    rfl
  rw [hid, transpose_one, Matrix.one_mul, Matrix.mul_one]

/-- The names of the keyword arguments make no difference: only their order does. -/
theorem C172_names {A : Type} (f : Func A D E) (coords : List (Vec D)) (covs : List (Mat D)) (mapped : List Bool)
    (kwargs kwargs' : List (List Char × Value A)) (h : kwargs.map (·.2) = kwargs'.map (·.2)) :
    transformJacobian f coords covs mapped kwargs = transformJacobian f coords covs mapped kwargs' := by
  unfold transformJacobian calcJacobian
  rw [h]

theorem errors_model {A : Type} (f : Func A D E) (coords : List (Vec D)) (covs : List (Mat D)) (mapped : List Bool)
    (kwargs : List (List Char × Value A)) :
    ((∃ out, transformJacobian f coords covs mapped kwargs = .ok out) ↔
      mapped.length = kwargs.length + 1 ∧ mapped.head? = some true ∧
      (∀ (k : Nat) (b : Bool) (v : List Char × Value A), mapped[k + 1]? = some b → kwargs[k]? = some v → Value.fits coords.length (b, v.2) = true) ∧
      f.required ≤ kwargs.length ∧ kwargs.length ≤ f.total ∧ coords.length = covs.length) ∧
    (mapped = [true] → kwargs = [] → 0 < f.required → transformJacobian f coords covs mapped kwargs = .error .typeError) := by
  have hall : (mapped.tail.zip (kwargs.map (·.2))).all (Value.fits coords.length) = true ↔
      ∀ (k : Nat) (b : Bool) (v : List Char × Value A), mapped[k + 1]? = some b → kwargs[k]? = some v → Value.fits coords.length (b, v.2) = true := by
    rw [List.all_eq_true]
    constructor
    · intro h k b v hb hv
      refine h (b, v.2) (List.mem_of_getElem? (i := k) ?_)
      rw [List.getElem?_zip_eq_some, List.getElem?_tail, List.getElem?_map, hv]
      exact ⟨hb, rfl⟩
    · intro h p hp
      obtain ⟨k, hk⟩ := List.mem_iff_getElem?.mp hp
      rw [List.getElem?_zip_eq_some, List.getElem?_tail, List.getElem?_map, Option.map_eq_some_iff] at hk
      obtain ⟨hk1, v, hv, hk2⟩ := hk
      have := h k p.1 v hk1 hv
      rw [hk2] at this
      exact this
  refine ⟨?_, fun h1 h2 h3 => ?_⟩
  · rw [← hall]
    constructor
    · rintro ⟨out, h⟩
      have hl := (rows_model h).2.1
      unfold transformJacobian at h
      cases h1 : calcJacobian f coords mapped kwargs with
      | error e => rw [h1] at h; cases h
      | ok js =>
        obtain ⟨⟨a, b, c, d, e⟩, -⟩ := calc_ok h1
        exact ⟨a, b, c, d, e, hl⟩
    · rintro ⟨a, b, c, d, e, hl⟩
      unfold transformJacobian calcJacobian
      simp only [List.length_map]
      rw [if_neg (by push Not; exact ⟨a, b⟩), if_neg (not_not.mpr c), if_neg (by push Not; exact ⟨d, e⟩)]
      simp only [List.length_map, List.length_zipIdx]
      rw [if_neg (not_not.mpr hl)]
      exact ⟨_, rfl⟩
  · subst h1; subst h2
    unfold transformJacobian calcJacobian
    simp [h3]

/-- When the call is refused: it succeeds exactly if there is an axis for the row and for each argument, those that are mapped over have one entry for
each row, the number of arguments is one the function takes, and there are as many covariances as rows. -/
theorem C172_errors {A : Type} (f : Func A D E) (coords : List (Vec D)) (covs : List (Mat D)) (mapped : List Bool)
    (kwargs : List (List Char × Value A)) :
    ((∃ out, transformJacobian f coords covs mapped kwargs = .ok out) ↔
      mapped.length = kwargs.length + 1 ∧ mapped.head? = some true ∧
      (∀ (k : Nat) (v : List Char × Value A), mapped[k + 1]? = some true → kwargs[k]? = some v →
        ∃ xs, v.2 = .rows xs ∧ xs.length = coords.length) ∧
      f.required ≤ kwargs.length ∧ kwargs.length ≤ f.total ∧ coords.length = covs.length) ∧
    (mapped = [true] → kwargs = [] → 0 < f.required → transformJacobian f coords covs mapped kwargs = .error .typeError) := by
  obtain ⟨h1, h2⟩ := errors_model f coords covs mapped kwargs
  refine ⟨?_, h2⟩
  rw [h1]
  have one : ∀ (b : Bool) (v : Value A), Value.fits coords.length (b, v) = true ↔
      (b = true → ∃ xs, v = .rows xs ∧ xs.length = coords.length) := by
    intro b v
    cases b <;> cases v <;> simp [Value.fits]
  constructor
  · rintro ⟨a, b, c, d⟩
    exact ⟨a, b, fun k v hk hv => (one _ _).mp (c k true v hk hv) rfl, d⟩
  · rintro ⟨a, b, c, d⟩
    exact ⟨a, b, fun k b' v hk hv => (one _ _).mpr fun hb => c k v (hb ▸ hk) hv, d⟩

/-- All calls in the library but one pass to each parameter of the function the value meant for it, in order, with an axis for each; the names are those
of the parameters except for one that differs by a letter. The one for geodetic coordinates leaves out two that are needed. -/
theorem C172_library : (∀ c ∈ libraryCalls, c ≠ cartesianToGeodetic →
      c.mapped.length = c.kwargs.length + 1 ∧ c.mapped.head? = some true ∧ c.kwargs.length = c.params.length ∧
      ∀ (k : Nat) (p : List Char × Bool) (n : List Char), c.params[k]? = some p → c.kwargs[k]? = some n →
        n = p.1 ∨ (p.1 = "observation_time".toList ∧ n = "observation_times".toList)) ∧
    ∀ (A : Type) (run : List (Value A) → Vec 6 → Vec 6) (coords : List (Vec 6)) (covs : List (Mat 6)),
      transformJacobian (cartesianToGeodetic.func run) coords covs cartesianToGeodetic.mapped [] = .error .typeError := by
  constructor
  · have key : ∀ c ∈ libraryCalls, c ≠ cartesianToGeodetic →
        c.mapped.length = c.kwargs.length + 1 ∧ c.mapped.head? = some true ∧ c.kwargs.length = c.params.length ∧
        ∀ q ∈ c.params.zip c.kwargs, q.2 = q.1.1 ∨ (q.1.1 = "observation_time".toList ∧ q.2 = "observation_times".toList) := by
      decide +kernel
    intro c hc hne
    obtain ⟨a, b, d, e⟩ := key c hc hne
    refine ⟨a, b, d, fun k p n hp hn => ?_⟩
    exact e (p, n) (List.mem_of_getElem? (i := k) (by rw [List.getElem?_zip_eq_some]; exact ⟨hp, hn⟩))
  · intro A run coords covs
    exact (C172_errors _ coords covs _ []).2 rfl rfl (show 0 < (cartesianToGeodetic.params.filter fun p => !p.2).length by decide +kernel)

/-- Not true: that arguments can be given in any order, as they have names. -/
theorem C172_order_false : ¬ ∀ (f : Func ℝ 1 1) (coords : List (Vec 1)) (covs : List (Mat 1)) (mapped : List Bool)
    (kwargs kwargs' : List (List Char × Value ℝ)), kwargs.Perm kwargs' →
    transformJacobian f coords covs mapped kwargs = transformJacobian f coords covs mapped kwargs' := by
  intro hall
  let run : List (Value ℝ) → Vec 1 → Vec 1 := fun args x => match args with
    | [.one a, .one _] => a • x
    | _ => x
  have h := hall ⟨2, 2, run⟩ [0] [1] [true, false, false] [("mu".toList, .one 2), ("tol".toList, .one 0)]
    [("tol".toList, .one 0), ("mu".toList, .one 2)] (List.Perm.swap _ _ _)
  have hj : ∀ a : ℝ, jacfwd (fun x : Vec 1 => a • x) 0 = a • 1 := by
    intro a
    refine ext_mulVec fun v => ?_
    rw [jacfwd_mulVec, show (fun x : Vec 1 => a • x) = a • id from rfl, fderiv_const_smul differentiableAt_id, fderiv_id]
    simp [smul_mulVec]
  simp only [transformJacobian, calcJacobian, List.map_cons, List.map_nil, List.length_cons, List.length_nil, List.head?_cons, List.tail_cons,
    List.zip_cons_cons, List.zip_nil_right, Value.fits, List.all_cons, List.all_nil, List.zipIdx, List.filterMap_cons, List.filterMap_nil,
    Value.at, run] at h
  norm_num at h
  rw [show (fun x : Vec 1 => (2 : ℝ) • x) = fun x => (2 : ℝ) • x from rfl, hj] at h
  have h0 := congrFun (congrFun h 0) 0
  have hz : jacfwd (fun _ : Vec 1 => (0 : Vec 1)) 0 = 0 := by
    refine ext_mulVec fun v => ?_
    rw [jacfwd_mulVec]
    simp
  rw [hz] at h0
  norm_num [Matrix.mul_apply] at h0

/-- A concrete case of a way there and back: doubling and halving. -/
theorem C172_case : ∃ (f g : Vec 2 → Vec 2) (x : Vec 2) (C : Mat 2) (o1 o2 : List (Mat 2)), DifferentiableAt ℝ f x ∧ DifferentiableAt ℝ g (f x) ∧
    (∀ᶠ y in nhds x, g (f y) = y) ∧ transformJacobian (⟨0, 0, fun _ => f⟩ : Func Unit 2 2) [x] [C] [true] [] = .ok o1 ∧
    transformJacobian (⟨0, 0, fun _ => g⟩ : Func Unit 2 2) [f x] o1 [true] [] = .ok o2 ∧ f x ≠ x := by
  refine ⟨fun x => (2 : ℝ) • x, fun x => (1 / 2 : ℝ) • x, 1, 1, _, _, by fun_prop, by fun_prop, .of_forall fun y => ?_, rfl, rfl, ?_⟩
  · simp [smul_smul]
  · intro h
    have := congrFun h 0
    norm_num at this

end Verif.Sigma.TransformProps
