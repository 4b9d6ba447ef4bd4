import Verif.Lsq.Props
import Mathlib.Analysis.Calculus.LocalExtr.Basic
import Mathlib.Analysis.Calculus.Deriv.Add
import Mathlib.Analysis.Calculus.Deriv.Mul
import Mathlib.Analysis.SpecialFunctions.Sqrt
import Mathlib.LinearAlgebra.Matrix.ToLin
import Mathlib.LinearAlgebra.Matrix.ToLinearEquiv
import Mathlib.LinearAlgebra.FiniteDimensional.Lemmas
import Mathlib.Algebra.Order.BigOperators.Ring.Finset
import Mathlib.Algebra.Order.Star.Real

/-! # Covariances of least-squares fits: the properties -/

namespace Verif.Lsq.Props

open Verif Eval Eval.Spec Lsq.Spec

theorem normal_mulVec (jac : List (Fin 6 → ℝ)) (v : Fin 6 → ℝ) (i : Fin 6) :
    (normal jac).mulVec v i = (jac.map fun r => r i * ∑ k, r k * v k).sum := by
  induction jac with
  | nil => simp [normal, Matrix.mulVec, dotProduct]
  | cons r jac ih =>
    have : (normal (r :: jac)).mulVec v i = r i * (∑ k, r k * v k) + (normal jac).mulVec v i := by
      simp only [normal, Matrix.mulVec, dotProduct, Matrix.of_apply, List.map_cons, List.sum_cons, add_mul, Finset.sum_add_distrib,
        Finset.mul_sum, mul_assoc]
    rw [this, ih, List.map_cons, List.sum_cons]

theorem normal_form (jac : List (Fin 6 → ℝ)) (v : Fin 6 → ℝ) :
    ∑ i, v i * (normal jac).mulVec v i = (jac.map fun r => (∑ k, r k * v k) ^ 2).sum := by
  simp only [normal_mulVec]
  induction jac with
  | nil => simp
  | cons r jac ih =>
    simp only [List.map_cons, List.sum_cons, mul_add, Finset.sum_add_distrib]
    rw [ih]
    congr 1
    rw [sq, Finset.sum_mul]
    apply Finset.sum_congr rfl
    intro k _
    ring

theorem singular_of {jac : List (Fin 6 → ℝ)} {v : Fin 6 → ℝ} (hv : v ≠ 0) (h : ∀ r ∈ jac, ∑ k, r k * v k = 0) :
    covariance jac = none := by
  unfold covariance
  rw [if_neg]
  intro hu
  apply hv
  have h0 : (normal jac).mulVec v = 0 := by
    funext i
    rw [normal_mulVec]
    apply List.sum_eq_zero
    intro x hx
    obtain ⟨r, hr, rfl⟩ := List.mem_map.mp hx
    rw [h r hr, mul_zero]
  exact (Matrix.mulVec_injective_iff_isUnit.mpr hu) (by rw [h0, Matrix.mulVec_zero])

/-- With fewer than six rows there is a direction that no residual depends on. -/
theorem few_rows {jac : List (Fin 6 → ℝ)} (h : jac.length < 6) : covariance jac = none := by
  let J : Matrix (Fin jac.length) (Fin 6) ℝ := fun i => jac.get i
  have hk : LinearMap.ker J.mulVecLin ≠ ⊥ := LinearMap.ker_ne_bot_of_finrank_lt (by simpa using h)
  obtain ⟨v, hv, hne⟩ := (Submodule.ne_bot_iff _).mp hk
  refine singular_of hne ?_
  intro r hr
  obtain ⟨i, rfl⟩ := List.get_of_mem hr
  exact congrFun (LinearMap.mem_ker.mp hv) i

/-- With six rows that are linearly dependent likewise. -/
theorem six_rows {jac : List (Fin 6 → ℝ)} (h : jac.length = 6) {c : List ℝ} (hl : c.length = jac.length) (hc : ∃ a ∈ c, a ≠ 0)
    (hz : ∀ k, (List.zipWith (fun a (r : Fin 6 → ℝ) => a * r k) c jac).sum = 0) : covariance jac = none := by
  let J : Matrix (Fin 6) (Fin 6) ℝ := fun i => jac.get (i.cast h.symm)
  let w : Fin 6 → ℝ := fun i => c.get (i.cast (hl.trans h).symm)
  have hw : w ≠ 0 := by
    obtain ⟨a, ha, hne⟩ := hc
    obtain ⟨i, rfl⟩ := List.get_of_mem ha
    intro h0
    exact hne (congrFun h0 (i.cast (hl.trans h)))
  have hJ : Matrix.vecMul w J = 0 := by
    funext k
    have : (List.zipWith (fun a (r : Fin 6 → ℝ) => a * r k) c jac) = List.ofFn fun i => w i * J i k := by
      apply List.ext_getElem
      · simp [hl, h]
      · intro n h1 h2
        rw [List.getElem_zipWith, List.getElem_ofFn]
        rfl
    rw [show Matrix.vecMul w J k = ∑ i, w i * J i k from rfl, ← List.sum_ofFn, ← this, hz k]
    rfl
  have hdet : J.det = 0 := Matrix.exists_vecMul_eq_zero_iff.mp ⟨w, hw, hJ⟩
  obtain ⟨v, hv, h0⟩ := Matrix.exists_mulVec_eq_zero_iff.mpr hdet
  refine singular_of hv ?_
  intro r hr
  obtain ⟨i, rfl⟩ := List.get_of_mem hr
  exact congrFun h0 (i.cast h)

variable {I N Y Z : Type} [LinearOrder I] [DecidableEq N]

theorem fit_cov {E : Env I N Y Z} {o : Orb I State} {observations : List (Obs I N Y)} {ignore : Option (List N)} {kwargs : Kwargs}
    (ho : InOrder observations) (hne : used observations ignore ≠ []) {s : Solution}
    (hs : E.solver (fun x => .ok ((used observations ignore).map fun b => Real.sqrt (chi2 E (heliocentric x o.state.mjd) b)))
      o.state.values (options kwargs) = .ok s) :
    ∃ row members, fit E [o] observations ignore kwargs = .ok ([row], members) ∧ row.fitted.state.values = s.x ∧
      row.fitted.state.cov = covariance s.jac := by
  have hfun := residualFunction_eq E o.id o.state.mjd (inOrder_used ho ignore) hne
  obtain ⟨fitted, members, he, hp⟩ := Eval.Props.C58_pairs E.predict E.res [(⟨o.id, solved o.state s⟩ : Orb I State)] observations 6
    (ignore.getD []) (by simp) (by simp) ho
  obtain ⟨os, hperm, -, hf, -, -⟩ := hp.orbits
  have hos : os = [⟨o.id, solved o.state s⟩] := List.perm_singleton.mp hperm
  subst hos
  have hlen : fitted.length = 1 := by simpa using congrArg List.length hf
  obtain ⟨f, rfl⟩ := List.length_eq_one_iff.mp hlen
  simp only [List.map_cons, List.map_nil, List.cons.injEq, and_true, Prod.mk.injEq] at hf
  have hst : f.state = solved o.state s := hf.2
  refine ⟨⟨f, s.nfev, s.success, s.status⟩, _, fit_ok (by rw [included_eq, hfun]; exact hs) he, ?_, ?_⟩
  · show f.state.values = _
    rw [hst]; rfl
  · show f.state.cov = _
    rw [hst]; rfl

/-- The covariance of the fitted orbit is the inverse of the product of the transposed Jacobian and the Jacobian, and missing exactly
when there is none. -/
theorem C147_inverse {E : Env I N Y Z} {o : Orb I State} {observations : List (Obs I N Y)} {ignore : Option (List N)} {kwargs : Kwargs}
    (ho : InOrder observations) (hne : used observations ignore ≠ []) {s : Solution}
    (hs : E.solver (fun x => .ok ((used observations ignore).map fun b => Real.sqrt (chi2 E (heliocentric x o.state.mjd) b)))
      o.state.values (options kwargs) = .ok s) :
    ∃ row members, fit E [o] observations ignore kwargs = .ok ([row], members) ∧
      ∀ C : Matrix (Fin 6) (Fin 6) ℝ, row.fitted.state.cov = some C ↔
        C * Matrix.of (fun i j => (s.jac.map fun r => r i * r j).sum) = 1 := by
  obtain ⟨row, members, hf, -, hc⟩ := fit_cov ho hne hs
  refine ⟨row, members, hf, ?_⟩
  intro C
  show _ ↔ C * normal s.jac = 1
  rw [hc]
  unfold covariance
  constructor
  · intro h
    split at h
    · rename_i hu
      simp only [Option.some.injEq] at h
      rw [← h, Matrix.nonsing_inv_mul _ ((Matrix.isUnit_iff_isUnit_det _).mp hu)]
    · cases h
  · intro h
    have hu : IsUnit (normal s.jac) := IsUnit.of_mul_eq_one C (mul_eq_one_comm.mp h)
    rw [if_pos hu, Matrix.inv_eq_left_inv h]

/-- Fewer than six observations never give a covariance, although every one has two components. -/
theorem C147_few {E : Env I N Y Z} {o : Orb I State} {observations : List (Obs I N Y)} {ignore : Option (List N)} {kwargs : Kwargs}
    (ho : InOrder observations) (hne : used observations ignore ≠ []) (hlen : (used observations ignore).length < 6) {s : Solution}
    (hs : E.solver (fun x => .ok ((used observations ignore).map fun b => Real.sqrt (chi2 E (heliocentric x o.state.mjd) b)))
      o.state.values (options kwargs) = .ok s) (hj : s.jac.length = (used observations ignore).length) :
    ∃ row members, fit E [o] observations ignore kwargs = .ok ([row], members) ∧ row.fitted.state.cov = none := by
  obtain ⟨row, members, hf, -, hc⟩ := fit_cov ho hne hs
  exact ⟨row, members, hf, hc.trans (few_rows (hj ▸ hlen))⟩

omit [LinearOrder I] [DecidableEq N] in
theorem sum_derivative {E : Env I N Y Z} {mjd : ℚ} {obs : List (Obs I N Y)} {s : Solution} (hj : Jacobian E mjd obs s)
    (hpos : ∀ b x, 0 ≤ chi2 E (heliocentric x mjd) b) (v : Fin 6 → ℝ) :
    HasDerivAt (fun t : ℝ => (obs.map fun b => chi2 E (heliocentric (fun k => s.x k + t * v k) mjd) b).sum)
      (List.zipWith (fun a (r : Fin 6 → ℝ) => a * ∑ k, r k * v k) (obs.map fun b => 2 * Real.sqrt (chi2 E (heliocentric s.x mjd) b))
        s.jac).sum 0 := by
  unfold Jacobian at hj
  obtain ⟨x, jac, _, _, _⟩ := s
  simp only at hj ⊢
  induction hj with
  | nil => simpa using hasDerivAt_const (0 : ℝ) (0 : ℝ)
  | @cons b r obs jac h1 _ ih =>
    simp only [List.map_cons, List.sum_cons, List.zipWith_cons_cons]
    refine HasDerivAt.add ?_ ih
    have h2 := (h1 v).pow 2
    have h3 : (fun t : ℝ => Real.sqrt (chi2 E (heliocentric (fun k => x k + t * v k) mjd) b)) ^ 2 =
        fun t => chi2 E (heliocentric (fun k => x k + t * v k) mjd) b := by
      funext t
      exact Real.sq_sqrt (hpos b _)
    rw [h3] at h2
    simpa using h2

theorem zipWith_sum_zero {c : List ℝ} {jac : List (Fin 6 → ℝ)} (k : Fin 6)
    (h : ∀ v : Fin 6 → ℝ, (List.zipWith (fun a (r : Fin 6 → ℝ) => a * ∑ k, r k * v k) c jac).sum = 0) :
    (List.zipWith (fun a (r : Fin 6 → ℝ) => a * r k) c jac).sum = 0 := by
  have := h (Pi.single k 1)
  simpa [Pi.single_apply] using this

/-- Nor do six observations at a minimum where they are not all met exactly: the gradient of the sum of squares vanishes there, so the
rows of the Jacobian are linearly dependent. -/
theorem C147_six {E : Env I N Y Z} {o : Orb I State} {observations : List (Obs I N Y)} {ignore : Option (List N)} {kwargs : Kwargs}
    (ho : InOrder observations) (hlen : (used observations ignore).length = 6) {s : Solution}
    (hs : E.solver (fun x => .ok ((used observations ignore).map fun b => Real.sqrt (chi2 E (heliocentric x o.state.mjd) b)))
      o.state.values (options kwargs) = .ok s) (hj : Jacobian E o.state.mjd (used observations ignore) s)
    (hpos : ∀ b x, 0 ≤ chi2 E (heliocentric x o.state.mjd) b)
    (hmin : IsLocalMin (fun x => ((used observations ignore).map fun b => chi2 E (heliocentric x o.state.mjd) b).sum) s.x)
    (hres : ∃ b ∈ used observations ignore, chi2 E (heliocentric s.x o.state.mjd) b ≠ 0) :
    ∃ row members, fit E [o] observations ignore kwargs = .ok ([row], members) ∧ row.fitted.state.cov = none := by
  have hne : used observations ignore ≠ [] := by
    intro h
    rw [h] at hlen
    simp at hlen
  obtain ⟨row, members, hf, -, hc⟩ := fit_cov ho hne hs
  refine ⟨row, members, hf, hc.trans ?_⟩
  have hl : s.jac.length = 6 := (List.Forall₂.length_eq hj).symm.trans hlen
  refine six_rows hl (c := (used observations ignore).map fun b => 2 * Real.sqrt (chi2 E (heliocentric s.x o.state.mjd) b))
    (by rw [List.length_map, hlen, hl]) ?_ ?_
  · obtain ⟨b, hb, hne⟩ := hres
    refine ⟨_, List.mem_map_of_mem hb, ?_⟩
    have : 0 < chi2 E (heliocentric s.x o.state.mjd) b := lt_of_le_of_ne (hpos b _) (Ne.symm hne)
    have := Real.sqrt_pos.mpr this
    positivity
  · intro k
    apply zipWith_sum_zero
    intro v
    have hd := sum_derivative hj hpos v
    have hloc : IsLocalMin (fun t : ℝ => ((used observations ignore).map fun b =>
        chi2 E (heliocentric (fun k => s.x k + t * v k) o.state.mjd) b).sum) 0 := by
      have hcont : ContinuousAt (fun t : ℝ => fun k => s.x k + t * v k) 0 := by fun_prop
      have h0 : (fun k => s.x k + (0 : ℝ) * v k) = s.x := by funext k; simp
      have htend : Filter.Tendsto (fun t : ℝ => fun k => s.x k + t * v k) (nhds 0) (nhds s.x) := by
        have := hcont.tendsto
        rwa [h0] at this
      have := htend.eventually hmin
      refine this.mono ?_
      intro t ht
      simpa [h0] using ht
    exact hloc.hasDerivAt_eq_zero hd

/-! ## Comparison with weighted least squares -/

theorem form_eq {m n : Nat} (W : Matrix (Fin m) (Fin n) ℝ) (x : Fin m → ℝ) (y : Fin n → ℝ) :
    ∑ i, ∑ j, x i * W i j * y j = dotProduct x (W.mulVec y) := by
  simp only [dotProduct, Matrix.mulVec, Finset.mul_sum, mul_assoc]

theorem form_comm {m : Nat} {W : Matrix (Fin m) (Fin m) ℝ} (hW : W.IsHermitian) (x y : Fin m → ℝ) :
    dotProduct x (W.mulVec y) = dotProduct y (W.mulVec x) := by
  have hs : W.transpose = W := by
    have := hW.eq
    rwa [Matrix.conjTranspose_eq_transpose_of_trivial] at this
  rw [dotProduct_comm, ← Matrix.vecMul_transpose, hs, ← Matrix.dotProduct_mulVec]

/-- The Cauchy–Schwarz inequality for a positive semidefinite form. -/
theorem cauchy {m : Nat} {W : Matrix (Fin m) (Fin m) ℝ} (hW : W.PosSemidef) (x y : Fin m → ℝ) :
    dotProduct x (W.mulVec y) ^ 2 ≤ dotProduct x (W.mulVec x) * dotProduct y (W.mulVec y) := by
  have h : ∀ t : ℝ, 0 ≤ dotProduct y (W.mulVec y) * (t * t) + 2 * dotProduct x (W.mulVec y) * t + dotProduct x (W.mulVec x) := by
    intro t
    have := hW.dotProduct_mulVec_nonneg (x + t • y)
    simp only [star_trivial, Matrix.mulVec_add, Matrix.mulVec_smul, dotProduct_add, add_dotProduct, dotProduct_smul, smul_dotProduct,
      smul_eq_mul] at this
    rw [form_comm hW.1 y x] at this
    linarith
  have := discrim_le_zero h
  unfold discrim at this
  nlinarith

omit [LinearOrder I] [DecidableEq N] in
/-- One row of the Jacobian loses information: its square is at most the weighted square of the change on the sky. -/
theorem row_le {m : Nat} {E : Env I N Y Z} {mjd : ℚ} {x row : Fin 6 → ℝ} {k : Sky m} {b : Obs I N Y} (hd : Describes E mjd x k b)
    (hg : Gradient (fun y => Real.sqrt (chi2 E (heliocentric y mjd) b)) x row) (v : Fin 6 → ℝ) :
    (∑ i, row i * v i) ^ 2 ≤ ∑ i, ∑ j, (k.slope.mulVec v) i * k.weight i j * (k.slope.mulVec v) j := by
  have hx0 : (fun l => x l + (0 : ℝ) * v l) = x := by funext l; simp
  set c := chi2 E (heliocentric x mjd) b with hcdef
  have hc : 0 < c := hd.positive
  have hslope : ∀ i, HasDerivAt (fun t : ℝ => k.residual (fun l => x l + t * v l) i) ((k.slope.mulVec v) i) 0 := fun i => hd.slope i v
  have hq : HasDerivAt (fun t : ℝ => chi2 E (heliocentric (fun l => x l + t * v l) mjd) b)
      (∑ i, ∑ j, ((k.slope.mulVec v) i * k.weight i j * k.residual x j + k.residual x i * k.weight i j * (k.slope.mulVec v) j)) 0 := by
    have he : (fun t : ℝ => chi2 E (heliocentric (fun l => x l + t * v l) mjd) b) = fun t => ∑ i, ∑ j,
        k.residual (fun l => x l + t * v l) i * k.weight i j * k.residual (fun l => x l + t * v l) j := by
      funext t
      exact hd.chi2 _
    rw [he]
    apply HasDerivAt.fun_sum
    intro i _
    apply HasDerivAt.fun_sum
    intro j _
    have := ((hslope i).mul_const (k.weight i j)).mul (hslope j)
    simp only [hx0] at this
    exact this
  have hroot := hq.sqrt (by rw [hx0]; exact hc.ne')
  have huniq := (hg v).unique hroot
  rw [hx0, ← hcdef] at huniq
  have hsym : ∑ i, ∑ j, (k.slope.mulVec v) i * k.weight i j * k.residual x j =
      ∑ i, ∑ j, k.residual x i * k.weight i j * (k.slope.mulVec v) j := by
    rw [form_eq, form_eq, form_comm hd.weight.1]
  have hsum : ∑ i, ∑ j, ((k.slope.mulVec v) i * k.weight i j * k.residual x j + k.residual x i * k.weight i j * (k.slope.mulVec v) j) =
      2 * ∑ i, ∑ j, k.residual x i * k.weight i j * (k.slope.mulVec v) j := by
    simp only [Finset.sum_add_distrib]
    rw [hsym]
    ring
  rw [hsum] at huniq
  have hcs := cauchy hd.weight (k.residual x) (k.slope.mulVec v)
  rw [← form_eq, ← form_eq, ← form_eq] at hcs
  rw [← hd.chi2 x, ← hcdef] at hcs
  rw [huniq]
  have hsq : Real.sqrt c ^ 2 = c := Real.sq_sqrt hc.le
  rw [div_pow, mul_pow, mul_pow, hsq]
  rw [div_le_iff₀ (by positivity)]
  linarith

theorem information_cons {m : Nat} (k : Sky m) (l : List (Sky m)) (v : Fin 6 → ℝ) :
    dotProduct v ((information (k :: l)).mulVec v) =
      ∑ i, ∑ j, (k.slope.mulVec v) i * k.weight i j * (k.slope.mulVec v) j + dotProduct v ((information l).mulVec v) := by
  unfold information
  rw [List.map_cons, List.sum_cons, Matrix.add_mulVec, dotProduct_add, form_eq]
  congr 1
  rw [← Matrix.mulVec_mulVec, ← Matrix.mulVec_mulVec, Matrix.dotProduct_mulVec, Matrix.vecMul_transpose]

omit [LinearOrder I] [DecidableEq N] in
theorem jacobian_le {m : Nat} {E : Env I N Y Z} {mjd : ℚ} {obs : List (Obs I N Y)} {s : Solution} {ks : List (Sky m)}
    (hj : Jacobian E mjd obs s) (hk : List.Forall₂ (Describes E mjd s.x) ks obs) (v : Fin 6 → ℝ) :
    dotProduct v ((normal s.jac).mulVec v) ≤ dotProduct v ((information ks).mulVec v) := by
  have hn : dotProduct v ((normal s.jac).mulVec v) = (s.jac.map fun r => (∑ k, r k * v k) ^ 2).sum := normal_form s.jac v
  rw [hn]
  unfold Jacobian at hj
  obtain ⟨x, jac, _, _, _⟩ := s
  simp only at hj hk ⊢
  clear hn
  induction hj generalizing ks with
  | nil =>
    cases hk
    simp [information]
  | @cons b r obs jac h1 _ ih =>
    cases hk with
    | cons hd hk =>
      rw [information_cons, List.map_cons, List.sum_cons]
      exact add_le_add (row_le hd h1 v) (ih hk)

theorem normal_psd (jac : List (Fin 6 → ℝ)) : (normal jac).PosSemidef := by
  refine .of_dotProduct_mulVec_nonneg ?_ ?_
  · ext i j
    simp only [normal, Matrix.conjTranspose_apply, Matrix.of_apply, star_trivial]
    congr 1
    apply List.map_congr_left
    intro r _
    ring
  · intro v
    rw [star_trivial]
    have : dotProduct v ((normal jac).mulVec v) = (jac.map fun r => (∑ k, r k * v k) ^ 2).sum := normal_form jac v
    rw [this]
    apply List.sum_nonneg
    intro a ha
    obtain ⟨r, -, rfl⟩ := List.mem_map.mp ha
    positivity

/-- The covariance is never too small: when it exists, so does that of weighted least squares on the two components of every
observation, and the variance it gives along any direction is at least as large. -/
theorem C147_information {m : Nat} {E : Env I N Y Z} {o : Orb I State} {observations : List (Obs I N Y)} {ignore : Option (List N)}
    {kwargs : Kwargs} (ho : InOrder observations) (hne : used observations ignore ≠ []) {s : Solution}
    (hs : E.solver (fun x => .ok ((used observations ignore).map fun b => Real.sqrt (chi2 E (heliocentric x o.state.mjd) b)))
      o.state.values (options kwargs) = .ok s) (hj : Jacobian E o.state.mjd (used observations ignore) s) {ks : List (Sky m)}
    (hk : List.Forall₂ (Describes E o.state.mjd s.x) ks (used observations ignore)) :
    ∃ row members, fit E [o] observations ignore kwargs = .ok ([row], members) ∧
      ∀ C, row.fitted.state.cov = some C → ∃ P, P * information ks = 1 ∧
        ∀ v, dotProduct v (P.mulVec v) ≤ dotProduct v (C.mulVec v) := by
  obtain ⟨row, members, hf, -, hc⟩ := fit_cov ho hne hs
  refine ⟨row, members, hf, ?_⟩
  intro C hC
  rw [hc] at hC
  unfold covariance at hC
  split at hC
  swap
  · cases hC
  rename_i hu
  simp only [Option.some.injEq] at hC
  have hM : normal s.jac * C = 1 := by
    rw [← hC, Matrix.mul_nonsing_inv _ ((Matrix.isUnit_iff_isUnit_det _).mp hu)]
  have hpsd := normal_psd s.jac
  have hle := jacobian_le hj hk
  have hinj : Function.Injective (information ks).mulVec := by
    have hz : ∀ u, (information ks).mulVec u = 0 → u = 0 := by
      intro u hu0
      have h1 := hle u
      rw [hu0, dotProduct_zero] at h1
      have h2 : dotProduct u ((normal s.jac).mulVec u) = 0 := le_antisymm h1 (by simpa using hpsd.dotProduct_mulVec_nonneg u)
      have h3 : (normal s.jac).mulVec u = 0 := by
        have h4 : ∀ w, dotProduct w ((normal s.jac).mulVec u) = 0 := by
          intro w
          have := cauchy hpsd w u
          rw [h2, mul_zero] at this
          exact pow_eq_zero_iff (two_ne_zero) |>.mp (le_antisymm this (sq_nonneg _))
        exact dotProduct_self_eq_zero.mp (h4 _)
      have h5 := congrArg (C.mulVec) h3
      rw [Matrix.mulVec_mulVec, mul_eq_one_comm.mp hM, Matrix.one_mulVec, Matrix.mulVec_zero] at h5
      exact h5
    intro a b hab
    have := hz (a - b) (by rw [Matrix.mulVec_sub, sub_eq_zero]; exact hab)
    exact sub_eq_zero.mp this
  have hui : IsUnit (information ks) := Matrix.mulVec_injective_iff_isUnit.mp hinj
  have hP : (information ks)⁻¹ * information ks = 1 := Matrix.nonsing_inv_mul _ ((Matrix.isUnit_iff_isUnit_det _).mp hui)
  refine ⟨(information ks)⁻¹, hP, ?_⟩
  intro v
  set u := (information ks)⁻¹.mulVec v with hudef
  have huv : (information ks).mulVec u = v := by
    rw [hudef, Matrix.mulVec_mulVec, mul_eq_one_comm.mp hP, Matrix.one_mulVec]
  have hcv : (normal s.jac).mulVec (C.mulVec v) = v := by rw [Matrix.mulVec_mulVec, hM, Matrix.one_mulVec]
  have h1 := cauchy hpsd u (C.mulVec v)
  rw [hcv] at h1
  have h2 := hle u
  rw [huv] at h2
  have h3 : 0 ≤ dotProduct u ((normal s.jac).mulVec u) := by simpa using hpsd.dotProduct_mulVec_nonneg u
  have h4 : 0 ≤ dotProduct (C.mulVec v) v := by
    have := hpsd.dotProduct_mulVec_nonneg (C.mulVec v)
    rw [hcv] at this
    simpa using this
  rw [dotProduct_comm v u, dotProduct_comm v (C.mulVec v)]
  by_cases h0 : dotProduct u v ≤ 0
  · exact le_trans h0 h4
  · push Not at h0
    have h5 : dotProduct u v ^ 2 ≤ dotProduct u v * dotProduct (C.mulVec v) v := le_trans h1 (mul_le_mul_of_nonneg_right h2 h4)
    rw [sq] at h5
    exact le_of_mul_le_mul_left h5 h0

/-! ## It is too large in general -/

/-- Two observations of every coordinate, at 1 and -1. -/
noncomputable def targets : List (Fin 6 × ℝ) := (List.ofFn fun k => (k, 1)) ++ List.ofFn fun k => (k, -1)

/-- Observations of coordinates. -/
noncomputable def watched (targets : List (Fin 6 × ℝ)) : List (Obs Nat Nat (Fin 6 × ℝ)) := targets.map fun y => ⟨0, toLex (0, 0), 0, y, 0⟩

/-- The second component of every residual is 1, whatever the state; the minimiser finds the minimum at 0 and the exact Jacobian. -/
noncomputable def paired (targets : List (Fin 6 × ℝ)) : Env Nat Nat (Fin 6 × ℝ) (Fin 6 → ℝ) where
  predict s _ _ := s.values
  res y z := ⟨(z y.1 - y.2) ^ 2 + 1, 2⟩
  solver _ _ _ := .ok ⟨fun _ => 0, targets.map fun y => Pi.single y.1 (-y.2 / Real.sqrt 2), 1, true, 1⟩

/-- The residuals of the observations of `watched`. -/
noncomputable def pairedSky (targets : List (Fin 6 × ℝ)) : List (Sky 2) := targets.map fun y =>
  ⟨fun x => ![x y.1 - y.2, 1], Matrix.of ![Pi.single y.1 1, 0], 1⟩

theorem targets_one {y : Fin 6 × ℝ} (h : y ∈ targets) : y.2 ^ 2 = 1 := by
  unfold targets at h
  rw [List.mem_append, List.mem_ofFn, List.mem_ofFn] at h
  rcases h with ⟨k, rfl⟩ | ⟨k, rfl⟩ <;> norm_num

theorem watched_used (ts : List (Fin 6 × ℝ)) : used (watched ts) none = watched ts := by simp [used]

theorem watched_ordered (ts : List (Fin 6 × ℝ)) : InOrder (watched ts) := by
  unfold InOrder watched
  rw [List.pairwise_map]
  exact List.pairwise_of_forall fun a b => .inr ⟨rfl, le_refl _⟩

theorem coordinate_derivative (x v : Fin 6 → ℝ) (k : Fin 6) (a : ℝ) : HasDerivAt (fun t : ℝ => x k + t * v k - a) (v k) 0 := by
  simpa using (((hasDerivAt_id (0 : ℝ)).mul_const (v k)).const_add (x k)).sub_const a

theorem paired_jacobian {ts : List (Fin 6 × ℝ)} (hone : ∀ y ∈ ts, y.2 ^ 2 = 1) (mjd : ℚ) :
    Jacobian (paired ts) mjd (watched ts) ⟨fun _ => 0, ts.map fun y => Pi.single y.1 (-y.2 / Real.sqrt 2), 1, true, 1⟩ := by
  unfold Jacobian watched
  rw [List.forall₂_map_left_iff, List.forall₂_map_right_iff, List.forall₂_same]
  intro y hy v
  have hsq := hone y hy
  have h := ((coordinate_derivative (fun _ => 0) v y.1 y.2).pow 2).add_const 1
  have h2 := h.sqrt (by simp [hsq])
  have hv : ∑ k, (Pi.single y.1 (-y.2 / Real.sqrt 2) : Fin 6 → ℝ) k * v k =
      (↑2 * (0 + 0 * v y.1 - y.2) ^ (2 - 1) * v y.1) / (2 * Real.sqrt ((0 + 0 * v y.1 - y.2) ^ 2 + 1)) := by
    simp only [zero_mul, add_zero, zero_sub, neg_sq, hsq]
    rw [show (1 : ℝ) + 1 = 2 by norm_num]
    simp [Pi.single_apply]
    field_simp
  rw [hv]
  exact h2

theorem paired_describes (ts : List (Fin 6 × ℝ)) (mjd : ℚ) :
    List.Forall₂ (Describes (paired ts) mjd fun _ => 0) (pairedSky ts) (watched ts) := by
  unfold pairedSky watched
  rw [List.forall₂_map_left_iff, List.forall₂_map_right_iff, List.forall₂_same]
  intro y hy
  refine ⟨Matrix.PosSemidef.one, ?_, ?_, ?_⟩
  · intro x
    simp [chi2, paired, heliocentric, Fin.sum_univ_two, Matrix.one_apply]
    ring
  · intro i v
    fin_cases i
    · have := coordinate_derivative (fun _ => 0) v y.1 y.2
      simpa [Pi.single_apply] using this
    · simpa using hasDerivAt_const (0 : ℝ) (1 : ℝ)
  · show (0 : ℝ) < (0 - y.2) ^ 2 + 1
    positivity

theorem paired_minimum (mjd : ℚ) :
    IsLocalMin (fun x => ((watched targets).map fun b => chi2 (paired targets) (heliocentric x mjd) b).sum) (fun _ => 0) := by
  apply Filter.Eventually.of_forall
  intro x
  simp only [watched, targets, List.map_append, List.sum_append, List.map_ofFn, List.sum_ofFn, Function.comp_def, chi2, paired,
    heliocentric]
  rw [← Finset.sum_add_distrib, ← Finset.sum_add_distrib]
  apply Finset.sum_le_sum
  intro k _
  nlinarith [sq_nonneg (x k)]

theorem paired_normal : normal (targets.map fun y => (Pi.single y.1 (-y.2 / Real.sqrt 2) : Fin 6 → ℝ)) = 1 := by
  ext i j
  simp only [normal, targets, Matrix.of_apply, List.map_append, List.sum_append, List.map_ofFn, List.sum_ofFn,
    Function.comp_def]
  rw [← Finset.sum_add_distrib]
  have h2 : Real.sqrt 2 * Real.sqrt 2 = 2 := Real.mul_self_sqrt (by norm_num)
  have hs : Real.sqrt 2 ≠ 0 := by positivity
  rw [Finset.sum_eq_single i]
  · by_cases hij : i = j
    · subst hij
      simp only [Pi.single_eq_same, Matrix.one_apply_eq]
      field_simp
      nlinarith
    · rw [Matrix.one_apply_ne hij]
      simp [Ne.symm hij]
  · intro k _ hk
    simp [Pi.single_apply, Ne.symm hk]
  · simp

theorem pairedSky_information : information (pairedSky targets) 0 0 = 2 := by
  simp only [information, pairedSky, targets, List.map_append, List.sum_append, List.map_ofFn, List.sum_ofFn, Function.comp_def,
    Matrix.add_apply, Matrix.sum_apply, Matrix.mul_apply, Matrix.transpose_apply, Matrix.of_apply, Fin.sum_univ_two,
    Matrix.cons_val_zero, Matrix.cons_val_one, Pi.zero_apply, mul_zero, add_zero, Matrix.mul_one]
  simp [Pi.single_apply]
  norm_num

/-- Even at an exact minimum with the exact Jacobian it is not the covariance of weighted least squares: for two observations of every
coordinate it is twice that. -/
theorem C147_information_false :
    ¬ ∀ (E : Env Nat Nat (Fin 6 × ℝ) (Fin 6 → ℝ)) (o : Orb Nat State) (observations : List (Obs Nat Nat (Fin 6 × ℝ))) (s : Solution)
        (ks : List (Sky 2)) (row : FitRow Nat) (members : List (MemberRow Nat Nat)) (C : Matrix (Fin 6) (Fin 6) ℝ),
      InOrder observations → (∀ f x kw, E.solver f x kw = .ok s) → Jacobian E o.state.mjd observations s →
      List.Forall₂ (Describes E o.state.mjd s.x) ks observations →
      IsLocalMin (fun x => (observations.map fun b => chi2 E (heliocentric x o.state.mjd) b).sum) s.x →
      fit E [o] observations none [] = .ok ([row], members) → row.fitted.state.cov = some C → C * information ks = 1 := by
  intro h
  let o : Orb Nat State := ⟨0, ⟨fun _ => 0, 0, .tdb, .sun, .ecliptic, none⟩⟩
  obtain ⟨row, members, hf, -, hc⟩ := fit_cov (E := paired targets) (o := o) (ignore := none) (kwargs := []) (watched_ordered targets)
    (by rw [watched_used]; simp [watched, targets]) rfl
  have hcov : row.fitted.state.cov = some 1 := by
    rw [hc]
    unfold covariance
    simp only
    rw [paired_normal, if_pos isUnit_one, inv_one]
  have := h (paired targets) o (watched targets) _ (pairedSky targets) row members 1 (watched_ordered targets) (fun _ _ _ => rfl)
    (paired_jacobian (fun y hy => targets_one hy) 0) (paired_describes targets 0)
    (paired_minimum 0) hf hcov
  rw [one_mul] at this
  have := congrFun (congrFun this 0) 0
  rw [pairedSky_information, Matrix.one_apply_eq] at this
  norm_num at this

/-- Two observations each of three coordinates. -/
noncomputable def six : List (Fin 6 × ℝ) := [(0, 1), (0, -1), (1, 1), (1, -1), (2, 1), (2, -1)]

/-- They meet the hypotheses of `C147_six`, and three of them those of `C147_few`. -/
example : (used (watched six) none).length = 6 ∧
    Jacobian (paired six) 0 (watched six) ⟨fun _ => 0, six.map fun y => Pi.single y.1 (-y.2 / Real.sqrt 2), 1, true, 1⟩ ∧
    (∀ b x, 0 ≤ chi2 (paired six) (heliocentric x 0) b) ∧
    IsLocalMin (fun x => ((watched six).map fun b => chi2 (paired six) (heliocentric x 0) b).sum) (fun _ => 0) ∧
    (∃ b ∈ watched six, chi2 (paired six) (heliocentric (fun _ => 0) 0) b ≠ 0) ∧
    (used (watched (six.take 3)) none).length < 6 ∧
    ((six.take 3).map fun y => (Pi.single y.1 (-y.2 / Real.sqrt 2) : Fin 6 → ℝ)).length = (used (watched (six.take 3)) none).length := by
  refine ⟨by rw [watched_used]; simp [watched, six], paired_jacobian ?_ 0, ?_, ?_, ?_, by rw [watched_used]; simp [watched, six],
    by rw [watched_used]; simp [watched, six]⟩
  · intro y hy
    simp only [six, List.mem_cons, List.not_mem_nil, or_false] at hy
    rcases hy with rfl | rfl | rfl | rfl | rfl | rfl <;> norm_num
  · intro b x
    show (0 : ℝ) ≤ (_ - _) ^ 2 + 1
    positivity
  · apply Filter.Eventually.of_forall
    intro x
    simp only [watched, six, List.map_cons, List.map_nil, List.sum_cons, List.sum_nil, chi2, paired, heliocentric]
    nlinarith [sq_nonneg (x 0), sq_nonneg (x 1), sq_nonneg (x 2)]
  · refine ⟨⟨0, toLex (0, 0), 0, (0, 1), 0⟩, by simp [watched, six], ?_⟩
    show ((0 : ℝ) - 1) ^ 2 + 1 ≠ 0
    norm_num

end Verif.Lsq.Props
