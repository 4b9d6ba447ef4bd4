import Verif.Resid.Lemmas
import Mathlib.LinearAlgebra.Matrix.PosDef
import Mathlib.Tactic.Linarith
import Mathlib.Tactic.NormNum
import Mathlib.Tactic.Ring
import Mathlib.Tactic.FieldSimp

/-! # Residuals (C49, C50, C93, C94) -/

namespace Verif.Resid.Props

open Verif Verif.Resid Sched Matrix

variable {D : Nat}

/-! ### longitudes -/

/-- Equal on the circle of 360 degrees. -/
def SameAngle (x y : ℝ) : Prop := ∃ k : ℤ, x = y + 360 * k

/-- For longitudes in [0, 360) the bounded residual has the size of the shorter arc. It is `observed - predicted` when the two
are at most 180 degrees apart. Otherwise its sign is the documented one: positive when the observed longitude is the one below
360 (355 and 5 give +10), negative when it is the one above 0. That is the opposite of a difference modulo 360. -/
theorem C49_short_way {o p : ℝ} (ho : 0 ≤ o ∧ o < 360) (hp : 0 ≤ p ∧ p < 360) :
    ∃ x, boundLongitude (some o) (some (o - p)) = some x ∧ -180 ≤ x ∧ x ≤ 180 ∧ |x| = min |o - p| (360 - |o - p|) ∧
      (|o - p| ≤ 180 → x = o - p) ∧ (180 < |o - p| → SameAngle x (p - o)) ∧ (SameAngle x (o - p) ↔ |o - p| ≤ 180) ∧
      (180 < o - p → x = 360 - (o - p) ∧ 0 < x) ∧ (180 < p - o → x = -(360 - (p - o)) ∧ x < 0) := by
  unfold boundLongitude
  simp only
  by_cases hg : o - p > 180
  · have hl : ¬ o - p < -180 := by linarith
    have ho' : o > 180 := by linarith
    have habs : |o - p| = o - p := abs_of_pos (by linarith)
    simp only [hg, hl, ho', decide_true, decide_false, Bool.and_self, Bool.false_and, if_true, Bool.false_eq_true, if_false]
    have hx : 0 ≤ -(o - p - 360) := by linarith
    refine ⟨_, rfl, by linarith, by linarith, ?_, fun h => ?_, fun _ => ⟨1, by push_cast; ring⟩, ?_⟩
    · rw [abs_of_nonneg hx, habs, min_eq_right (by linarith)]; ring
    · rw [habs] at h; exfalso; linarith
    · refine ⟨⟨fun ⟨k, hk⟩ => ?_, fun h => ?_⟩, fun _ => ⟨by ring, by linarith⟩, fun h => by exfalso; linarith⟩
      · exfalso
        have h1 : (k : ℝ) * 360 = 360 - 2 * (o - p) := by linarith
        have h2 : -1 < (k : ℝ) := by linarith
        have h3 : (k : ℝ) < 0 := by linarith
        have h4 : (-1 : ℤ) < k := by exact_mod_cast h2
        have h5 : k < (0 : ℤ) := by exact_mod_cast h3
        omega
      · rw [habs] at h; exfalso; linarith
  · by_cases hl : o - p < -180
    · have ho' : o < 180 := by linarith
      have habs : |o - p| = -(o - p) := abs_of_neg (by linarith)
      simp only [hg, hl, ho', decide_true, decide_false, Bool.and_self, Bool.false_and, if_true, Bool.false_eq_true, if_false]
      have hx : -(o - p + 360) ≤ 0 := by linarith
      refine ⟨_, rfl, by linarith, by linarith, ?_, fun h => ?_, fun _ => ⟨-1, by push_cast; ring⟩, ?_⟩
      · rw [abs_of_nonpos hx, habs, min_eq_right (by linarith)]; ring
      · rw [habs] at h; exfalso; linarith
      · refine ⟨⟨fun ⟨k, hk⟩ => ?_, fun h => ?_⟩, fun h => h.elim, fun _ => ⟨by ring, by linarith⟩⟩
        · exfalso
          have h1 : (k : ℝ) * 360 = -360 - 2 * (o - p) := by linarith
          have h2 : 0 < (k : ℝ) := by linarith
          have h3 : (k : ℝ) < 1 := by linarith
          have h4 : (0 : ℤ) < k := by exact_mod_cast h2
          have h5 : k < (1 : ℤ) := by exact_mod_cast h3
          omega
        · rw [habs] at h; exfalso; linarith
    · have habs : |o - p| ≤ 180 := abs_le.mpr ⟨by linarith, by linarith⟩
      simp only [hg, hl, decide_false, Bool.false_and, Bool.false_eq_true, if_false]
      refine ⟨_, rfl, by linarith, by linarith, ?_, fun _ => rfl, fun h => absurd habs (not_le.mpr h), ?_⟩
      · rw [min_eq_left (by linarith)]
      · exact ⟨⟨fun _ => habs, fun _ => ⟨0, by simp⟩⟩, fun h => h.elim, fun h => by exfalso; linarith⟩

/-- The bounded residual is not the residual modulo 360: observed 355, predicted 5 gives +10, while 355 - 5 is -10. -/
theorem C49_congruence_false : ¬ ∀ o p x : ℝ, 0 ≤ o ∧ o < 360 → 0 ≤ p ∧ p < 360 →
    boundLongitude (some o) (some (o - p)) = some x → SameAngle x (o - p) := by
  intro h
  obtain ⟨x, hx, -, -, -, -, -, h7, -⟩ := C49_short_way (o := 355) (p := 5) ⟨by norm_num, by norm_num⟩ ⟨by norm_num, by norm_num⟩
  have := h7.mp (h 355 5 x ⟨by norm_num, by norm_num⟩ ⟨by norm_num, by norm_num⟩ hx)
  rw [abs_le] at this
  norm_num at this

/-- Two tables of residuals with one true offset, +10 degrees, in the two directions across 0: the reported signs differ from
the reported sign away from it. -/
example : boundLongitude (some 5) (some (5 - 355)) = some (-10) ∧ boundLongitude (some 25) (some (25 - 15)) = some 10 := by
  unfold boundLongitude
  norm_num

/-! ### calculate -/

/-- Columns of one length, as in every table. -/
def WF (t : Table D) : Prop := t.origins.length = t.values.length ∧ t.covs.length = t.values.length

/-- The rows on which chi-square is computed. -/
noncomputable def rowList (k : Kind) (use : Bool) (vs : List (Vec D)) (cs : List (Cov D)) (pv : List (Vec D)) (pc : List (Cov D)) :
    List (Row D) :=
  List.zipWith (fun (v : Vec D) (rc : Vec D × Cov D) => (⟨v, rc.1, rc.2⟩ : Row D)) vs
    ((List.zipWith (residual k) vs pv).zip (List.zipWith (fun (vc : Vec D × Cov D) p => totalCov k use vc.1 vc.2 p) (vs.zip cs) pc))

noncomputable def answer (cdf : ℝ → Nat → ℝ) (R : List (Row D)) (r : Row D) : Answer D :=
  ⟨r.resid, chi2In R r, dof r.values, (chi2In R r).map fun x => 1 - cdf x (dof r.values)⟩

/-- The checks before the arithmetic. -/
def Checks (o p : Table D) (custom : Bool) : Prop :=
  (custom = true ∨ o.kind.supported = true ∧ p.kind.supported = true) ∧ o.kind = p.kind ∧
    originsDiffer o.origins p.origins = .ok false ∧ o.frame = p.frame

theorem calculate_ok {cdf : ℝ → Nat → ℝ} {o p : Table D} {custom use : Bool} {out : List (Answer D)} :
    calculate cdf o p custom use = .ok out ↔ Checks o p custom ∧
      ∃ pv pc, broadcastTo o.values.length p.values = .ok pv ∧ broadcastTo o.values.length p.covs = .ok pc ∧
        (∀ r ∈ rowList o.kind use o.values o.covs pv pc, Fine (rowList o.kind use o.values o.covs pv pc) r) ∧
        out = (rowList o.kind use o.values o.covs pv pc).map (answer cdf (rowList o.kind use o.values o.covs pv pc)) := by
  unfold calculate Checks
  by_cases h1 : (!custom && !o.kind.supported) = true
  · rw [if_pos h1]
    refine ⟨fun h => (by cases h), ?_⟩
    rintro ⟨⟨h | h, -⟩, -⟩ <;> simp [h] at h1
  rw [if_neg h1]
  by_cases h2 : (!custom && !p.kind.supported) = true
  · rw [if_pos h2]
    refine ⟨fun h => (by cases h), ?_⟩
    rintro ⟨⟨h | h, -⟩, -⟩ <;> simp [h] at h2
  rw [if_neg h2]
  have hk : custom = true ∨ o.kind.supported = true ∧ p.kind.supported = true := by
    cases custom <;> simp_all
  by_cases h3 : o.kind = p.kind
  swap
  · rw [if_pos h3]
    exact ⟨fun h => (by cases h), fun h => absurd h.1.2.1 h3⟩
  rw [if_neg (by simpa using h3)]
  cases h4 : originsDiffer o.origins p.origins with
  | error e => exact ⟨fun h => (by cases h), fun h => by cases h.1.2.2.1⟩
  | ok b =>
  cases b with
  | true => exact ⟨fun h => (by cases h), fun h => by cases h.1.2.2.1⟩
  | false =>
  simp only
  by_cases h5 : o.frame = p.frame
  swap
  · rw [if_pos h5]
    exact ⟨fun h => (by cases h), fun h => absurd h.1.2.2.2 h5⟩
  rw [if_neg (by simpa using h5)]
  cases h6 : broadcastTo o.values.length p.values with
  | error e => exact ⟨fun h => (by cases h), fun ⟨_, pv, pc, h, _⟩ => by cases h⟩
  | ok pv =>
  simp only
  cases h7 : broadcastTo o.values.length p.covs with
  | error e => exact ⟨fun h => (by cases h), fun ⟨_, pv, pc, _, h, _⟩ => by cases h⟩
  | ok pc =>
  simp only
  obtain ⟨l1, l2⟩ := loop_ok (rowList o.kind use o.values o.covs pv pc)
  change ∀ cs, batches _ (uniq ((rowList o.kind use o.values o.covs pv pc).map fun r => mask r.values)) = .ok cs → _ at l1
  change (match batches ((rowList o.kind use o.values o.covs pv pc).zipIdx.map fun p => (p.2, p.1))
    (uniq ((rowList o.kind use o.values o.covs pv pc).map fun r => mask r.values)) with
    | Except.error e => (Except.error e : Except PyErr (List (Answer D)))
    | Except.ok cs => Except.ok (((rowList o.kind use o.values o.covs pv pc).zipIdx.map fun p : Row D × Nat => (p.2, p.1)).map fun r : Nat × Row D =>
      (⟨r.2.resid, (cs.lookup r.1).getD none, dof r.2.values, ((cs.lookup r.1).getD none).map fun x => 1 - cdf x (dof r.2.values)⟩ :
        Answer D))) = .ok out ↔ _
  cases hb : batches ((rowList o.kind use o.values o.covs pv pc).zipIdx.map fun p => (p.2, p.1))
    (uniq ((rowList o.kind use o.values o.covs pv pc).map fun r => mask r.values)) with
  | error e =>
    refine ⟨fun h => (by cases h), ?_⟩
    rintro ⟨-, pv', pc', e1, e2, hf, -⟩
    cases e1
    cases e2
    obtain ⟨cs, hcs⟩ := l2 hf
    rw [hcs] at hb
    cases hb
  | ok cs =>
    obtain ⟨hf, hl⟩ := l1 cs hb
    simp only
    have e : ((rowList o.kind use o.values o.covs pv pc).zipIdx.map fun p => (p.2, p.1)).map (fun r =>
      (⟨r.2.resid, (cs.lookup r.1).getD none, dof r.2.values, ((cs.lookup r.1).getD none).map fun x => 1 - cdf x (dof r.2.values)⟩ :
        Answer D)) = (rowList o.kind use o.values o.covs pv pc).map (answer cdf (rowList o.kind use o.values o.covs pv pc)) := by
      apply List.ext_getElem?
      intro i
      rw [List.map_map, List.getElem?_map, List.getElem?_map, List.getElem?_zipIdx, Option.map_map]
      cases hi : (rowList o.kind use o.values o.covs pv pc)[i]? with
      | none => rfl
      | some r =>
        simp only [Option.map_some, Function.comp_apply, Nat.zero_add, hl i r hi, Option.getD_some]
        rfl
    rw [e]
    constructor
    · intro h
      cases h
      exact ⟨⟨hk, h3, trivial, h5⟩, pv, pc, rfl, rfl, hf, rfl⟩
    · rintro ⟨-, pv', pc', e1, e2, -, rfl⟩
      cases e1
      cases e2
      rfl

theorem rowList_at {k : Kind} {use : Bool} {vs : List (Vec D)} {cs : List (Cov D)} {pv : List (Vec D)} {pc : List (Cov D)} {i : Nat}
    {v w : Vec D} {c q : Cov D} (h1 : vs[i]? = some v) (h2 : cs[i]? = some c) (h3 : pv[i]? = some w) (h4 : pc[i]? = some q) :
    (rowList k use vs cs pv pc)[i]? = some ⟨v, residual k v w, totalCov k use v c q⟩ := by
  unfold rowList
  simp [List.getElem?_zipWith, List.zip, h1, h2, h3, h4]

theorem rowList_length {k : Kind} {use : Bool} {vs : List (Vec D)} {cs : List (Cov D)} {pv : List (Vec D)} {pc : List (Cov D)}
    (h2 : cs.length = vs.length) (h3 : pv.length = vs.length) (h4 : pc.length = vs.length) :
    (rowList k use vs cs pv pc).length = vs.length := by
  unfold rowList
  simp [h2, h3, h4]

theorem broadcast_length {α : Type} {n : Nat} {l m : List α} (h : broadcastTo n l = .ok m) : m.length = n := by
  unfold broadcastTo at h
  split at h
  · cases h; simp
  · split at h
    · cases h; assumption
    · cases h

/-- The row of `p` that meets row `i`: the only one, or the one of the same index. -/
def partner {α : Type} (l : List α) (i : Nat) : Nat := if l.length = 1 then 0 else i

theorem broadcast_at {α : Type} {n : Nat} {l m : List α} (h : broadcastTo n l = .ok m) {i : Nat} (hi : i < n) :
    m[i]? = l[partner l i]? := by
  unfold broadcastTo at h
  split at h
  · cases h
    simp [partner, hi]
  · rename_i l' hne
    split at h
    · cases h
      have : l.length ≠ 1 := by
        intro h1
        obtain ⟨x, hx⟩ := List.length_eq_one_iff.mp h1
        exact hne x hx
      simp [partner, this]
    · cases h

theorem fine_single {r : Row D} : Fine [r] r ↔ NoCov r ∨ Invertible r := by
  unfold Fine BatchNoCov
  simp

theorem chi2In_single {R : List (Row D)} {r : Row D} (hr : r ∈ R) (hf : Fine R r) : Fine [r] r ∧ chi2In [r] r = chi2In R r := by
  classical
  by_cases hb : BatchNoCov R r
  · have hn : NoCov r := hb r hr rfl
    refine ⟨fine_single.mpr (.inl hn), ?_⟩
    unfold chi2In
    rw [if_pos hb, if_pos]
    intro r' hr' _
    rw [List.mem_singleton.mp hr']
    exact hn
  · have hi : Invertible r := (hf.resolve_left hb) r hr rfl
    refine ⟨fine_single.mpr (.inr hi), ?_⟩
    unfold chi2In
    rw [if_neg hb, if_neg]
    intro hn
    apply hb
    have hn' : NoCov r := hn r List.mem_cons_self rfl
    have hempty : ∀ i : Fin D, ¬ mask r.values i = true := by
      intro i hi'
      exact hi.1 ⟨i, hi'⟩ (hn' ⟨i, hi'⟩ ⟨i, hi'⟩)
    intro r' _ hm i
    exfalso
    exact hempty i.1 ((congrFun hm i.1).symm.trans i.2)

theorem kind_checks {o p : Table D} {custom : Bool} (h : Checks o p custom) : o.kind = p.kind := h.2.1

/-- Whenever `Residuals.calculate` returns, there is one answer per observed row, and row `i` has the answer it gets alone:
the values, chi-square, degrees of freedom and probability do not depend on the other rows. (Alone, its own origins must agree:
see C50.) -/
theorem C93_rows {cdf : ℝ → Nat → ℝ} {o p : Table D} {custom use : Bool} {out : List (Answer D)} (wo : WF o) (wp : WF p)
    (h : calculate cdf o p custom use = .ok out) :
    out.length = o.values.length ∧
    ∀ (i : Nat) (a : Str) (v w : Vec D) (c q : Cov D), o.values[i]? = some v → o.covs[i]? = some c →
      p.values[partner p.values i]? = some w → p.covs[partner p.values i]? = some q →
      ∃ r, out[i]? = some r ∧ calculate cdf ⟨o.kind, [a], o.frame, [v], [c]⟩ ⟨p.kind, [a], p.frame, [w], [q]⟩ custom use = .ok [r] := by
  obtain ⟨hc, pv, pc, hv, hq, hf, rfl⟩ := calculate_ok.mp h
  have lpv := broadcast_length hv
  have lpc := broadcast_length hq
  refine ⟨by rw [List.length_map, rowList_length wo.2 lpv lpc], ?_⟩
  intro i a v w c q e1 e2 e3 e4
  have hi : i < o.values.length := (List.getElem?_eq_some_iff.mp e1).1
  have e3' : pv[i]? = some w := by rw [broadcast_at hv hi]; exact e3
  have e4' : pc[i]? = some q := by
    rw [broadcast_at hq hi]
    have : partner p.covs i = partner p.values i := by unfold partner; rw [wp.2]
    rw [this]; exact e4
  have hr := rowList_at (k := o.kind) (use := use) e1 e2 e3' e4'
  have hm := List.mem_of_getElem? hr
  obtain ⟨s1, s2⟩ := chi2In_single hm (hf _ hm)
  refine ⟨_, by rw [List.getElem?_map, hr]; rfl, ?_⟩
  rw [calculate_ok]
  refine ⟨⟨hc.1, hc.2.1, ?_, hc.2.2.2⟩, [w], [q], rfl, rfl, ?_, ?_⟩
  · simp [originsDiffer]
  · intro r hr'
    have : rowList o.kind use [v] [c] [w] [q] = [⟨v, residual o.kind v w, totalCov o.kind use v c q⟩] := rfl
    rw [this] at hr' ⊢
    rw [List.mem_singleton.mp hr']
    exact s1
  · have : rowList o.kind use [v] [c] [w] [q] = [⟨v, residual o.kind v w, totalCov o.kind use v c q⟩] := rfl
    rw [this, List.map_singleton]
    unfold answer
    rw [s2]

/-- `Residuals.calculate` returns exactly when the checks pass, the predicted table has one row or as many as the observed
one, and among the rows with the same missing columns either none has any covariance in its columns, or every one has its
variances and an invertible covariance. -/
theorem C93_accepts {cdf : ℝ → Nat → ℝ} {o p : Table D} {custom use : Bool} (wo : WF o) (wp : WF p) :
    (∃ out, calculate cdf o p custom use = .ok out) ↔ Checks o p custom ∧
      (p.values.length = 1 ∨ p.values.length = o.values.length) ∧
      ∀ r ∈ (List.range o.values.length).filterMap (fun i =>
          match o.values[i]?, o.covs[i]?, p.values[partner p.values i]?, p.covs[partner p.values i]? with
          | some v, some c, some w, some q => some (⟨v, residual o.kind v w, totalCov o.kind use v c q⟩ : Row D)
          | _, _, _, _ => none),
        Fine ((List.range o.values.length).filterMap (fun i =>
          match o.values[i]?, o.covs[i]?, p.values[partner p.values i]?, p.covs[partner p.values i]? with
          | some v, some c, some w, some q => some (⟨v, residual o.kind v w, totalCov o.kind use v c q⟩ : Row D)
          | _, _, _, _ => none)) r := by
  have key : ∀ {pv : List (Vec D)} {pc : List (Cov D)}, broadcastTo o.values.length p.values = .ok pv →
      broadcastTo o.values.length p.covs = .ok pc → rowList o.kind use o.values o.covs pv pc
        = (List.range o.values.length).filterMap (fun i =>
          match o.values[i]?, o.covs[i]?, p.values[partner p.values i]?, p.covs[partner p.values i]? with
          | some v, some c, some w, some q => some (⟨v, residual o.kind v w, totalCov o.kind use v c q⟩ : Row D)
          | _, _, _, _ => none) := by
    intro pv pc hv hq
    have lpv := broadcast_length hv
    have lpc := broadcast_length hq
    have hlen := rowList_length (k := o.kind) (use := use) wo.2 lpv lpc
    have hrow : ∀ i ∈ List.range o.values.length, (match o.values[i]?, o.covs[i]?, p.values[partner p.values i]?,
        p.covs[partner p.values i]? with
          | some v, some c, some w, some q => some (⟨v, residual o.kind v w, totalCov o.kind use v c q⟩ : Row D)
          | _, _, _, _ => none) = (rowList o.kind use o.values o.covs pv pc)[i]? := by
      intro i hi
      rw [List.mem_range] at hi
      have e1 := List.getElem?_eq_getElem hi
      have e2 : o.covs[i]? = some (o.covs[i]'(by rw [wo.2]; exact hi)) := List.getElem?_eq_getElem _
      have e3 : pv[i]? = some (pv[i]'(by omega)) := List.getElem?_eq_getElem _
      have e4 : pc[i]? = some (pc[i]'(by omega)) := List.getElem?_eq_getElem _
      have e3' := (broadcast_at hv hi).symm.trans e3
      have e4' := (broadcast_at hq hi).symm.trans e4
      have hp : partner p.covs i = partner p.values i := by unfold partner; rw [wp.2]
      rw [hp] at e4'
      rw [rowList_at e1 e2 e3 e4]
      simp only [e1, e2, e3', e4']
    rw [List.filterMap_congr hrow]
    apply List.ext_getElem?
    intro i
    rw [← hlen]
    generalize rowList o.kind use o.values o.covs pv pc = L
    clear * -
    induction L generalizing i with
    | nil => rfl
    | cons x L ih =>
      rw [List.length_cons, List.range_succ_eq_map, List.filterMap_cons]
      simp only [List.getElem?_cons_zero, List.filterMap_map]
      cases i with
      | zero => rfl
      | succ i =>
        simp only [List.getElem?_cons_succ]
        exact ih i
  constructor
  · rintro ⟨out, h⟩
    obtain ⟨hc, pv, pc, hv, hq, hf, -⟩ := calculate_ok.mp h
    refine ⟨hc, ?_, by rw [← key hv hq]; exact hf⟩
    unfold broadcastTo at hv
    split at hv
    · rename_i x hx; left; rw [hx]; rfl
    · split at hv
      · right; assumption
      · cases hv
  · rintro ⟨hc, hl, hf⟩
    have hb : ∀ {α : Type} (l : List α), l.length = p.values.length → ∃ m, broadcastTo o.values.length l = .ok m := by
      intro α l hl'
      unfold broadcastTo
      split
      · exact ⟨_, rfl⟩
      · rename_i hne
        rw [if_pos]
        · exact ⟨_, rfl⟩
        · rcases hl with h | h
          · rw [h] at hl'
            obtain ⟨x, hx⟩ := List.length_eq_one_iff.mp hl'
            exact absurd hx (hne x)
          · rw [hl', h]
    obtain ⟨pv, hv⟩ := hb p.values rfl
    obtain ⟨pc, hq⟩ := hb p.covs wp.2
    exact ⟨_, calculate_ok.mpr ⟨hc, pv, pc, hv, hq, by rw [key hv hq]; exact hf, rfl⟩⟩

/-- Rows are not independent in what is accepted: two rows, each accepted alone (one without covariance, one with), raise
together. -/
theorem C93_mixed_false : ¬ ∀ (o1 o2 q1 q2 : Vec 1 × Cov 1) (k : Kind) (cdf : ℝ → Nat → ℝ) (r1 r2 : List (Answer 1)),
    calculate cdf ⟨k, [[]], [], [o1.1], [o1.2]⟩ ⟨k, [[]], [], [q1.1], [q1.2]⟩ false true = .ok r1 →
    calculate cdf ⟨k, [[]], [], [o2.1], [o2.2]⟩ ⟨k, [[]], [], [q2.1], [q2.2]⟩ false true = .ok r2 →
    ∃ r, calculate cdf ⟨k, [[], []], [], [o1.1, o2.1], [o1.2, o2.2]⟩ ⟨k, [[], []], [], [q1.1, q2.1], [q1.2, q2.2]⟩ false true
      = .ok r := by
  intro h
  have hno : NoCov (⟨fun _ => some 0, fun _ => some 0, fun _ _ => none⟩ : Row 1) := fun _ _ => rfl
  have hone : Invertible (⟨fun _ => some 0, fun _ => some 0, fun _ _ => some 1⟩ : Row 1) := by
    refine ⟨fun _ => by simp, ?_⟩
    have : sub (mask (fun _ : Fin 1 => some (0 : ℝ))) (fun _ _ => some 1) = 1 := by
      ext i j
      have : i = j := Subsingleton.elim _ _
      subst this
      simp [sub]
    simp only
    rw [this, Matrix.det_one]
    exact one_ne_zero
  have r0 : ∀ (c : Cov 1), rowList .cartesian true [fun _ => some 0] [c] [fun _ => some 0] [fun _ _ => none]
      = [⟨fun _ => some 0, fun _ => some 0, c⟩] := by
    intro c
    simp only [rowList, List.zipWith_cons_cons, List.zipWith_nil_right, List.zip_cons_cons, List.zip_nil_right]
    congr 2
    · funext i; simp [residual, lift2]
    · funext i j
      cases hx : c i j <;> simp [totalCov, zeroed, lift2, hx]
  have c1 : ∀ (c : Cov 1), NoCov (⟨fun _ => some 0, fun _ => some 0, c⟩ : Row 1) ∨
      Invertible (⟨fun _ => some 0, fun _ => some 0, c⟩ : Row 1) → ∃ r, calculate (fun _ _ => 0)
      (⟨.cartesian, [[]], [], [fun _ => some 0], [c]⟩ : Table 1) ⟨.cartesian, [[]], [], [fun _ => some 0], [fun _ _ => none]⟩
      false true = .ok r := by
    intro c hc
    refine ⟨_, calculate_ok.mpr ⟨⟨.inr ⟨rfl, rfl⟩, rfl, by simp [originsDiffer], rfl⟩, _, _, rfl, rfl, ?_, rfl⟩⟩
    change ∀ r ∈ rowList .cartesian true [fun _ => some 0] [c] [fun _ => some 0] [fun _ _ => none],
      Fine (rowList .cartesian true [fun _ => some 0] [c] [fun _ => some 0] [fun _ _ => none]) r
    rw [r0 c]
    intro r hr
    rw [List.mem_singleton.mp hr]
    exact fine_single.mpr hc
  obtain ⟨a, ha⟩ := c1 (fun _ _ => none) (.inl hno)
  obtain ⟨b, hb⟩ := c1 (fun _ _ => some 1) (.inr hone)
  obtain ⟨r, hr⟩ := h (fun _ => some 0, fun _ _ => none) (fun _ => some 0, fun _ _ => some 1) (fun _ => some 0, fun _ _ => none)
    (fun _ => some 0, fun _ _ => none) .cartesian (fun _ _ => 0) a b ha hb
  obtain ⟨-, pv, pc, hv, hq, hf, -⟩ := calculate_ok.mp hr
  simp only [broadcastTo, List.length_cons, List.length_nil, if_pos] at hv hq
  cases hv
  cases hq
  have r2 : rowList .cartesian true [fun _ => some 0, fun _ => some 0] [fun _ _ => none, fun _ _ => some 1]
      [fun _ => some 0, fun _ => some 0] [fun _ _ => none, fun _ _ => none]
      = [(⟨fun _ => some 0, fun _ => some 0, fun _ _ => none⟩ : Row 1), ⟨fun _ => some 0, fun _ => some 0, fun _ _ => some 1⟩] := by
    simp only [rowList, List.zipWith_cons_cons, List.zipWith_nil_right, List.zip_cons_cons, List.zip_nil_right]
    congr 2
    · funext i; simp [residual, lift2]
    · congr 1
      · funext i; simp [residual, lift2]
      · funext i j; simp [totalCov, zeroed, lift2]
  simp only at hf
  rw [r2] at hf
  have := hf ⟨fun _ => some 0, fun _ => some 0, fun _ _ => none⟩ List.mem_cons_self
  rcases this with hh | hh
  · have := hh ⟨fun _ => some 0, fun _ => some 0, fun _ _ => some 1⟩ (List.mem_cons_of_mem _ List.mem_cons_self) rfl
    have := this ⟨0, rfl⟩ ⟨0, rfl⟩
    cases this
  · have := (hh ⟨fun _ => some 0, fun _ => some 0, fun _ _ => none⟩ List.mem_cons_self rfl).1 ⟨0, rfl⟩
    exact this rfl

/-! ### origins -/

/-- What the origin check does ensure: if residuals are returned, there is a row, and at least one row has equal origins. -/
theorem C50_some_row {cdf : ℝ → Nat → ℝ} {o p : Table D} {custom use : Bool} {out : List (Answer D)}
    (h : calculate cdf o p custom use = .ok out) (hl : o.origins.length = p.origins.length) :
    ∃ (i : Nat) (a : Str), o.origins[i]? = some a ∧ p.origins[i]? = some a := by
  have hc := (calculate_ok.mp h).1.2.2.1
  unfold originsDiffer at hc
  rw [if_pos hl] at hc
  simp only [Except.ok.injEq] at hc
  have : ¬ ∀ x ∈ List.zipWith (fun x y => decide (x ≠ y)) o.origins p.origins, x = true := by
    intro hall
    rw [List.all_eq_true.mpr (by simpa using hall)] at hc
    cases hc
  push Not at this
  obtain ⟨x, hx, hne⟩ := this
  obtain ⟨i, hi⟩ := List.mem_iff_getElem?.mp hx
  rw [List.getElem?_zipWith] at hi
  cases ha : o.origins[i]? with
  | none => rw [ha] at hi; cases hi
  | some a =>
    cases hb : p.origins[i]? with
    | none => rw [ha, hb] at hi; cases hi
    | some b =>
      rw [ha, hb] at hi
      simp only [Option.some.injEq] at hi
      refine ⟨i, a, ha, ?_⟩
      rw [hb]
      by_contra hab
      apply hne
      rw [← hi]
      simp only [decide_eq_true_eq]
      intro e
      exact hab (by rw [e])

/-- Tables of one supported kind and frame none of whose rows have equal origins are refused with ValueError. -/
theorem C50_all_differ (cdf : ℝ → Nat → ℝ) (o p : Table D) (custom use : Bool)
    (hs : custom = true ∨ o.kind.supported = true ∧ p.kind.supported = true) (hk : o.kind = p.kind)
    (hl : o.origins.length = p.origins.length)
    (hd : ∀ (i : Nat) (a b : Str), o.origins[i]? = some a → p.origins[i]? = some b → a ≠ b) :
    calculate cdf o p custom use = .error .valueError := by
  have h1 : ¬ (!custom && !o.kind.supported) = true := by rcases hs with h | h <;> simp [h]
  have h2 : ¬ (!custom && !p.kind.supported) = true := by rcases hs with h | h <;> simp [h]
  have h3 : originsDiffer o.origins p.origins = .ok true := by
    unfold originsDiffer
    rw [if_pos hl]
    congr 1
    rw [List.all_eq_true]
    intro x hx
    obtain ⟨i, hi⟩ := List.mem_iff_getElem?.mp hx
    rw [List.getElem?_zipWith] at hi
    cases ha : o.origins[i]? with
    | none => rw [ha] at hi; cases hi
    | some a =>
      cases hb : p.origins[i]? with
      | none => rw [ha, hb] at hi; cases hi
      | some b =>
        rw [ha, hb] at hi
        simp only [Option.some.injEq] at hi
        rw [← hi]
        simpa using hd i a b ha hb
  unfold calculate
  rw [if_neg h1, if_neg h2, if_neg (by simpa using hk), h3]

example : ∀ (i : Nat) (a b : Str), [['S'], ['S']][i]? = some a → [['E'], ['M']][i]? = some b → a ≠ b := by
  intro i a b h1 h2
  match i with
  | 0 => simp at h1 h2; subst h1 h2; decide
  | 1 => simp at h1 h2; subst h1 h2; decide
  | i + 2 => simp at h1

/-- For single rows the check is exact. -/
theorem C50_single {cdf : ℝ → Nat → ℝ} {k k' : Kind} {f f' a b : Str} {v w : Vec D} {c q : Cov D} {custom use : Bool}
    {out : List (Answer D)} (h : calculate cdf ⟨k, [a], f, [v], [c]⟩ ⟨k', [b], f', [w], [q]⟩ custom use = .ok out) : a = b := by
  obtain ⟨i, x, h1, h2⟩ := C50_some_row h rfl
  cases i with
  | zero => simp only [List.getElem?_cons_zero, Option.some.injEq] at h1 h2; rw [h1, h2]
  | succ i => simp at h1

/-- Residuals are returned although the origins of a row differ, when those of another row agree; and a table without rows
raises the error about origins. -/
theorem C50_false : (¬ ∀ (cdf : ℝ → Nat → ℝ) (o p : Table 1) (custom use : Bool) (i : Nat) (a b : Str) (out : List (Answer 1)),
    WF o → WF p → o.origins[i]? = some a → p.origins[i]? = some b → a ≠ b → calculate cdf o p custom use ≠ .ok out) ∧
    ∀ (cdf : ℝ → Nat → ℝ) (k : Kind) (f : Str) (use : Bool),
      calculate cdf (⟨k, [], f, [], []⟩ : Table D) ⟨k, [], f, [], []⟩ true use = .error .valueError := by
  constructor
  · intro h
    let o : Table 1 := ⟨.cartesian, [['S'], ['S']], [], [fun _ => some 0, fun _ => some 0], [fun _ _ => none, fun _ _ => none]⟩
    let p : Table 1 := ⟨.cartesian, [['S'], ['E']], [], [fun _ => some 0, fun _ => some 0], [fun _ _ => none, fun _ _ => none]⟩
    have hno : ∀ r ∈ rowList .cartesian true o.values o.covs p.values p.covs, NoCov r := by
      intro r hr
      have hc : r.cov = fun _ _ => none := by
        simp only [rowList, o, p, List.zipWith_cons_cons, List.zipWith_nil_right, List.zip_cons_cons, List.zip_nil_right,
          List.mem_cons, List.not_mem_nil, or_false] at hr
        rcases hr with rfl | rfl <;> (funext i j; simp [totalCov, zeroed, lift2])
      intro i j
      rw [hc]
    refine h (fun _ _ => 0) o p false true 1 ['S'] ['E'] ((rowList .cartesian true o.values o.covs p.values p.covs).map
      (answer (fun _ _ => 0) (rowList .cartesian true o.values o.covs p.values p.covs))) ⟨rfl, rfl⟩ ⟨rfl, rfl⟩ rfl rfl (by decide) ?_
    refine calculate_ok.mpr ⟨⟨.inr ⟨rfl, rfl⟩, rfl, by simp [originsDiffer, o, p], rfl⟩, p.values, p.covs, rfl, rfl, ?_, rfl⟩
    intro r hr
    left
    intro r' hr' _
    exact hno r' hr'
  · intro cdf k f use
    simp [calculate, originsDiffer]

/-! ### chi-square -/

/-- The third column is the latitude. -/
def LatitudeIs (v : Vec D) (l : Option ℝ) : Prop := ∃ i : Fin D, i.val = 2 ∧ v i = l

theorem latitude_of {v : Vec D} {l : Option ℝ} (h : LatitudeIs v l) : latitude v = l := by
  obtain ⟨i, h2, hi⟩ := h
  have : 2 < D := by have := i.2; omega
  unfold latitude
  rw [dif_pos this, ← hi]
  congr 1
  exact Fin.ext h2.symm

/-- The answer for a row by itself: the residual is `observed - predicted` in each column (for spherical coordinates the
longitude is bounded first, and longitude and its rate are multiplied by cos(latitude)); chi-square is missing when the
observed columns have no covariance and the quadratic form otherwise; the probability is the upper tail. -/
theorem C94_single {cdf : ℝ → Nat → ℝ} {k : Kind} {f a b : Str} {v w : Vec D} {c q : Cov D} {custom use : Bool} {out : List (Answer D)}
    (h : calculate cdf ⟨k, [a], f, [v], [c]⟩ ⟨k, [b], f, [w], [q]⟩ custom use = .ok out) :
    ∃ r, out = [r] ∧
      (∀ (i : Fin D) (x y : ℝ), v i = some x → w i = some y → k ≠ .spherical ∨ i.val ≠ 1 ∧ i.val ≠ 4 → r.values i = some (x - y)) ∧
      (∀ (i : Fin D) (x y l z : ℝ), k = .spherical → LatitudeIs v (some l) → v i = some x → w i = some y →
        (if i.val = 1 then boundLongitude (some x) (some (x - y)) else some (x - y)) = some z → i.val = 1 ∨ i.val = 4 →
        r.values i = some (z * Real.cos (l * (Real.pi / 180)))) ∧
      (∀ i, v i = none ∨ w i = none → r.values i = none) ∧
      (NoCov (⟨v, r.values, totalCov k use v c q⟩ : Row D) → r.chi2 = none) ∧
      (¬ NoCov (⟨v, r.values, totalCov k use v c q⟩ : Row D) →
        Invertible (⟨v, r.values, totalCov k use v c q⟩ : Row D) ∧
        r.chi2 = chi2Row (mask v) ⟨v, r.values, totalCov k use v c q⟩) ∧
      r.dof = dof v ∧ r.probability = r.chi2.map fun x => 1 - cdf x r.dof := by
  classical
  obtain ⟨-, pv, pc, hv, hq, hf, rfl⟩ := calculate_ok.mp h
  cases hv
  cases hq
  have e : rowList k use [v] [c] (List.replicate [v].length w) (List.replicate [v].length q)
      = [⟨v, residual k v w, totalCov k use v c q⟩] := rfl
  simp only at hf
  rw [e] at hf
  have hf' := fine_single.mp (hf _ (List.mem_singleton.mpr rfl))
  refine ⟨answer cdf [⟨v, residual k v w, totalCov k use v c q⟩] ⟨v, residual k v w, totalCov k use v c q⟩, ?_, ?_, ?_, ?_, ?_, ?_,
    rfl, rfl⟩
  · simp only
    rw [e]
    rfl
  · intro i x y hx hy hk
    change residual k v w i = _
    unfold residual
    by_cases hs : k = .spherical
    · have hi := hk.resolve_left (fun h => h hs)
      simp only [if_pos hs, scaleVec, boundVec]
      rw [if_neg (by omega), if_neg hi.1, hx, hy]
      rfl
    · simp only [if_neg hs, hx, hy]
      rfl
  · intro i x y l z hs hl' hx hy hz hi
    have hl := latitude_of hl'
    change residual k v w i = _
    unfold residual
    simp only [if_pos hs, scaleVec, boundVec]
    rw [if_pos hi, hx, hy, hl]
    change lift2 _ (if i.val = 1 then boundLongitude (some x) (some (x - y)) else some (x - y)) _ = _
    rw [hz]
    rfl
  · intro i hi
    change residual k v w i = none
    have hn : lift2 (· - ·) (v i) (w i) = none := by
      rcases hi with h | h <;> rw [h]
      · rfl
      · cases v i <;> rfl
    unfold residual
    by_cases hs : k = .spherical
    · simp only [if_pos hs, scaleVec, boundVec, hn]
      split <;> split <;> rfl
    · simp only [if_neg hs, hn]
  · intro hn
    change chi2In _ _ = none
    unfold chi2In
    rw [if_pos]
    intro r' hr' _
    rw [List.mem_singleton.mp hr']
    exact hn
  · intro hn
    refine ⟨hf'.resolve_left hn, ?_⟩
    change chi2In _ _ = _
    unfold chi2In
    rw [if_neg fun hb => hn (hb _ (List.mem_singleton.mpr rfl) rfl)]
    rfl

/-- The covariance behind chi-square: the observed entry plus, if asked for, the predicted entry, a missing predicted entry
counting as zero; for spherical coordinates times cos(latitude) for each index that is a longitude or its rate. An observed
entry that is missing stays missing. -/
theorem C94_covariance (k : Kind) (use : Bool) (v : Vec D) (c q : Cov D) (i j : Fin D) (l : ℝ) (hl' : LatitudeIs v (some l)) :
    (c i j = none → totalCov k use v c q i j = none) ∧
    ∀ x, c i j = some x → ∃ y, totalCov k use v c q i j = some y ∧
      (k ≠ .spherical → y = x + if use then (q i j).getD 0 else 0) ∧
      (k = .spherical → y = (x + if use then (q i j).getD 0 else 0) * (if i.val = 1 ∨ i.val = 4 then Real.cos (l * (Real.pi / 180)) else 1)
        * (if j.val = 1 ∨ j.val = 4 then Real.cos (l * (Real.pi / 180)) else 1)) := by
  have hl := latitude_of hl'
  unfold totalCov scaleCov
  by_cases hk : k = .spherical
  · simp only [if_pos hk, hl]
    refine ⟨fun h => by rw [h]; rfl, fun x hx => ?_⟩
    rw [hx]
    cases use
    · exact ⟨_, rfl, fun h => absurd hk h, fun _ => by simp only [diag, Bool.false_eq_true, if_false]; ring⟩
    · exact ⟨_, rfl, fun h => absurd hk h, fun _ => by simp only [diag, if_true]; ring⟩
  · simp only [if_neg hk]
    refine ⟨fun h => by rw [h]; rfl, fun x hx => ?_⟩
    rw [hx]
    cases use
    · exact ⟨_, rfl, fun _ => rfl, fun h => absurd h hk⟩
    · exact ⟨_, rfl, fun _ => rfl, fun h => absurd h hk⟩

/-- Chi-square is the squared Mahalanobis distance: `chi2 = r · x` where `C x = r`, over the columns with values; missing
off-diagonal covariances count as zero. It is missing exactly when the batch has no covariance or a predicted value is missing. -/
theorem C94_mahalanobis {R : List (Row D)} {r : Row D} (hr : r ∈ R) (hf : Fine R r) :
    (chi2In R r = none ↔ BatchNoCov R r ∨ ∃ i, r.values i ≠ none ∧ r.resid i = none) ∧
    ∀ c, chi2In R r = some c → ∃ x : {i // mask r.values i = true} → ℝ,
      (∀ i : {i // mask r.values i = true}, r.resid i = some (∑ j : {i // mask r.values i = true}, (r.cov i j).getD 0 * x j)) ∧ c = ∑ i : {i // mask r.values i = true}, (r.resid i).getD 0 * x i := by
  classical
  unfold chi2In
  by_cases hb : BatchNoCov R r
  · rw [if_pos hb]
    exact ⟨⟨fun _ => .inl hb, fun _ => rfl⟩, fun c h => by cases h⟩
  rw [if_neg hb]
  have hi : Invertible r := (hf.resolve_left hb) r hr rfl
  unfold chi2Row
  by_cases hs : ∀ i : {i // mask r.values i = true}, (r.resid i).isSome
  · rw [if_pos hs]
    constructor
    · refine ⟨fun h => (by cases h), ?_⟩
      rintro (h | ⟨i, h1, h2⟩)
      · exact absurd h hb
      · have := hs ⟨i, by unfold mask; exact Option.ne_none_iff_isSome.mp h1⟩
        rw [h2] at this
        cases this
    · intro c hc
      simp only [Option.some.injEq] at hc
      have hu : IsUnit (sub (mask r.values) r.cov).det := isUnit_iff_ne_zero.mpr hi.2
      refine ⟨(sub (mask r.values) r.cov)⁻¹ *ᵥ fun j : {i // mask r.values i = true} => (r.resid j).getD 0, ?_, ?_⟩
      · intro i
        have : (sub (mask r.values) r.cov) *ᵥ ((sub (mask r.values) r.cov)⁻¹ *ᵥ fun j : {i // mask r.values i = true} => (r.resid j).getD 0)
            = fun j : {i // mask r.values i = true} => (r.resid j).getD 0 := by
          rw [Matrix.mulVec_mulVec, Matrix.mul_nonsing_inv _ hu, Matrix.one_mulVec]
        have h2 := congrFun this i
        obtain ⟨y, hy⟩ := Option.isSome_iff_exists.mp (hs i)
        rw [hy]
        simp only [hy, Option.getD_some] at h2
        rw [← h2]
        rfl
      · rw [← hc]
        apply Finset.sum_congr rfl
        intro i _
        simp only [Matrix.mulVec, dotProduct]
        rw [Finset.mul_sum]
        apply Finset.sum_congr rfl
        intro j _
        ring
  · rw [if_neg hs]
    push Not at hs
    obtain ⟨i, hi'⟩ := hs
    refine ⟨⟨fun _ => .inr ⟨i, ?_, ?_⟩, fun _ => rfl⟩, fun c h => by cases h⟩
    · have := i.2
      unfold mask at this
      exact Option.ne_none_iff_isSome.mpr this
    · exact Option.not_isSome_iff_eq_none.mp hi'

/-- With a positive definite covariance chi-square is never negative, and zero only for zero residuals. -/
theorem C94_nonneg {r : Row D} {c : ℝ} (hp : (sub (mask r.values) r.cov).PosDef) (h : chi2Row (mask r.values) r = some c) :
    0 ≤ c ∧ (c = 0 ↔ ∀ i : {i // mask r.values i = true}, r.resid i = some 0) := by
  unfold chi2Row at h
  split at h
  swap
  · cases h
  rename_i hs
  simp only [Option.some.injEq] at h
  have hq := hp.inv
  have e : c = star (fun i : {i // mask r.values i = true} => (r.resid i).getD 0) ⬝ᵥ
      ((sub (mask r.values) r.cov)⁻¹ *ᵥ fun i : {i // mask r.values i = true} => (r.resid i).getD 0) := by
    rw [← h]
    simp only [dotProduct, Matrix.mulVec, star_trivial]
    apply Finset.sum_congr rfl
    intro i _
    rw [Finset.mul_sum]
    apply Finset.sum_congr rfl
    intro j _
    ring
  constructor
  · rw [e]
    exact hq.posSemidef.dotProduct_mulVec_nonneg _
  · constructor
    · intro h0 i
      by_contra hne
      have : (fun i : {i // mask r.values i = true} => (r.resid i).getD 0) ≠ 0 := by
        intro h1
        have := congrFun h1 i
        obtain ⟨y, hy⟩ := Option.isSome_iff_exists.mp (hs i)
        simp only [hy, Option.getD_some, Pi.zero_apply] at this
        exact hne (by rw [hy, this])
      have := hq.dotProduct_mulVec_pos this
      rw [← e, h0] at this
      exact lt_irrefl _ this
    · intro h0
      rw [← h]
      apply Finset.sum_eq_zero
      intro i _
      apply Finset.sum_eq_zero
      intro j _
      rw [h0 i]
      simp

/-- The scaling by cos(latitude) of longitude residuals and covariances cancels: chi-square of spherical coordinates is that
of the unscaled (bounded) residuals and covariances. -/
theorem C94_latitude (use : Bool) (v w : Vec D) (c q : Cov D) (l : ℝ) (hl' : LatitudeIs v (some l))
    (hc : Real.cos (l * (Real.pi / 180)) ≠ 0) :
    chi2Row (mask v) ⟨v, residual .spherical v w, totalCov .spherical use v c q⟩
      = chi2Row (mask v) ⟨v, boundVec v fun i => lift2 (· - ·) (v i) (w i), totalCov .cartesian use v c q⟩ := by
  classical
  have hl := latitude_of hl'
  have hd : ∀ i : Fin D, diag l i ≠ 0 := by
    intro i
    unfold diag
    split
    · exact hc
    · exact one_ne_zero
  have hres : ∀ i, residual .spherical v w i = (boundVec v (fun i => lift2 (· - ·) (v i) (w i)) i).map fun x => x * diag l i := by
    intro i
    unfold residual
    simp only [if_true]
    unfold scaleVec diag
    rw [hl]
    split
    · cases boundVec v (fun i => lift2 (· - ·) (v i) (w i)) i <;> rfl
    · cases boundVec v (fun i => lift2 (· - ·) (v i) (w i)) i <;> simp
  generalize hb : boundVec v (fun i => lift2 (· - ·) (v i) (w i)) = b at hres
  have hsub : sub (mask v) (totalCov .spherical use v c q)
      = Matrix.diagonal (fun i : {i // mask v i = true} => diag l i.1) * sub (mask v) (totalCov .cartesian use v c q)
        * Matrix.diagonal (fun i : {i // mask v i = true} => diag l i.1) := by
    ext i j
    rw [Matrix.mul_diagonal, Matrix.diagonal_mul]
    unfold sub totalCov scaleCov
    simp only [if_true, hl, if_neg (show ¬ Kind.cartesian = Kind.spherical by decide)]
    generalize c i.1 j.1 = x
    cases use <;> cases x <;> (simp [lift2, zeroed]; try ring)
  unfold chi2Row
  simp only
  by_cases hs : ∀ i : {i // mask v i = true}, (b i).isSome
  · rw [if_pos hs, if_pos]
    swap
    · intro i
      rw [hres, Option.isSome_map]
      exact hs i
    congr 1
    rw [hsub, Matrix.mul_inv_rev, Matrix.mul_inv_rev]
    have hinv : (Matrix.diagonal (fun i : {i // mask v i = true} => diag l i.1))⁻¹
        = Matrix.diagonal (fun i : {i // mask v i = true} => (diag l i.1)⁻¹) := by
      apply Matrix.inv_eq_right_inv
      rw [Matrix.diagonal_mul_diagonal]
      ext i j
      by_cases hij : i = j
      · subst hij; simp [mul_inv_cancel₀ (hd i.1)]
      · simp [hij]
    rw [hinv]
    apply Finset.sum_congr rfl
    intro i _
    apply Finset.sum_congr rfl
    intro j _
    rw [Matrix.diagonal_mul, Matrix.mul_diagonal]
    rw [hres, hres]
    obtain ⟨x, hx⟩ := Option.isSome_iff_exists.mp (hs i)
    obtain ⟨y, hy⟩ := Option.isSome_iff_exists.mp (hs j)
    rw [hx, hy]
    simp only [Option.map_some, Option.getD_some]
    have h1 := hd i.1
    have h2 := hd j.1
    field_simp
  · rw [if_neg hs, if_neg]
    intro h
    apply hs
    intro i
    have := h i
    rw [hres, Option.isSome_map] at this
    exact this

/-- Without a latitude there is no chi-square, even where all other columns have values and variances. -/
theorem C94_no_latitude (use : Bool) (v w : Vec D) (c q : Cov D) (hl' : LatitudeIs v none) :
    NoCov (⟨v, residual .spherical v w, totalCov .spherical use v c q⟩ : Row D) := by
  have hl := latitude_of hl'
  intro i j
  have hs : ∀ x : Cov D, scaleCov none x i.1 j.1 = none := by
    intro x
    unfold scaleCov
    cases x i.1 j.1 <;> rfl
  simp only [totalCov, if_true, hl, hs, lift2]

/-- At a pole the scaled covariance is singular, so the call raises (in exact arithmetic) when the longitude is observed and
the row has a covariance. -/
theorem C94_pole (use : Bool) (v w : Vec D) (c q : Cov D) (l : ℝ) (hl' : LatitudeIs v (some l))
    (hc : Real.cos (l * (Real.pi / 180)) = 0) (i : {i // mask v i = true}) (hi : i.1.val = 1) :
    ¬ Invertible (⟨v, residual .spherical v w, totalCov .spherical use v c q⟩ : Row D) := by
  have hl := latitude_of hl'
  intro h
  apply h.2
  apply Matrix.det_eq_zero_of_row_eq_zero i
  intro j
  have hd : diag l i.1 = 0 := by unfold diag; rw [if_pos (.inl hi)]; exact hc
  unfold sub totalCov scaleCov
  simp only [if_true, hl]
  cases use <;> cases c i.1 j.1 <;> simp [lift2, zeroed, hd]

/-- The degrees of freedom are the number of columns with values. -/
theorem C94_dof (v : Vec D) : dof v = (Finset.univ.filter fun i => v i ≠ none).card := by
  classical
  unfold dof
  have h1 : ((List.finRange D).filter fun i => !mask v i).length = (Finset.univ.filter fun i => ¬ v i ≠ none).card := by
    rw [Finset.card_def]
    have : (Finset.univ.filter fun i => ¬ v i ≠ none).val = (((List.finRange D).filter fun i => !mask v i : List (Fin D)) : Multiset (Fin D)) := by
      rw [Finset.filter_val]
      change Multiset.filter _ ((List.finRange D : List (Fin D)) : Multiset (Fin D)) = _
      rw [Multiset.filter_coe]
      congr 1
      apply List.filter_congr
      intro i _
      unfold mask
      cases v i <;> simp
    rw [this]
    rfl
  rw [h1]
  have h2 := Finset.card_filter_add_card_filter_not (s := (Finset.univ : Finset (Fin D))) (fun i => v i ≠ none)
  rw [Finset.card_univ, Fintype.card_fin] at h2
  omega

/-- The reduced chi-square is the sum of the chi-squares over the total degrees of freedom less the parameters. -/
theorem C94_reduced {rs : List (Answer D)} {n : Nat} {x : ℝ} (h : reducedChi2 rs n = some x) :
    (∀ r ∈ rs, r.chi2 ≠ none) ∧ x * ((rs.map fun r => (r.dof : ℝ)).sum - n) = (rs.map fun r => r.chi2.getD 0).sum := by
  unfold reducedChi2 at h
  simp only at h
  split at h
  · cases h
  rename_i h1
  split at h
  · cases h
  rename_i h2
  cases h
  refine ⟨fun r hr hn => h1 (List.any_eq_true.mpr ⟨r, hr, by rw [hn]; rfl⟩), div_mul_cancel₀ _ h2⟩

end Verif.Resid.Props
