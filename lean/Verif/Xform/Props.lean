import Verif.Xform.Rows
import Verif.Xform.Spec
import Mathlib.LinearAlgebra.Matrix.PosDef
import Mathlib.Tactic.NormNum
import Mathlib.Tactic.FinCases
import Mathlib.Tactic.LinearCombination

/-! # C45 (rotations), C52 (transform_coordinates) -/

namespace Verif.Xform.Props

open Verif Sched Matrix Xform.Spec Classical

variable {τ : Type}

/-! ### C52: checks -/

/-- The arguments after the checks. -/
theorem transform_valid {w : World τ} {c : Coords τ} {rep : Option Rep} {frame : Option Str} {origin : Option OArg}
    (h : Valid rep frame origin) {k : Kind} (hk : wantKind c rep = some k) :
    transform w (.coords c) rep frame origin =
      if shortcut c k (frame.getD c.frame) (wantOrigin origin) then .ok c else steps w c k (frame.getD c.frame) (wantOrigin origin) := by
  obtain ⟨h1, h2, h3⟩ := h
  unfold transform
  simp only
  rw [if_neg]
  · cases origin with
    | none =>
      cases rep with
      | none => cases hk; rfl
      | some r => cases r with
        | other => exact absurd rfl h1
        | kind k' => cases hk; rfl
    | some o =>
      cases o with
      | other => exact absurd rfl h3
      | code o =>
        cases rep with
        | none => cases hk; rfl
        | some r => cases r with
          | other => exact absurd rfl h1
          | kind k' => cases hk; rfl
  · cases frame with
    | none => simp
    | some f =>
      have := h2 f rfl
      unfold Frame at this
      simpa [or_iff_not_imp_left] using this

/-- **C52**: a first argument that is not a coordinates class, a frame that is not one of the three, an origin that is not a
member of `OriginCodes` and a class that is not one of the five are rejected, checked in that order; nothing else is rejected by
the checks. -/
theorem C52_checks (w : World τ) (arg : Arg τ) (rep : Option Rep) (frame : Option Str) (origin : Option OArg) :
    (arg = .other → transform w arg rep frame origin = .error .typeError) ∧
    (∀ c, arg = .coords c →
      ((∃ f, frame = some f ∧ ¬ Frame f) → transform w arg rep frame origin = .error .valueError) ∧
      ((∀ f, frame = some f → Frame f) → origin = some .other → transform w arg rep frame origin = .error .typeError) ∧
      ((∀ f, frame = some f → Frame f) → origin ≠ some .other → rep = some .other →
        transform w arg rep frame origin = .error .valueError)) := by
  constructor
  · rintro rfl
    rfl
  rintro c rfl
  refine ⟨?_, ?_, ?_⟩
  · rintro ⟨f, rfl, hf⟩
    unfold transform
    simp only
    rw [if_pos]
    unfold Frame at hf
    simpa using hf
  · rintro hf rfl
    unfold transform
    simp only
    rw [if_neg]
    cases frame with
    | none => simp
    | some f => have := hf f rfl; unfold Frame at this; simpa [or_iff_not_imp_left] using this
  · rintro hf ho rfl
    unfold transform
    simp only
    rw [if_neg]
    · cases origin with
      | none => rfl
      | some o => cases o with
        | other => exact absurd rfl ho
        | code o => rfl
    · cases frame with
      | none => simp
      | some f => have := hf f rfl; unfold Frame at this; simpa [or_iff_not_imp_left] using this

/-- Whatever is accepted has passed the checks. -/
theorem valid_of_ok {w : World τ} {c d : Coords τ} {rep : Option Rep} {frame : Option Str} {origin : Option OArg}
    (h : transform w (.coords c) rep frame origin = .ok d) : Valid rep frame origin := by
  obtain ⟨-, hc⟩ := C52_checks w (.coords c) rep frame origin
  obtain ⟨h1, h2, h3⟩ := hc c rfl
  have hf : ∀ f, frame = some f → Frame f := by
    intro f hf
    by_contra hn
    rw [h1 ⟨f, hf, hn⟩] at h
    cases h
  have ho : origin ≠ some .other := by
    intro ho
    rw [h2 hf ho] at h
    cases h
  refine ⟨?_, hf, ho⟩
  intro hr
  rw [h3 hf ho hr] at h
  cases h

theorem wantKind_some {c : Coords τ} {rep : Option Rep} (h : rep ≠ some .other) : ∃ k, wantKind c rep = some k := by
  cases rep with
  | none => exact ⟨_, rfl⟩
  | some r => cases r with
    | other => exact absurd rfl h
    | kind k => exact ⟨_, rfl⟩

theorem shortcut_iff {c : Coords τ} {k : Kind} {f : Str} {o : Option Str} :
    shortcut c k f o = true ↔ c.kind = k ∧ c.frame = f ∧ (o = none ∨ c.rows = []) := by
  unfold shortcut
  cases o with
  | none => simp
  | some o => simp [and_assoc]

/-- **C52**: when no origin is requested and neither the class nor the frame differs, the result is the table itself: also for
geodetic coordinates, for unknown origins and for missing values. -/
theorem C52_same (w : World τ) (c : Coords τ) (rep : Option Rep) (frame : Option Str)
    (hr : rep = none ∨ rep = some (.kind c.kind)) (hf : frame = none ∨ frame = some c.frame ∧ Frame c.frame) :
    transform w (.coords c) rep frame none = .ok c := by
  have hv : Valid rep frame none := by
    refine ⟨?_, ?_, by simp⟩
    · rcases hr with rfl | rfl <;> simp
    · rcases hf with rfl | ⟨rfl, hf⟩
      · intro f h; cases h
      · intro f h; cases h; exact hf
  have hk : wantKind c rep = some c.kind := by rcases hr with rfl | rfl <;> rfl
  rw [transform_valid hv hk, if_pos]
  rw [shortcut_iff]
  refine ⟨rfl, ?_, .inl rfl⟩
  rcases hf with rfl | ⟨rfl, -⟩ <;> rfl

/-! ### C52: the result -/

theorem g1_meta (w : World τ) (k : Kind) (r : Row τ) : (g1 w k r).origin = r.origin ∧ (g1 w k r).time = r.time := by
  unfold g1
  split <;> exact ⟨rfl, rfl⟩

theorem g2_meta (w : World τ) (f : Str) (o : Option Str) (r : Row τ) :
    (g2 w f o r).origin = newOrigin o r ∧ (g2 w f o r).time = r.time := by
  unfold g2 newOrigin
  cases o with
  | none => exact ⟨rfl, rfl⟩
  | some o =>
    simp only [Option.getD_some]
    split
    · rename_i h; exact ⟨h, rfl⟩
    · exact ⟨rfl, rfl⟩

theorem g3_meta (w : World τ) (i o : Str) (r : Row τ) : (g3 w i o r).origin = r.origin ∧ (g3 w i o r).time = r.time := by
  unfold g3
  split <;> exact ⟨rfl, rfl⟩

theorem g4_meta (w : World τ) (k : Kind) (r : Row τ) : (g4 w k r).origin = r.origin ∧ (g4 w k r).time = r.time := by
  unfold g4
  split <;> exact ⟨rfl, rfl⟩

/-- What the steps do to a row. -/
noncomputable def g (w : World τ) (k0 : Kind) (f0 : Str) (k : Kind) (f : Str) (o : Option Str) (r : Row τ) : Row τ :=
  g4 w k (g3 w f0 f (g2 w f0 o (g1 w k0 r)))

theorem g_meta (w : World τ) (k0 : Kind) (f0 : Str) (k : Kind) (f : Str) (o : Option Str) (r : Row τ) :
    (g w k0 f0 k f o r).origin = newOrigin o r ∧ (g w k0 f0 k f o r).time = r.time := by
  unfold g
  rw [(g4_meta ..).1, (g4_meta ..).2, (g3_meta ..).1, (g3_meta ..).2, (g2_meta ..).1, (g2_meta ..).2, (g1_meta ..).2]
  refine ⟨?_, rfl⟩
  unfold newOrigin
  rw [(g1_meta ..).1]

theorem rowState_g1 (w : World τ) (k : Kind) (f o : Str) (r : Row τ) :
    (∃ x, rowState w f o (g1 w k r) = .ok x) ↔ HasState w f o r := by
  unfold rowState HasState
  rw [(g1_meta w k r).1, (g1_meta w k r).2]
  by_cases h : r.origin ∈ codes ∨ w.observatory r.origin = true
  · rw [if_pos h]
    exact ⟨fun h' => ⟨h, h'⟩, fun h' => h'.2⟩
  · rw [if_neg h]
    exact ⟨fun ⟨_, h'⟩ => (by cases h'), fun h' => absurd h'.1 h⟩

theorem uniq_len_one {l : List Str} : (uniq l).length = 1 ↔ l ≠ [] ∧ ∀ a ∈ l, ∀ b ∈ l, a = b := by
  constructor
  · intro h
    obtain ⟨x, hx⟩ := List.length_eq_one_iff.mp h
    have hm : ∀ a ∈ l, a = x := by
      intro a ha
      have := (mem_uniq l a).mpr ha
      rw [hx] at this
      simpa using this
    refine ⟨?_, fun a ha b hb => (hm a ha).trans (hm b hb).symm⟩
    rintro rfl
    have : x ∈ uniq ([] : List Str) := by rw [hx]; simp
    exact absurd ((mem_uniq _ _).mp this) List.not_mem_nil
  · rintro ⟨hne, ha⟩
    obtain ⟨x, hx⟩ := List.exists_mem_of_ne_nil l hne
    have hall : ∀ y ∈ uniq l, y = x := fun y hy => ha y ((mem_uniq l y).mp hy) x hx
    have hnd := nodup_uniq l
    have hmem := (mem_uniq l x).mpr hx
    cases hu : uniq l with
    | nil => rw [hu] at hmem; cases hmem
    | cons a t =>
      cases t with
      | nil => rfl
      | cons b t =>
        rw [hu] at hall hnd
        have e1 := hall a (by simp)
        have e2 := hall b (by simp)
        subst e1
        subst e2
        simp at hnd

theorem invalid_iff (v : Vals) : invalidElements v ↔ Misshapen v := by
  unfold invalidElements Misshapen
  cases v 0 with
  | none => simp
  | some a => cases v 1 with
    | none => simp
    | some e => simp [gt_iff_lt]

theorem steps_eq {w : World τ} (hw : SelfZero w) {c d : Coords τ} {k : Kind} {f : Str} {o : Option Str} :
    steps w c k f o = .ok d ↔ Feasible w c k f o ∧ d = ⟨k, f, c.rows.map (g w c.kind c.frame k f o)⟩ := by
  rw [steps_iff]
  have hlen : ∀ R : List (Row τ),
      (uniq (((R.map (g1 w c.kind)).map (g2 w c.frame o)).map Row.origin)).length = 1 ↔
        R ≠ [] ∧ ∀ r ∈ R, ∀ r' ∈ R, newOrigin o r = newOrigin o r' := by
    intro R
    have e : ((R.map (g1 w c.kind)).map (g2 w c.frame o)).map Row.origin = R.map (newOrigin o) := by
      rw [List.map_map, List.map_map]
      apply List.map_congr_left
      intro r _
      simp only [Function.comp_apply]
      rw [(g2_meta ..).1]
      unfold newOrigin
      rw [(g1_meta ..).1]
    rw [e, uniq_len_one]
    simp
  have horig : ∀ r, (g3 w c.frame f (g2 w c.frame o (g1 w c.kind r))).origin = newOrigin o r := by
    intro r
    rw [(g3_meta ..).1, (g2_meta ..).1]
    unfold newOrigin
    rw [(g1_meta ..).1]
  have hcov : ∀ r i j, (g3 w c.frame f (g2 w c.frame o (g1 w c.kind r))).cov i j = none ↔
      (if c.kind = .cartesian then r.cov else propagate (w.toJac c.kind (w.mu r.origin) r.time r.vals) r.cov) i j = none := by
    intro r i j
    have e1 : (g1 w c.kind r).cov = if c.kind = .cartesian then r.cov else
        propagate (w.toJac c.kind (w.mu r.origin) r.time r.vals) r.cov := by
      unfold g1
      split <;> rfl
    have e2 : (g2 w c.frame o (g1 w c.kind r)).cov = (g1 w c.kind r).cov := by
      unfold g2
      cases o with
      | none => rfl
      | some o => simp only; split <;> rfl
    rw [← e1, ← e2]
    unfold g3
    split
    · rfl
    · show rotateCov _ _ i j = none ↔ _
      unfold rotateCov
      cases (g2 w c.frame o (g1 w c.kind r)).cov i j <;> simp
  constructor
  · rintro ⟨x, y, z, h1, h2, h3, h4⟩
    obtain ⟨⟨⟨a1, a2⟩, a3, a4⟩, rfl⟩ := step1_iff.mp h1
    obtain ⟨b, rfl⟩ := (step2_iff hw).mp h2
    obtain ⟨c1, rfl⟩ := step3_iff.mp h3
    obtain ⟨⟨d1, d2, d3, d4⟩, rfl⟩ := step4_iff.mp h4
    simp only at b c1 d1 d2 d3 d4
    constructor
    · constructor
      · exact a1
      · exact a2
      · rintro o' ho ⟨r, hr, hne⟩ r' hr'
        have := b o' ho ⟨g1 w c.kind r, List.mem_map_of_mem hr, by rw [(g1_meta ..).1]; exact hne⟩
          (g1 w c.kind r') (List.mem_map_of_mem hr')
        exact (rowState_g1 ..).mp this
      · intro hf
        rcases c1 hf with h | ⟨h, hl⟩
        · exact .inl h
        · exact .inr ⟨h, (hlen _).mp hl⟩
      · intro hk r hr
        have := d1 hk _ (List.mem_map_of_mem (List.mem_map_of_mem (List.mem_map_of_mem hr)))
        rwa [horig] at this
      · intro hk
        refine ⟨(d2 hk).1, fun ht => ⟨by simpa using ((d2 hk).2 ht).1, fun r hr => ?_⟩⟩
        have := ((d2 hk).2 ht).2 _ (List.mem_map_of_mem (List.mem_map_of_mem (List.mem_map_of_mem hr)))
        rwa [horig] at this
      · intro hk r hr i j
        exact (hcov r i j).mp (d3 hk _ (List.mem_map_of_mem (List.mem_map_of_mem (List.mem_map_of_mem hr))) i j)
      · exact a3
      · exact fun hk r hr hb => a4 hk r hr ((invalid_iff _).mpr hb)
      · exact fun hk hR => d4 hk (by rw [hR]; rfl)
    · simp only [List.map_map]
      congr 1
      by_cases hk : k = .cartesian
      · rw [if_pos hk, hk]
      · rw [if_neg hk]
  · rintro ⟨⟨p1, p2, p3, p4, p5, p6, p7, p8, p9, p10⟩, rfl⟩
    refine ⟨_, _, _, step1_iff.mpr ⟨⟨⟨p1, p2⟩, p8, fun hk r hr hb => p9 hk r hr ((invalid_iff _).mp hb)⟩, rfl⟩, (step2_iff hw).mpr ⟨?_, rfl⟩, step3_iff.mpr ⟨?_, rfl⟩,
      step4_iff.mpr ⟨⟨?_, ?_, ?_, fun hk hR => p10 hk (by simpa using hR)⟩, ?_⟩⟩
    · rintro o' ho ⟨r, hr, hne⟩ r' hr'
      obtain ⟨q, hq, rfl⟩ := List.mem_map.mp hr
      obtain ⟨q', hq', rfl⟩ := List.mem_map.mp hr'
      rw [(g1_meta ..).1] at hne
      exact (rowState_g1 ..).mpr (p3 o' ho ⟨q, hq, hne⟩ q' hq')
    · intro hf
      rcases p4 hf with h | ⟨h, hl⟩
      · exact .inl h
      · exact .inr ⟨h, (hlen _).mpr hl⟩
    · intro hk r hr
      obtain ⟨q1, hq1, rfl⟩ := List.mem_map.mp hr
      obtain ⟨q2, hq2, rfl⟩ := List.mem_map.mp hq1
      obtain ⟨q3, hq3, rfl⟩ := List.mem_map.mp hq2
      rw [horig]
      exact p5 hk q3 hq3
    · intro hk
      refine ⟨(p6 hk).1, fun ht => ⟨by simpa using ((p6 hk).2 ht).1, ?_⟩⟩
      intro r hr
      obtain ⟨q1, hq1, rfl⟩ := List.mem_map.mp hr
      obtain ⟨q2, hq2, rfl⟩ := List.mem_map.mp hq1
      obtain ⟨q3, hq3, rfl⟩ := List.mem_map.mp hq2
      rw [horig]
      exact ((p6 hk).2 ht).2 q3 hq3
    · intro hk r hr i j
      obtain ⟨q1, hq1, rfl⟩ := List.mem_map.mp hr
      obtain ⟨q2, hq2, rfl⟩ := List.mem_map.mp hq1
      obtain ⟨q3, hq3, rfl⟩ := List.mem_map.mp hq2
      exact (hcov q3 i j).mpr (p7 hk q3 hq3 i j)
    · simp only [List.map_map]
      congr 1
      by_cases hk : k = .cartesian
      · rw [if_pos hk, hk]
      · rw [if_neg hk]

/-- **C52**: the result has the requested class, frame and origins, and as many rows with the same times in the same order. What
is not requested stays as it was. -/
theorem C52_requested {w : World τ} {c d : Coords τ} {rep : Option Rep} {frame : Option Str} {origin : Option OArg}
    (hw : SelfZero w) (h : transform w (.coords c) rep frame origin = .ok d) :
    wantKind c rep = some d.kind ∧ d.frame = frame.getD c.frame ∧ d.rows.map Row.time = c.rows.map Row.time ∧
    d.rows.map Row.origin = c.rows.map (newOrigin (wantOrigin origin)) := by
  have hv := valid_of_ok h
  obtain ⟨k, hk⟩ := wantKind_some (c := c) hv.1
  rw [transform_valid hv hk] at h
  by_cases hs : shortcut c k (frame.getD c.frame) (wantOrigin origin) = true
  · rw [if_pos hs] at h
    cases h
    obtain ⟨h1, h2, h3⟩ := shortcut_iff.mp hs
    refine ⟨by rw [hk, h1], h2, rfl, ?_⟩
    rcases h3 with h3 | h3
    · rw [h3]; rfl
    · rw [h3]; rfl
  · rw [if_neg hs] at h
    obtain ⟨-, rfl⟩ := (steps_eq hw).mp h
    refine ⟨hk, rfl, ?_, ?_⟩
    · rw [List.map_map]
      exact List.map_congr_left fun r _ => (g_meta ..).2
    · rw [List.map_map]
      exact List.map_congr_left fun r _ => (g_meta ..).1

/-- **C52**: exactly when a transformation succeeds. -/
theorem C52_accepts {w : World τ} {c : Coords τ} {rep : Option Rep} {frame : Option Str} {origin : Option OArg} {k : Kind}
    (hw : SelfZero w) (hk : wantKind c rep = some k) :
    (∃ d, transform w (.coords c) rep frame origin = .ok d) ↔
      Valid rep frame origin ∧
        ((k = c.kind ∧ frame.getD c.frame = c.frame ∧ (origin = none ∨ c.rows = [])) ∨
          Feasible w c k (frame.getD c.frame) (wantOrigin origin)) := by
  have hor : ∀ (_ : Valid rep frame origin), wantOrigin origin = none ↔ origin = none := by
    rintro ⟨-, -, h⟩
    cases origin with
    | none => exact ⟨fun _ => rfl, fun _ => rfl⟩
    | some o => cases o with
      | other => exact absurd rfl h
      | code o => exact ⟨fun h => (by cases h), fun h => (by cases h)⟩
  constructor
  · rintro ⟨d, h⟩
    have hv := valid_of_ok h
    refine ⟨hv, ?_⟩
    rw [transform_valid hv hk] at h
    by_cases hs : shortcut c k (frame.getD c.frame) (wantOrigin origin) = true
    · obtain ⟨h1, h2, h3⟩ := shortcut_iff.mp hs
      rw [hor hv] at h3
      exact .inl ⟨h1.symm, h2.symm, h3⟩
    · rw [if_neg hs] at h
      exact .inr ((steps_eq hw).mp h).1
  · rintro ⟨hv, h⟩
    rw [transform_valid hv hk]
    by_cases hs : shortcut c k (frame.getD c.frame) (wantOrigin origin) = true
    · rw [if_pos hs]; exact ⟨_, rfl⟩
    · rw [if_neg hs]
      rcases h with ⟨h1, h2, h3⟩ | h
      · exfalso
        rw [← hor hv] at h3
        exact hs (shortcut_iff.mpr ⟨h1.symm, h2.symm, h3⟩)
      · exact ⟨_, (steps_eq hw).mpr ⟨h, rfl⟩⟩

/-- A table that is fine stays fine with fewer rows. -/
theorem feasible_row {w : World τ} {c : Coords τ} {k : Kind} {f : Str} {o : Option Str} (h : Feasible w c k f o) {r : Row τ}
    (hr : r ∈ c.rows) : Feasible w ⟨c.kind, c.frame, [r]⟩ k f o := by
  obtain ⟨p1, p2, p3, p4, p5, p6, p7, p8, p9, p10⟩ := h
  constructor
  · exact p1
  · intro hk r' hr'
    rw [List.mem_singleton.mp hr']
    exact p2 hk r hr
  · rintro o' ho ⟨r1, hr1, hne⟩ r2 hr2
    rw [List.mem_singleton.mp hr1] at hne
    rw [List.mem_singleton.mp hr2]
    exact p3 o' ho ⟨r, hr, hne⟩ r hr
  · intro hf
    rcases p4 hf with h | ⟨h, -⟩
    · exact .inl h
    · refine .inr ⟨h, by simp, ?_⟩
      intro a ha b hb
      rw [List.mem_singleton.mp ha, List.mem_singleton.mp hb]
  · intro hk r' hr'
    rw [List.mem_singleton.mp hr']
    exact p5 hk r hr
  · intro hk
    refine ⟨(p6 hk).1, fun ht => ⟨by simp, fun r' hr' => ?_⟩⟩
    rw [List.mem_singleton.mp hr']
    exact ((p6 hk).2 ht).2 r hr
  · intro hk r' hr'
    rw [List.mem_singleton.mp hr']
    exact p7 hk r hr
  · exact fun _ => by simp
  · intro hk r' hr'
    rw [List.mem_singleton.mp hr']
    exact p9 hk r hr
  · exact fun _ => by simp

/-- **C52**: every row is transformed as if it were alone in its table. Neither the grouping by origins nor the one by times nor
the other rows' covariances have an effect. -/
theorem C52_rows {w : World τ} {c d : Coords τ} {rep : Option Rep} {frame : Option Str} {origin : Option OArg} (hw : SelfZero w)
    (h : transform w (.coords c) rep frame origin = .ok d) :
    d.rows.length = c.rows.length ∧ ∀ (i : Nat) (r : Row τ), c.rows[i]? = some r →
      ∃ r', d.rows[i]? = some r' ∧
        transform w (.coords ⟨c.kind, c.frame, [r]⟩) rep frame origin = .ok ⟨d.kind, d.frame, [r']⟩ := by
  have hv := valid_of_ok h
  obtain ⟨k, hk⟩ := wantKind_some (c := c) hv.1
  have hk' : ∀ r : Row τ, wantKind (⟨c.kind, c.frame, [r]⟩ : Coords τ) rep = some k := by
    intro r
    rw [← hk]
    cases rep with
    | none => rfl
    | some x => cases x <;> rfl
  rw [transform_valid hv hk] at h
  by_cases hs : shortcut c k (frame.getD c.frame) (wantOrigin origin) = true
  · rw [if_pos hs] at h
    cases h
    refine ⟨rfl, fun i r hr => ⟨r, hr, ?_⟩⟩
    rw [transform_valid hv (hk' r), if_pos]
    obtain ⟨h1, h2, h3⟩ := shortcut_iff.mp hs
    rw [shortcut_iff]
    refine ⟨h1, h2, .inl (h3.resolve_right ?_)⟩
    rintro e
    rw [e] at hr
    simp at hr
  · rw [if_neg hs] at h
    obtain ⟨hF, rfl⟩ := (steps_eq hw).mp h
    refine ⟨by simp, fun i r hr => ⟨_, by simp only [List.getElem?_map, hr]; rfl, ?_⟩⟩
    rw [transform_valid hv (hk' r), if_neg]
    · exact (steps_eq hw).mpr ⟨feasible_row hF (List.mem_of_getElem? hr), rfl⟩
    · rw [shortcut_iff]
      rintro ⟨h1, h2, h3⟩
      exact hs (shortcut_iff.mpr ⟨h1, h2, .inl (h3.resolve_right (by simp))⟩)

/-- **C52**: Cartesian rows are moved to the new origin by the state of the old one in the frame the table has, and their
covariances do not change; a row that already has the origin is left as it is. -/
theorem C52_translation {w : World τ} {c d : Coords τ} {o : Str} (hw : SelfZero w) (hc : c.kind = .cartesian)
    (h : transform w (.coords c) none none (some (.code o)) = .ok d) :
    List.Forall₂ (fun r r' => r'.time = r.time ∧ r'.origin = o ∧ r'.cov = r.cov ∧
      ((r.origin = o ∧ r'.vals = r.vals) ∨
        ∃ x, w.state r.origin c.frame r.time o = .ok x ∧ ∀ i, r'.vals i = (r.vals i).map (· + x i))) c.rows d.rows := by
  have hv := valid_of_ok h
  rw [transform_valid hv (k := .cartesian) (by rw [← hc]; rfl)] at h
  by_cases hs : shortcut c .cartesian c.frame (some o) = true
  · have := (shortcut_iff.mp hs).2.2.resolve_left (by simp)
    change (if shortcut c .cartesian c.frame (some o) = true then Except.ok c else _) = _ at h
    rw [if_pos hs] at h
    cases h
    rw [this]
    exact .nil
  · change (if shortcut c .cartesian c.frame (some o) = true then Except.ok c else steps w c .cartesian c.frame (some o)) = _ at h
    rw [if_neg hs] at h
    obtain ⟨hF, rfl⟩ := (steps_eq hw).mp h
    rw [List.forall₂_map_right_iff, List.forall₂_same]
    intro r hr
    have e : g w c.kind c.frame .cartesian c.frame (some o) r = g2 w c.frame (some o) r := by
      unfold g g4 g3 g1
      rw [if_pos rfl, if_pos rfl, if_pos hc]
    rw [e]
    unfold g2
    simp only
    by_cases ho : r.origin = o
    · rw [if_pos ho]
      exact ⟨rfl, ho, rfl, .inl ⟨ho, rfl⟩⟩
    · rw [if_neg ho]
      refine ⟨rfl, rfl, rfl, .inr ?_⟩
      have hst := hF.states o rfl ⟨r, hr, ho⟩ r hr
      have hx := vec_of (w := w) (frame := c.frame) (out := o) (r := r) (by
        unfold rowState
        rw [if_pos hst.1]
        exact hst.2)
      unfold rowState at hx
      rw [if_pos hst.1] at hx
      exact ⟨_, hx, fun i => rfl⟩

/-- **C52, negation**: asking for the origin that the table already has is not the same as not asking. The comparison of the
origins with the requested member of the enumeration is false for every row, so the shortcut is not taken: geodetic coordinates
are rejected, and other classes go to Cartesian coordinates and back. -/
theorem C52_same_origin_false (w : World τ) (hw : SelfZero w) (t : τ) (v : Vals) (hv : ¬ Misshapen v) (cv : Cov) :
    (let c : Coords τ := ⟨.geodetic, "itrf93".toList, [⟨v, cv, t, "EARTH".toList⟩]⟩
     transform w (.coords c) none none none = .ok c ∧
      transform w (.coords c) none none (some (.code "EARTH".toList)) = .error .attributeError) ∧
    (let c : Coords τ := ⟨.keplerian, "ecliptic".toList, [⟨v, cv, t, "SUN".toList⟩]⟩
     transform w (.coords c) none none none = .ok c ∧
      ∃ d, transform w (.coords c) none none (some (.code "SUN".toList)) = .ok d ∧
        d.rows.map Row.vals = [w.fromCart .keplerian (w.mu "SUN".toList) t (w.toCart .keplerian (w.mu "SUN".toList) t v)]) := by
  refine ⟨⟨C52_same _ _ _ _ (.inl rfl) (.inl rfl), ?_⟩, C52_same _ _ _ _ (.inl rfl) (.inl rfl), ?_⟩
  · rw [transform_valid (k := .geodetic) ⟨by simp, by simp, by simp⟩ rfl, if_neg]
    · rfl
    · simp [shortcut, wantOrigin]
  · have hm : "SUN".toList ∈ massive := by decide
    refine ⟨⟨.keplerian, "ecliptic".toList,
      [g w .keplerian "ecliptic".toList .keplerian "ecliptic".toList (some "SUN".toList) ⟨v, cv, t, "SUN".toList⟩]⟩, ?_, ?_⟩
    · rw [transform_valid (k := .keplerian) ⟨by simp, by simp, by simp⟩ rfl, if_neg (by simp [shortcut, wantOrigin])]
      refine (steps_eq hw).mpr ⟨⟨?_, ?_, ?_, ?_, ?_, ?_, ?_, by simp, ?_, by simp⟩, rfl⟩
      · intro h; cases h
      · intro _ r hr
        rw [List.mem_singleton.mp hr]
        exact hm
      · rintro o ho ⟨r, hr, hne⟩
        rw [List.mem_singleton.mp hr] at hne
        cases ho
        exact absurd rfl hne
      · intro h
        exact absurd rfl h
      · intro _ r hr
        exact hm
      · intro h; cases h
      · intro h; cases h
      · intro _ r hr
        rw [List.mem_singleton.mp hr]
        exact hv
    · rfl

/-- **C52, negation**: that geodetic coordinates are relative to the Earth is not always checked. The assertion on the origin is
about a pyarrow scalar and not its value; where scalars are always true, a table in the rotating frame but relative to the Sun
becomes geodetic coordinates. -/
theorem C52_geodetic_false (w : World τ) (hw : SelfZero w) (hs : w.scalarTruth = false) (t : τ) (v : Vals) :
    ∃ d, transform w (.coords ⟨.cartesian, "itrf93".toList, [⟨v, fun _ _ => none, t, "SUN".toList⟩]⟩) (some (.kind .geodetic)) none none = .ok d ∧
      d.kind = .geodetic ∧ d.rows.map Row.origin = ["SUN".toList] ∧
      d.rows.map Row.vals = [w.fromCart .geodetic (w.mu "SUN".toList) t v] := by
  refine ⟨⟨.geodetic, "itrf93".toList,
    [g w .cartesian "itrf93".toList .geodetic "itrf93".toList none ⟨v, fun _ _ => none, t, "SUN".toList⟩]⟩, ?_, rfl, rfl, rfl⟩
  rw [transform_valid (k := .geodetic) ⟨by simp, by simp, by simp⟩ rfl, if_neg (by simp [shortcut, wantOrigin])]
  refine (steps_eq hw).mpr ⟨⟨by simp, ?_, ?_, fun h => absurd rfl h, ?_, fun _ => ⟨rfl, fun h => ?_⟩, ?_, by simp, by simp, by simp⟩, rfl⟩
  · rintro (h | h) <;> cases h
  · intro o h; cases h
  · rintro (h | h) <;> cases h
  · rw [hs] at h; cases h
  · intro _ r hr i j
    rw [List.mem_singleton.mp hr]
    simp

/-- **C52, negation**: a table with covariances cannot be converted to geodetic coordinates, whatever its frame and origin: the
conversion of the covariances is a TypeError. -/
theorem C52_geodetic_covariance_false (w : World τ) (t : τ) (v : Vals) (cv : Cov) (hcv : ∃ i j, cv i j ≠ none) :
    transform w (.coords ⟨.cartesian, "itrf93".toList, [⟨v, cv, t, "EARTH".toList⟩]⟩) (some (.kind .geodetic)) none none =
      .error .typeError := by
  rw [transform_valid (k := .geodetic) ⟨by simp, by simp, by simp⟩ rfl, if_neg (by simp [shortcut, wantOrigin])]
  have h1 : earthTruth w [(⟨v, cv, t, "EARTH".toList⟩ : Row τ)] = true := by unfold earthTruth; simp
  have h2 : allNan [(⟨v, cv, t, "EARTH".toList⟩ : Row τ)] = false := by
    unfold allNan
    obtain ⟨i, j, h⟩ := hcv
    simp only [List.all_cons, List.all_nil, Bool.and_true, decide_eq_false_iff_not]
    exact fun hall => h (hall i j)
  unfold steps
  simp only [wantOrigin, Option.getD_none, if_true, ne_eq, not_true_eq_false, if_false]
  unfold fromCartesian
  rw [if_neg (by simp), if_neg (by rw [h1]; rintro ⟨-, h | h⟩; exacts [h rfl, by cases h]), if_pos ⟨rfl, h2⟩]

/-- **C52**: a table of Keplerian elements in which any row has a semi-major axis of the wrong sign is rejected as a whole. -/
theorem C52_misshapen (w : World τ) (c : Coords τ) (hc : c.kind = .keplerian) (k : Kind) (hk : k ≠ .keplerian)
    (h : ∃ r ∈ c.rows, Misshapen r.vals) (origin : Option OArg) (ho : origin ≠ some .other) :
    transform w (.coords c) (some (.kind k)) none origin = .error .valueError := by
  rw [transform_valid (k := k) ⟨by simp, by simp, ho⟩ rfl, if_neg]
  · obtain ⟨r, hr, hb⟩ := h
    have hne : c.rows ≠ [] := by rintro e; rw [e] at hr; cases hr
    unfold steps toCartesian
    rw [if_neg (by rw [hc]; decide), if_neg (by rw [hc]; decide), if_neg (fun h => hne h.2),
      if_pos ⟨hc, r, hr, (invalid_iff _).mpr hb⟩]
  · rw [shortcut_iff, hc]
    exact fun h => hk h.1.symm

example : Misshapen (fun i => if i = 1 then some 2 else some 1) :=
  ⟨1, 2, by simp, by simp, .inl ⟨by norm_num, by norm_num⟩⟩

/-- **C52, negation**: an empty table cannot always be converted. From Keplerian and cometary elements and to Keplerian elements it
is a ValueError; from spherical coordinates, to spherical coordinates and to cometary elements the result is an empty table. -/
theorem C52_empty_false (w : World τ) (f : Str) :
    (∀ k : Kind, k = .keplerian ∨ k = .cometary → ∀ k' : Kind, k' ≠ k →
      transform w (.coords ⟨k, f, []⟩) (some (.kind k')) none none = .error .valueError) ∧
    transform w (.coords ⟨.cartesian, f, []⟩) (some (.kind .keplerian)) none none = .error .valueError ∧
    transform w (.coords ⟨.cartesian, f, []⟩) (some (.kind .cometary)) none none = .ok ⟨.cometary, f, []⟩ ∧
    transform w (.coords ⟨.cartesian, f, []⟩) (some (.kind .spherical)) none none = .ok ⟨.spherical, f, []⟩ ∧
    transform w (.coords ⟨.spherical, f, []⟩) (some (.kind .cartesian)) none none = .ok ⟨.cartesian, f, []⟩ := by
  have hs : ∀ k k' : Kind, k' ≠ k → transform w (.coords ⟨k, f, []⟩) (some (.kind k')) none none = steps w ⟨k, f, []⟩ k' f none := by
    intro k k' hne
    rw [transform_valid (k := k') ⟨by simp, by simp, by simp⟩ rfl, if_neg]
    · rfl
    · rw [shortcut_iff]
      exact fun h => hne h.1.symm
  refine ⟨fun k hk k' hne => ?_, ?_, ?_, ?_, ?_⟩
  · rw [hs _ _ hne]
    unfold steps toCartesian
    rcases hk with rfl | rfl <;> simp
  all_goals
    rw [hs _ _ (by decide)]
    unfold steps
    simp [fromCartesian, toCartesian, convert]

/-- A world to show that the hypotheses can be met: the origins are fixed points on the x axis. -/
noncomputable def axisWorld (place : Str → ℝ) : World ℕ where
  mu _ := 1
  observatory _ := false
  state a _ _ b := .ok fun i => if i = 0 then place a - place b else 0
  toCart _ _ _ v := v
  toJac _ _ _ _ := fun i j => if i = j then some 1 else some 0
  fromCart _ _ _ v := v
  fromJac _ _ _ _ := fun i j => if i = j then some 1 else some 0
  sxform _ _ _ := 1
  kmPerAu := 1
  secondsPerDay := 1
  obliquity := 0
  scalarTruth := true

example (place : Str → ℝ) : SelfZero (axisWorld place) := by
  intro o f t x h
  have : (fun i : Fin 6 => if i = 0 then place o - place o else 0) = x := by injection h
  rw [← this]
  funext i
  simp

example (place : Str → ℝ) : Feasible (axisWorld place) ⟨.keplerian, "ecliptic".toList,
    [⟨fun _ => some (1 / 2), fun _ _ => none, 5, "SUN".toList⟩, ⟨fun _ => some (1 / 3), fun _ _ => none, 6, "EARTH".toList⟩]⟩ .cometary
    "itrf93".toList (some "EARTH".toList) := by
  constructor
  · intro h; cases h
  · intro _ r hr
    simp only [List.mem_cons, List.not_mem_nil, or_false] at hr
    rcases hr with rfl | rfl <;> exact (by decide)
  · intro o _ _ r hr
    simp only [List.mem_cons, List.not_mem_nil, or_false] at hr
    rcases hr with rfl | rfl <;> exact ⟨.inl (by decide), _, rfl⟩
  · exact fun _ => .inr ⟨.inl ⟨rfl, .inl rfl⟩, by simp, fun _ _ _ _ => rfl⟩
  · exact fun _ r _ => (by decide : "EARTH".toList ∈ massive)
  · intro h; cases h
  · intro h; cases h
  · exact fun _ => by simp
  · intro _ r hr
    simp only [List.mem_cons, List.not_mem_nil, or_false] at hr
    rcases hr with rfl | rfl <;> rintro ⟨a, e, h1, h2, h3⟩ <;> simp only [Option.some.injEq] at h1 h2 <;> subst h1 <;> subst h2 <;>
      norm_num at h3
  · exact fun h => by cases h

/-! ### C95: origins -/

/-- The states of origins relative to each other are differences of places. -/
def Consistent (w : World τ) : Prop :=
  (∀ a b f t x, w.state a f t b = .ok x → w.state b f t a = .ok fun i => -x i) ∧
  (∀ a b c f t x y, w.state a f t b = .ok x → w.state b f t c = .ok y → w.state a f t c = .ok fun i => x i + y i)

example (place : Str → ℝ) : Consistent (axisWorld place) := by
  constructor
  · intro a b f t x h
    have : (fun i : Fin 6 => if i = 0 then place a - place b else 0) = x := by injection h
    rw [← this]
    simp only [axisWorld]
    congr 1
    funext i
    split <;> ring
  · intro a b c f t x y h h'
    have e : (fun i : Fin 6 => if i = 0 then place a - place b else 0) = x := by injection h
    have e' : (fun i : Fin 6 => if i = 0 then place b - place c else 0) = y := by injection h'
    rw [← e, ← e']
    simp only [axisWorld]
    congr 1
    funext i
    split <;> ring

/-- **C95**: if the states of the origins are consistent, a Cartesian table whose rows have one origin, taken to another origin
and back, is the table it was. -/
theorem C95_round_trip {w : World τ} {c d : Coords τ} {a b : Str} (hw : SelfZero w) (hcons : Consistent w) (hc : c.kind = .cartesian)
    (ha : a ∈ codes) (hb : b ∈ codes) (hr : ∀ r ∈ c.rows, r.origin = a)
    (h : transform w (.coords c) none none (some (.code b)) = .ok d) :
    transform w (.coords d) none none (some (.code a)) = .ok c := by
  have h1 := C52_translation hw hc h
  obtain ⟨hk, hf, -, ho⟩ := C52_requested hw h
  have hdk : d.kind = .cartesian := by
    have : c.kind = d.kind := by injection hk
    rw [← this, hc]
  change d.frame = c.frame at hf
  have hdo : ∀ r ∈ d.rows, r.origin = b := by
    intro r hr'
    have : r.origin ∈ d.rows.map Row.origin := List.mem_map_of_mem hr'
    rw [ho] at this
    obtain ⟨q, -, e⟩ := List.mem_map.mp this
    exact e.symm
  have hF : Feasible w d .cartesian d.frame (some a) := by
    constructor
    · rw [hdk]; intro h; cases h
    · rw [hdk]; rintro (h | h) <;> cases h
    · rintro o' ⟨⟩ ⟨r0, hr0, hne⟩ r hr'
      refine ⟨.inl (by rw [hdo r hr']; exact hb), ?_⟩
      obtain ⟨i, hi⟩ := List.mem_iff_getElem?.mp hr'
      have hl := h1.length_eq
      obtain ⟨hi', -⟩ := List.getElem?_eq_some_iff.mp hi
      have := List.forall₂_iff_get.mp h1 |>.2 i (by omega) hi'
      have hci : (c.rows.get ⟨i, by omega⟩).origin = a := hr _ (List.get_mem _ _)
      rw [List.get_eq_getElem, List.get_eq_getElem] at this
      rw [List.get_eq_getElem] at hci
      have hdi : d.rows[i] = r := (List.getElem?_eq_some_iff.mp hi).2
      rw [hdi, hci] at this
      obtain ⟨ht, -, -, hx⟩ := this
      rcases hx with ⟨hab, -⟩ | ⟨x, hx, -⟩
      · subst hab
        exact absurd (hdo r0 hr0) hne
      · rw [hdo r hr', hf, ht]
        exact ⟨_, hcons.1 _ _ _ _ _ hx⟩
    · intro h; exact absurd rfl h
    · rintro (h | h) <;> cases h
    · intro h; cases h
    · intro h; cases h
    · rw [hdk]; rintro (h | h) <;> cases h
    · rw [hdk]; intro h; cases h
    · intro h; cases h
  have hok := (C52_accepts (origin := some (.code a)) (frame := none) (rep := none) (c := d) hw (k := .cartesian) (by rw [← hdk]; rfl)).mpr
    ⟨⟨by simp, by simp, by simp⟩, .inr hF⟩
  obtain ⟨e, he⟩ := hok
  rw [he]
  have h2 := C52_translation hw hdk he
  obtain ⟨hk2, hf2, -, -⟩ := C52_requested hw he
  have hek : d.kind = e.kind := by injection hk2
  change e.frame = d.frame at hf2
  congr 1
  obtain ⟨ck, cf, cR⟩ := c
  obtain ⟨dk, df, dR⟩ := d
  obtain ⟨ek, ef, eR⟩ := e
  simp only at hc hdk hek hf hf2
  subst hc hdk hek hf hf2
  congr 1
  simp only at h1 h2 hr hdo
  clear he hF ho hdo hk hk2 h
  induction h1 generalizing eR with
  | nil => cases h2; rfl
  | @cons r r' R R' hh ht ih =>
    cases h2 with
    | @cons _ r'' _ R'' hh' ht' =>
    rw [ih R'' ht' (fun q hq => hr q (List.mem_cons_of_mem _ hq))]
    congr 1
    have hra := hr r List.mem_cons_self
    obtain ⟨t1, o1, c1, v1⟩ := hh
    obtain ⟨t2, o2, c2, v2⟩ := hh'
    obtain ⟨rv, rc, rt, ro⟩ := r
    obtain ⟨rv', rc', rt', ro'⟩ := r'
    obtain ⟨rv'', rc'', rt'', ro''⟩ := r''
    simp only at t1 o1 c1 v1 t2 o2 c2 v2 hra
    subst t1 o1 c1 t2 o2 c2 hra
    congr 1
    rcases v1 with ⟨e1, e2⟩ | ⟨x, hx, e2⟩
    · rcases v2 with ⟨e3, e4⟩ | ⟨y, hy, e4⟩
      · rw [e4, e2]
      · subst e1
        have := hw _ _ _ _ hy
        subst this
        funext i
        rw [e4, e2]
        cases rv i <;> simp
    · rcases v2 with ⟨e3, e4⟩ | ⟨y, hy, e4⟩
      · subst e3
        have := hw _ _ _ _ hx
        subst this
        funext i
        rw [e4, e2]
        cases rv i <;> simp
      · have := hcons.1 _ _ _ _ _ hx
        rw [hy] at this
        have : y = fun i => -x i := by injection this
        subst this
        funext i
        rw [e4, e2]
        cases rv i <;> simp

/-- **C95**: going through an intermediate origin makes no difference. -/
theorem C95_path {w : World τ} {c d e f : Coords τ} {a b o : Str} (hw : SelfZero w) (hcons : Consistent w) (hc : c.kind = .cartesian)
    (hr : ∀ r ∈ c.rows, r.origin = a)
    (h1 : transform w (.coords c) none none (some (.code b)) = .ok d)
    (h2 : transform w (.coords d) none none (some (.code o)) = .ok e)
    (h3 : transform w (.coords c) none none (some (.code o)) = .ok f) : e = f := by
  have t1 := C52_translation hw hc h1
  obtain ⟨hk1, hf1, -, ho1⟩ := C52_requested hw h1
  have hdk : d.kind = .cartesian := by
    have : c.kind = d.kind := by injection hk1
    rw [← this, hc]
  have t2 := C52_translation hw hdk h2
  obtain ⟨hk2, hf2, -, -⟩ := C52_requested hw h2
  have t3 := C52_translation hw hc h3
  obtain ⟨hk3, hf3, -, -⟩ := C52_requested hw h3
  have hek : d.kind = e.kind := by injection hk2
  have hfk : c.kind = f.kind := by injection hk3
  change d.frame = c.frame at hf1
  change e.frame = d.frame at hf2
  change f.frame = c.frame at hf3
  obtain ⟨ck, cf, cR⟩ := c
  obtain ⟨dk, df, dR⟩ := d
  obtain ⟨ek, ef, eR⟩ := e
  obtain ⟨fk, ff, fR⟩ := f
  simp only at hc hdk hek hfk hf1 hf2 hf3 t1 t2 t3 hr
  subst hc hdk hek hfk hf1 hf2 hf3
  congr 1
  clear h1 h2 h3 hk1 hk2 hk3 ho1
  induction t1 generalizing eR fR with
  | nil => cases t2; cases t3; rfl
  | @cons r r' R R' hh ht ih =>
    cases t2 with
    | @cons _ r2 _ R2 hh2 ht2 =>
    cases t3 with
    | @cons _ r3 _ R3 hh3 ht3 =>
    rw [ih (fun q hq => hr q (List.mem_cons_of_mem _ hq)) R2 R3 ht2 ht3]
    congr 1
    have hra := hr r List.mem_cons_self
    obtain ⟨s1, o1, c1, v1⟩ := hh
    obtain ⟨s2, o2, c2, v2⟩ := hh2
    obtain ⟨s3, o3, c3, v3⟩ := hh3
    obtain ⟨rv, rc, rt, ro⟩ := r
    obtain ⟨rv', rc', rt', ro'⟩ := r'
    obtain ⟨qv, qc, qt, qo⟩ := r2
    obtain ⟨pv, pc, pt, po⟩ := r3
    simp only at s1 o1 c1 v1 s2 o2 c2 v2 s3 o3 c3 v3 hra
    subst s1 o1 c1 s2 o2 c2 s3 o3 c3 hra
    congr 1
    have k : ∀ {F : Str} {T : τ} {u v : Vals} {p q : Str}, ((p = q ∧ v = u) ∨ ∃ x, w.state p F T q = .ok x ∧ ∀ i, v i = (u i).map (· + x i)) →
        ∃ x, ((p = q ∧ x = fun _ => 0) ∨ w.state p F T q = .ok x) ∧ ∀ i, v i = (u i).map (· + x i) := by
      rintro F T u v p q (⟨e1, rfl⟩ | ⟨x, hx, e⟩)
      · exact ⟨_, .inl ⟨e1, rfl⟩, fun i => by cases v i <;> simp⟩
      · exact ⟨x, .inr hx, e⟩
    obtain ⟨x, hx, ex⟩ := k v1
    obtain ⟨y, hy, ey⟩ := k v2
    obtain ⟨z, hz, ez⟩ := k v3
    have uniqueShift : ∀ {F : Str} {T : τ} {p q : Str} {x y : Fin 6 → ℝ}, ((p = q ∧ x = fun _ => 0) ∨ w.state p F T q = .ok x) →
        ((p = q ∧ y = fun _ => 0) ∨ w.state p F T q = .ok y) → x = y := by
      rintro F T p q x y (⟨rfl, rfl⟩ | h) (⟨e, rfl⟩ | h')
      · rfl
      · exact (hw _ _ _ _ h').symm
      · subst e; exact hw _ _ _ _ h
      · rw [h] at h'; injection h'
    have hxyz : z = fun i => x i + y i := by
      apply uniqueShift hz
      rcases hx with ⟨rfl, rfl⟩ | hx
      · simp only [zero_add]
        exact hy
      · rcases hy with ⟨rfl, rfl⟩ | hy
        · simp only [add_zero]
          exact .inr hx
        · exact .inr (hcons.2 _ _ _ _ _ _ _ hx hy)
    funext i
    rw [ey, ex, ez, hxyz]
    cases rv i <;> simp [add_assoc]

end Verif.Xform.Props
