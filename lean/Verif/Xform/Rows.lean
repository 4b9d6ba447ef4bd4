import Verif.Xform.Lemmas

/-! # The whole transformation, row by row -/

namespace Verif.Xform

open Verif Sched Matrix Classical

variable {τ : Type}

/-! ### the four steps -/

noncomputable def step1 (w : World τ) (c : Coords τ) : Except PyErr (Coords τ) :=
  if c.kind = .cartesian then Except.ok c else toCartesian w c

noncomputable def step2 (w : World τ) (origin : Option Str) (x : Coords τ) : Except PyErr (Coords τ) :=
  match origin with
  | none => Except.ok x
  | some o => if (x.rows.any fun r => !decide (r.origin = o)) = true then cartesianToOrigin w o x else .ok x

noncomputable def step3 (w : World τ) (frame : Str) (y : Coords τ) : Except PyErr (Coords τ) :=
  if y.frame ≠ frame then cartesianToFrame w frame y else Except.ok y

noncomputable def step4 (w : World τ) (k : Kind) (z : Coords τ) : Except PyErr (Coords τ) :=
  if k = .cartesian then .ok z else fromCartesian w k z

theorem steps_iff {w : World τ} {c d : Coords τ} {k : Kind} {frame : Str} {origin : Option Str} :
    steps w c k frame origin = .ok d ↔
      ∃ x y z, step1 w c = .ok x ∧ step2 w origin x = .ok y ∧ step3 w frame y = .ok z ∧ step4 w k z = .ok d := by
  have e : steps w c k frame origin = (match step1 w c with
    | .error e => .error e
    | .ok x => match step2 w origin x with
      | .error e => .error e
      | .ok y => match step3 w frame y with
        | .error e => .error e
        | .ok z => step4 w k z) := by
    unfold steps step1 step2 step3 step4
    rfl
  rw [e]
  cases h1 : step1 w c with
  | error e => exact ⟨fun h => (by cases h), fun ⟨_, _, _, h, _⟩ => by cases h⟩
  | ok x =>
  simp only
  cases h2 : step2 w origin x with
  | error e => exact ⟨fun h => (by cases h), fun ⟨_, _, _, h, h', _⟩ => by cases h; rw [h2] at h'; cases h'⟩
  | ok y =>
  simp only
  cases h3 : step3 w frame y with
  | error e =>
    exact ⟨fun h => (by cases h), fun ⟨_, _, _, h, h', h'', _⟩ => by cases h; rw [h2] at h'; cases h'; rw [h3] at h''; cases h''⟩
  | ok z =>
  simp only
  constructor
  · exact fun h => ⟨x, y, z, rfl, h2, h3, h⟩
  · rintro ⟨x', y', z', a, b, c, d⟩
    cases a
    rw [h2] at b
    cases b
    rw [h3] at c
    cases c
    exact d

noncomputable def g1 (w : World τ) (k : Kind) (r : Row τ) : Row τ :=
  if k = .cartesian then r else convertRow w k w.toCart w.toJac r

theorem step1_iff {w : World τ} {c d : Coords τ} : step1 w c = .ok d ↔
    ((c.kind ≠ .geodetic ∧ ((c.kind = .keplerian ∨ c.kind = .cometary) → ∀ r ∈ c.rows, r.origin ∈ massive)) ∧
      ((c.kind = .keplerian ∨ c.kind = .cometary) → c.rows ≠ []) ∧
      (c.kind = .keplerian → ∀ r ∈ c.rows, ¬ invalidElements r.vals)) ∧
      d = ⟨.cartesian, c.frame, c.rows.map (g1 w c.kind)⟩ := by
  obtain ⟨k, f, R⟩ := c
  unfold step1 toCartesian g1
  simp only
  by_cases h1 : k = .cartesian
  · subst h1
    simp only [if_pos]
    rw [List.map_id']
    constructor
    · intro h
      cases h
      exact ⟨⟨⟨fun h => (by cases h), fun h => (by rcases h with h | h <;> cases h)⟩,
        fun h => (by rcases h with h | h <;> cases h), fun h => (by cases h)⟩, rfl⟩
    · rintro ⟨-, rfl⟩
      rfl
  · simp only [if_neg h1]
    by_cases h2 : k = .geodetic
    · rw [if_pos h2]
      exact ⟨fun h => (by cases h), fun h => absurd h2 h.1.1.1⟩
    · rw [if_neg h2]
      by_cases h3 : (k = .keplerian ∨ k = .cometary) ∧ R = []
      · rw [if_pos h3]
        exact ⟨fun h => (by cases h), fun h => absurd h3.2 (h.1.2.1 h3.1)⟩
      rw [if_neg h3]
      by_cases h4 : k = .keplerian ∧ ∃ r ∈ R, invalidElements r.vals
      · rw [if_pos h4]
        obtain ⟨h4, r, hr, hb⟩ := h4
        exact ⟨fun h => (by cases h), fun h => absurd hb (h.1.2.2 h4 r hr)⟩
      rw [if_neg h4, convert_iff]
      exact ⟨fun h => ⟨⟨⟨h2, h.1⟩, fun hk hR => h3 ⟨hk, hR⟩, fun hk r hr hb => h4 ⟨hk, r, hr, hb⟩⟩, h.2⟩, fun h => ⟨h.1.1.2, h.2⟩⟩

noncomputable def g2 (w : World τ) (frame : Str) (origin : Option Str) (r : Row τ) : Row τ :=
  match origin with
  | none => r
  | some o => if r.origin = o then r else translateRow (vec w frame o r) o r

/-- The state of an origin relative to itself is zero. -/
def SelfZero (w : World τ) : Prop := ∀ o f t x, w.state o f t o = .ok x → x = fun _ => 0

theorem translateRow_self {w : World τ} (hw : SelfZero w) {frame o : Str} {r : Row τ} (h : r.origin = o) :
    translateRow (vec w frame o r) o r = r := by
  have hv : vec w frame o r = fun _ => 0 := by
    unfold vec rowState
    by_cases hc : r.origin ∈ codes ∨ w.observatory r.origin = true
    · rw [if_pos hc]
      subst h
      cases hs : w.state r.origin frame r.time r.origin with
      | ok x => exact hw _ _ _ _ hs
      | error e => rfl
    · rw [if_neg hc]
  unfold translateRow
  rw [hv]
  subst h
  obtain ⟨v, c, t, o⟩ := r
  simp

theorem step2_iff {w : World τ} (hw : SelfZero w) {origin : Option Str} {c d : Coords τ} : step2 w origin c = .ok d ↔
    (∀ o, origin = some o → (∃ r ∈ c.rows, r.origin ≠ o) → ∀ r ∈ c.rows, ∃ x, rowState w c.frame o r = .ok x) ∧
      d = ⟨c.kind, c.frame, c.rows.map (g2 w c.frame origin)⟩ := by
  obtain ⟨k, f, R⟩ := c
  unfold step2
  cases origin with
  | none =>
    unfold g2
    simp only
    rw [List.map_id']
    constructor
    · intro h
      cases h
      exact ⟨fun o h => (by cases h), rfl⟩
    · rintro ⟨-, rfl⟩
      rfl
  | some o =>
    simp only
    have hany : (R.any fun r => !decide (r.origin = o)) = true ↔ ∃ r ∈ R, r.origin ≠ o := by simp
    by_cases ha : ∃ r ∈ R, r.origin ≠ o
    · rw [if_pos (hany.mpr ha), toOrigin_iff]
      have e : (R.map fun r => translateRow (vec w f o r) o r) = R.map (g2 w f (some o)) := by
        apply List.map_congr_left
        intro r _
        unfold g2
        by_cases h : r.origin = o
        · simp only
          rw [if_pos h, translateRow_self hw h]
        · simp only
          rw [if_neg h]
      simp only
      rw [e]
      constructor
      · rintro ⟨h, h'⟩
        exact ⟨fun o' ho' _ => by cases ho'; exact h, h'⟩
      · rintro ⟨h, h'⟩
        exact ⟨h o rfl ha, h'⟩
    · rw [if_neg fun h => ha (hany.mp h)]
      have e : R.map (g2 w f (some o)) = R := by
        conv => rhs; rw [← List.map_id' R]
        apply List.map_congr_left
        intro r hr
        unfold g2
        simp only
        rw [if_pos]
        by_contra hn
        exact ha ⟨r, hr, hn⟩
      rw [e]
      constructor
      · intro h
        cases h
        exact ⟨fun o' ho' h => by cases ho'; exact absurd h ha, rfl⟩
      · rintro ⟨-, rfl⟩
        rfl

/-- The matrix that takes a frame to another at a time. -/
noncomputable def rotation (w : World τ) (i o : Str) (t : τ) : Matrix (Fin 6) (Fin 6) ℝ :=
  if o = "ecliptic".toList ∧ i = "equatorial".toList then eq2ec w
  else if o = "equatorial".toList ∧ i = "ecliptic".toList then ec2eq w
  else auMatrix w (w.sxform ((spiceFrame i).getD []) ((spiceFrame o).getD []) t)

noncomputable def g3 (w : World τ) (i o : Str) (r : Row τ) : Row τ := if i = o then r else rotateRow (rotation w i o r.time) r

/-- The frames that can be changed without a time. -/
def Inertial (f : Str) : Prop := f = "ecliptic".toList ∨ f = "equatorial".toList

theorem step3_iff {w : World τ} {frame : Str} {c d : Coords τ} : step3 w frame c = .ok d ↔
    (frame ≠ c.frame → (Inertial frame ∧ Inertial c.frame) ∨
      ((frame = "itrf93".toList ∧ Inertial c.frame ∨ Inertial frame ∧ c.frame = "itrf93".toList) ∧
        (uniq (c.rows.map Row.origin)).length = 1)) ∧
      d = ⟨c.kind, frame, c.rows.map (g3 w c.frame frame)⟩ := by
  obtain ⟨k, f, R⟩ := c
  unfold step3
  simp only
  have n1 : ("itrf93".toList : Str) ≠ "ecliptic".toList := by decide
  have n2 : ("itrf93".toList : Str) ≠ "equatorial".toList := by decide
  have n3 : ("ecliptic".toList : Str) ≠ "equatorial".toList := by decide
  by_cases hf : f = frame
  · subst hf
    rw [if_neg (by simp)]
    have e : R.map (g3 w f f) = R := by
      conv => rhs; rw [← List.map_id' R]
      apply List.map_congr_left
      intro r _
      unfold g3
      rw [if_pos rfl]
    rw [e]
    constructor
    · intro h
      cases h
      exact ⟨fun h => absurd rfl h, rfl⟩
    · rintro ⟨-, rfl⟩
      rfl
  rw [if_pos hf]
  have hg3 : R.map (g3 w f frame) = R.map fun r => rotateRow (rotation w f frame r.time) r := by
    apply List.map_congr_left
    intro r _
    unfold g3
    rw [if_neg hf]
  rw [hg3]
  unfold cartesianToFrame
  simp only
  by_cases h1 : frame = "ecliptic".toList ∧ f = "equatorial".toList
  · rw [if_pos h1, rotate_rows]
    have e : (fun r : Row τ => rotateRow (rotation w f frame r.time) r) = rotateRow (eq2ec w) := by
      funext r
      unfold rotation
      rw [if_pos h1]
    rw [e]
    constructor
    · intro h
      cases h
      exact ⟨fun _ => .inl ⟨.inl h1.1, .inr h1.2⟩, by rw [h1.1]⟩
    · rintro ⟨-, rfl⟩
      rw [h1.1]
  rw [if_neg h1]
  by_cases h2 : frame = "equatorial".toList ∧ f = "ecliptic".toList
  · rw [if_pos h2, rotate_rows]
    have e : (fun r : Row τ => rotateRow (rotation w f frame r.time) r) = rotateRow (ec2eq w) := by
      funext r
      unfold rotation
      rw [if_neg h1, if_pos h2]
    rw [e]
    constructor
    · intro h
      cases h
      exact ⟨fun _ => .inl ⟨.inr h2.1, .inl h2.2⟩, by rw [h2.1]⟩
    · rintro ⟨-, rfl⟩
      rw [h2.1]
  rw [if_neg h2]
  have hrot : ∀ fo fi, spiceFrame frame = some fo → spiceFrame f = some fi →
      (R.map fun r => rotateRow (auMatrix w (w.sxform fi fo r.time)) r) = R.map fun r => rotateRow (rotation w f frame r.time) r := by
    intro fo fi ho hi
    apply List.map_congr_left
    intro r _
    unfold rotation
    rw [if_neg h1, if_neg h2, ho, hi]
    rfl
  have hnot : ¬ (Inertial frame ∧ Inertial f) := by
    rintro ⟨a | a, b | b⟩
    · exact hf (b.trans a.symm)
    · exact h1 ⟨a, b⟩
    · exact h2 ⟨a, b⟩
    · exact hf (b.trans a.symm)
  have htv : timeVarying w frame ⟨k, f, R⟩ = .ok d ↔
      ((frame = "itrf93".toList ∨ Inertial frame) ∧ (f = "itrf93".toList ∨ Inertial f)) ∧
        (uniq (R.map Row.origin)).length = 1 ∧ d = ⟨k, frame, R.map fun r => rotateRow (rotation w f frame r.time) r⟩ := by
    rw [timeVarying_iff]
    constructor
    · rintro ⟨hl, fo, fi, ho, hi, hd⟩
      simp only at hl hi hd
      rw [hrot fo fi ho hi] at hd
      exact ⟨⟨spiceFrame_some ho, spiceFrame_some hi⟩, hl, hd⟩
    · rintro ⟨⟨ha, hb⟩, hl, hd⟩
      obtain ⟨fo, ho⟩ := spiceFrame_known ha
      obtain ⟨fi, hi⟩ := spiceFrame_known hb
      refine ⟨hl, fo, fi, ho, hi, ?_⟩
      simp only
      rw [hrot fo fi ho hi]
      exact hd
  have hni : ∀ g : Str, g = "itrf93".toList → ¬ Inertial g := by
    rintro g rfl (h | h)
    · exact n1 h
    · exact n2 h
  by_cases h3 : frame = "itrf93".toList ∧ f ≠ "itrf93".toList
  · rw [if_pos h3, htv]
    constructor
    · rintro ⟨⟨_, hb⟩, hl, hd⟩
      exact ⟨fun _ => .inr ⟨.inl ⟨h3.1, hb.resolve_left h3.2⟩, hl⟩, hd⟩
    · rintro ⟨h, hd⟩
      rcases h (Ne.symm hf) with h | ⟨⟨_, hb⟩ | ⟨ha, _⟩, hl⟩
      · exact absurd h hnot
      · exact ⟨⟨.inl h3.1, .inr hb⟩, hl, hd⟩
      · exact absurd ha (hni _ h3.1)
  rw [if_neg h3]
  by_cases h4 : frame ≠ "itrf93".toList ∧ f = "itrf93".toList
  · rw [if_pos h4, htv]
    constructor
    · rintro ⟨⟨ha, _⟩, hl, hd⟩
      exact ⟨fun _ => .inr ⟨.inr ⟨ha.resolve_left h4.1, h4.2⟩, hl⟩, hd⟩
    · rintro ⟨h, hd⟩
      rcases h (Ne.symm hf) with h | ⟨⟨ha, _⟩ | ⟨ha, _⟩, hl⟩
      · exact absurd h hnot
      · exact absurd ha h4.1
      · exact ⟨⟨.inr ha, .inl h4.2⟩, hl, hd⟩
  rw [if_neg h4, if_neg (Ne.symm hf)]
  refine ⟨fun h => (by cases h), fun h => ?_⟩
  exfalso
  rcases h.1 (Ne.symm hf) with h | ⟨⟨ha, hb⟩ | ⟨ha, hb⟩, -⟩
  · exact hnot h
  · exact h3 ⟨ha, fun e => hni _ e hb⟩
  · exact h4 ⟨fun e => hni _ e ha, hb⟩

noncomputable def g4 (w : World τ) (k : Kind) (r : Row τ) : Row τ :=
  if k = .cartesian then r else convertRow w k w.fromCart w.fromJac r

theorem step4_iff {w : World τ} {k : Kind} {c d : Coords τ} : step4 w k c = .ok d ↔
    (((k = .keplerian ∨ k = .cometary) → ∀ r ∈ c.rows, r.origin ∈ massive) ∧
      (k = .geodetic → c.frame = "itrf93".toList ∧ (w.scalarTruth = true → c.rows ≠ [] ∧ ∀ r ∈ c.rows, r.origin = "EARTH".toList)) ∧
      (k = .geodetic → ∀ r ∈ c.rows, ∀ i j, r.cov i j = none) ∧ (k = .keplerian → c.rows ≠ [])) ∧
      d = ⟨if k = .cartesian then c.kind else k, c.frame, c.rows.map (g4 w k)⟩ := by
  obtain ⟨k', f, R⟩ := c
  unfold step4 fromCartesian g4
  simp only
  by_cases h1 : k = .cartesian
  · subst h1
    simp only [if_pos]
    rw [List.map_id']
    constructor
    · intro h
      cases h
      exact ⟨⟨fun h => (by rcases h with h | h <;> cases h), fun h => (by cases h), fun h => (by cases h), fun h => (by cases h)⟩, rfl⟩
    · rintro ⟨-, rfl⟩
      rfl
  · simp only [if_neg h1]
    have hnan : allNan R = true ↔ ∀ r ∈ R, ∀ i j, r.cov i j = none := by
      unfold allNan
      simp
    have htruth : earthTruth w R = true ↔ (w.scalarTruth = true → R ≠ [] ∧ ∀ r ∈ R, r.origin = "EARTH".toList) := by
      unfold earthTruth
      cases w.scalarTruth <;> simp
    by_cases h2 : k = .geodetic ∧ (f ≠ "itrf93".toList ∨ earthTruth w R = false)
    · rw [if_pos h2]
      refine ⟨fun h => (by cases h), fun h => ?_⟩
      exfalso
      obtain ⟨ha, hb⟩ := h.1.2.1 h2.1
      rcases h2.2 with h | h
      · exact h ha
      · rw [htruth.mpr hb] at h
        cases h
    · rw [if_neg h2]
      by_cases h3 : k = .geodetic ∧ allNan R = false
      · rw [if_pos h3]
        refine ⟨fun h => (by cases h), fun h => ?_⟩
        exfalso
        have := hnan.mpr (h.1.2.2.1 h3.1)
        rw [this] at h3
        cases h3.2
      rw [if_neg h3]
      by_cases h4 : k = .keplerian ∧ R = []
      · rw [if_pos h4]
        exact ⟨fun h => (by cases h), fun h => absurd h4.2 (h.1.2.2.2 h4.1)⟩
      rw [if_neg h4, convert_iff]
      have hcov : k = .geodetic → ∀ r ∈ R, ∀ i j, r.cov i j = none := by
        intro hk
        rw [← hnan]
        by_contra hn
        exact h3 ⟨hk, by simpa using hn⟩
      have hgeo : k = .geodetic → f = "itrf93".toList ∧ (w.scalarTruth = true → R ≠ [] ∧ ∀ r ∈ R, r.origin = "EARTH".toList) := by
        intro hk
        constructor
        · by_contra hn
          exact h2 ⟨hk, .inl hn⟩
        · rw [← htruth]
          by_contra hn
          exact h2 ⟨hk, .inr (by simpa using hn)⟩
      exact ⟨fun h => ⟨⟨h.1, hgeo, hcov, fun hk hR => h4 ⟨hk, hR⟩⟩, h.2⟩, fun h => ⟨h.1.1, h.2⟩⟩

end Verif.Xform
