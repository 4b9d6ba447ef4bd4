import Verif.Xform.Model
import Verif.Sched.Lemmas
import Verif.Sched.Orbits

/-! # The steps of a transformation, row by row -/

namespace Verif.Xform

open Verif Sched Matrix Classical

variable {τ : Type}

/-! ### origins -/

/-- The state vector used for a row. -/
def rowState (w : World τ) (frame out : Str) (r : Row τ) : Except PyErr (Fin 6 → ℝ) :=
  if r.origin ∈ codes ∨ w.observatory r.origin = true then w.state r.origin frame r.time out else .error .valueError

def vec (w : World τ) (frame out : Str) (r : Row τ) : Fin 6 → ℝ :=
  match rowState w frame out r with
  | .ok x => x
  | .error _ => fun _ => 0

theorem vec_of {w : World τ} {frame out : Str} {r : Row τ} (h : ∃ x, rowState w frame out r = .ok x) :
    rowState w frame out r = .ok (vec w frame out r) := by
  obtain ⟨x, hx⟩ := h
  unfold vec
  rw [hx]

theorem mem_indexed {α : Type} (R : List α) (i : Nat) (r : α) :
    (i, r) ∈ (R.zipIdx.map fun p => (p.2, p.1)) ↔ R[i]? = some r := by
  constructor
  · intro h
    obtain ⟨⟨x, j⟩, hp, e⟩ := List.mem_map.mp h
    simp only [Prod.mk.injEq] at e
    obtain ⟨rfl, rfl⟩ := e
    have := List.mem_zipIdx_iff_getElem?.mp hp
    simpa using this
  · intro h
    exact List.mem_map.mpr ⟨(r, i), List.mem_zipIdx_iff_getElem?.mpr h, rfl⟩

theorem indexed_getElem? {α : Type} (R : List α) (i : Nat) :
    (R.zipIdx.map fun p => (p.2, p.1))[i]? = (R[i]?).map fun r => (i, r) := by
  rw [List.getElem?_map, List.getElem?_zipIdx, Option.map_map]
  cases R[i]? <;> simp

theorem lookup_of_unique {β : Type} {l : List (Nat × β)} {i : Nat} {b : β} (h : (i, b) ∈ l) (hu : ∀ b', (i, b') ∈ l → b' = b) :
    l.lookup i = some b := by
  induction l with
  | nil => cases h
  | cons p l ih =>
    obtain ⟨j, c⟩ := p
    rw [List.lookup_cons]
    by_cases hj : i = j
    · subst hj
      simp only [beq_self_eq_true]
      rw [hu c List.mem_cons_self]
    · have hb : (i == j) = false := by simpa using hj
      simp only [hb]
      apply ih
      · rcases List.mem_cons.mp h with h | h
        · simp only [Prod.mk.injEq] at h; exact absurd h.1 hj
        · exact h
      · exact fun b' hb' => hu b' (List.mem_cons_of_mem _ hb')

theorem originVectors_ok {w : World τ} {frame out o : Str} {I : List (Nat × Row τ)}
    (h : ∀ r ∈ I, r.2.origin = o → ∃ x, rowState w frame out r.2 = .ok x) (ho : o ∈ codes ∨ w.observatory o = true) :
    originVectors w frame out o I = .ok ((I.filter fun r => decide (r.2.origin = o)).map fun r => (r.1, vec w frame out r.2)) := by
  unfold originVectors
  rw [if_pos ho]
  apply gather_ok
  intro r hr
  obtain ⟨hr, he⟩ := List.mem_filter.mp hr
  have he' : r.2.origin = o := by simpa using he
  have := vec_of (h r hr he')
  unfold rowState at this
  rw [he', if_pos ho] at this
  rw [this]

theorem toOrigin_ok {w : World τ} {out : Str} {c : Coords τ} (h : ∀ r ∈ c.rows, ∃ x, rowState w c.frame out r = .ok x) :
    cartesianToOrigin w out c = .ok ⟨c.kind, c.frame, c.rows.map fun r => translateRow (vec w c.frame out r) out r⟩ := by
  unfold cartesianToOrigin
  have hg : gather (fun o => originVectors w c.frame out o (c.rows.zipIdx.map fun p => (p.2, p.1))) (uniq (c.rows.map Row.origin))
      = .ok ((uniq (c.rows.map Row.origin)).map fun o =>
        ((c.rows.zipIdx.map fun p => (p.2, p.1)).filter fun r => decide (r.2.origin = o)).map fun r =>
          (r.1, vec w c.frame out r.2)) := by
    apply gather_ok
    intro o ho
    obtain ⟨r, hr, rfl⟩ := List.mem_map.mp ((mem_uniq _ _).mp ho)
    apply originVectors_ok
    · rintro ⟨i, r'⟩ hr' _
      exact h r' (List.mem_of_getElem? ((mem_indexed _ _ _).mp hr'))
    · obtain ⟨x, hx⟩ := h r hr
      unfold rowState at hx
      by_contra hn
      rw [if_neg hn] at hx
      cases hx
  simp only
  rw [hg]
  simp only
  congr 2
  apply List.ext_getElem?
  intro i
  rw [List.getElem?_map, indexed_getElem?, List.getElem?_map]
  cases hi : c.rows[i]? with
  | none => rfl
  | some r =>
    simp only [Option.map_some]
    rw [lookup_of_unique (b := vec w c.frame out r)]
    · rw [List.mem_flatten]
      refine ⟨_, List.mem_map.mpr ⟨r.origin, (mem_uniq _ _).mpr (List.mem_map.mpr ⟨r, List.mem_of_getElem? hi, rfl⟩), rfl⟩, ?_⟩
      exact List.mem_map.mpr ⟨(i, r), List.mem_filter.mpr ⟨(mem_indexed _ _ _).mpr hi, by simp⟩, rfl⟩
    · intro b' hb'
      rw [List.mem_flatten] at hb'
      obtain ⟨l, hl, hb'⟩ := hb'
      obtain ⟨o, -, rfl⟩ := List.mem_map.mp hl
      obtain ⟨⟨j, r'⟩, hr', e⟩ := List.mem_map.mp hb'
      simp only [Prod.mk.injEq] at e
      obtain ⟨rfl, rfl⟩ := e
      have := (mem_indexed _ _ _).mp (List.mem_filter.mp hr').1
      rw [hi] at this
      cases this
      rfl

theorem toOrigin_error {w : World τ} {out : Str} {c : Coords τ} {r : Row τ} (hr : r ∈ c.rows)
    (h : ¬ ∃ x, rowState w c.frame out r = .ok x) : ∃ e, cartesianToOrigin w out c = .error e := by
  have hov : ∃ e, originVectors w c.frame out r.origin (c.rows.zipIdx.map fun p => (p.2, p.1)) = .error e := by
    unfold originVectors
    by_cases ho : r.origin ∈ codes ∨ w.observatory r.origin = true
    · rw [if_pos ho]
      obtain ⟨i, hi⟩ := List.mem_iff_getElem?.mp hr
      apply gather_error (a := (i, r))
      · exact List.mem_filter.mpr ⟨(mem_indexed _ _ _).mpr hi, by simp⟩
      · unfold rowState at h
        rw [if_pos ho] at h
        cases hs : w.state r.origin c.frame r.time out with
        | ok x => exact absurd ⟨x, hs⟩ h
        | error e => exact ⟨e, by simp only⟩
    · rw [if_neg ho]
      exact ⟨_, rfl⟩
  have hg := gather_error (work := fun o => originVectors w c.frame out o (c.rows.zipIdx.map fun p => (p.2, p.1)))
    (l := uniq (c.rows.map Row.origin)) ((mem_uniq _ _).mpr (List.mem_map.mpr ⟨r, hr, rfl⟩)) hov
  obtain ⟨e, he⟩ := hg
  refine ⟨e, ?_⟩
  unfold cartesianToOrigin
  simp only
  rw [he]

theorem toOrigin_iff {w : World τ} {out : Str} {c d : Coords τ} : cartesianToOrigin w out c = .ok d ↔
    (∀ r ∈ c.rows, ∃ x, rowState w c.frame out r = .ok x) ∧
      d = ⟨c.kind, c.frame, c.rows.map fun r => translateRow (vec w c.frame out r) out r⟩ := by
  by_cases h : ∀ r ∈ c.rows, ∃ x, rowState w c.frame out r = .ok x
  · rw [toOrigin_ok h]
    constructor
    · intro e; cases e; exact ⟨h, rfl⟩
    · rintro ⟨-, rfl⟩; rfl
  · constructor
    · intro e
      exfalso
      apply h
      intro r hr
      by_contra hn
      obtain ⟨x, hx⟩ := toOrigin_error hr hn
      rw [hx] at e
      cases e
    · exact fun e => absurd e.1 h

/-! ### frames -/

/-- A row rotated. -/
noncomputable def rotateRow (R : Matrix (Fin 6) (Fin 6) ℝ) (r : Row τ) : Row τ :=
  { r with vals := rotateVals R r.vals, cov := rotateCov R r.cov }

theorem rotate_rows (R : Matrix (Fin 6) (Fin 6) ℝ) (f : Str) (c : Coords τ) : rotate R f c = ⟨c.kind, f, c.rows.map (rotateRow R)⟩ := rfl

theorem timeVarying_rows (I : List (Row τ)) (g : τ → Row τ → Row τ) :
    (sortBy Prod.fst ((uniq (I.map Row.time)).map fun t =>
      ((I.zipIdx.map fun p => (p.2, p.1)).filter fun r => decide (r.2.time = t)).map fun r => (r.1, g t r.2)).flatten).map Prod.snd
      = I.map fun r => g r.time r := by
  have hperm : (((uniq (I.map Row.time)).map fun t =>
      ((I.zipIdx.map fun p => (p.2, p.1)).filter fun r => decide (r.2.time = t)).map fun r => (r.1, g t r.2)).flatten).Perm
      ((I.zipIdx.map fun p => (p.2, p.1)).map fun r => (r.1, g r.2.time r.2)) := by
    have hx : ∀ (ts : List τ) (J : List (Nat × Row τ)), ts.Nodup → (∀ r ∈ J, r.2.time ∈ ts) →
        ((ts.map fun t => (J.filter fun r => decide (r.2.time = t)).map fun r => (r.1, g t r.2)).flatten).Perm
        (J.map fun r => (r.1, g r.2.time r.2)) := by
      intro ts
      induction ts with
      | nil =>
        intro J _ hJ
        cases J with
        | nil => exact List.Perm.refl _
        | cons r J => exact absurd (hJ r List.mem_cons_self) List.not_mem_nil
      | cons t ts ih =>
        intro J hnd hJ
        obtain ⟨hnt, hnd⟩ := List.nodup_cons.mp hnd
        have hrest := ih (J.filter fun r => !decide (r.2.time = t)) hnd (by
          intro r hr
          obtain ⟨hr, hne⟩ := List.mem_filter.mp hr
          have hne : r.2.time ≠ t := by simpa using hne
          exact (List.mem_cons.mp (hJ r hr)).resolve_left hne)
        have hsame : (ts.map fun t' => ((J.filter fun r => !decide (r.2.time = t)).filter fun r => decide (r.2.time = t')).map
              fun r => (r.1, g t' r.2))
            = ts.map fun t' => (J.filter fun r => decide (r.2.time = t')).map fun r => (r.1, g t' r.2) := by
          apply List.map_congr_left
          intro t' ht'
          congr 1
          rw [List.filter_filter]
          apply List.filter_congr
          intro r _
          by_cases he : r.2.time = t'
          · have : r.2.time ≠ t := fun h => hnt (by rw [← h, he]; exact ht')
            simp [he]
            intro h
            exact this (he.trans h)
          · simp [he]
        rw [hsame] at hrest
        have hhead : (J.filter fun r => decide (r.2.time = t)).map (fun r => (r.1, g t r.2))
            = (J.filter fun r => decide (r.2.time = t)).map (fun r => (r.1, g r.2.time r.2)) := by
          apply List.map_congr_left
          intro r hr
          have := (List.mem_filter.mp hr).2
          have : r.2.time = t := by simpa using this
          rw [this]
        rw [List.map_cons, List.flatten_cons, hhead]
        refine (List.Perm.append_left _ hrest).trans ?_
        rw [← List.map_append]
        exact (List.filter_append_perm (fun r : Nat × Row τ => decide (r.2.time = t)) J).map _
    apply hx
    · exact nodup_uniq _
    · rintro ⟨i, r⟩ hr
      exact (mem_uniq _ _).mpr (List.mem_map.mpr ⟨r, List.mem_of_getElem? ((mem_indexed _ _ _).mp hr), rfl⟩)
  have hsorted : ((I.zipIdx.map fun p => (p.2, p.1)).map fun r => (r.1, g r.2.time r.2)).Pairwise fun a b => a.1 ≤ b.1 := by
    rw [List.pairwise_iff_getElem]
    intro i j hi hj hij
    simp only [List.getElem_map, List.getElem_zipIdx]
    omega
  have hkey : ∀ a ∈ ((I.zipIdx.map fun p => (p.2, p.1)).map fun r => (r.1, g r.2.time r.2)),
      ∀ b ∈ ((I.zipIdx.map fun p => (p.2, p.1)).map fun r => (r.1, g r.2.time r.2)), a.1 = b.1 → a = b := by
    intro a ha b hb hab
    obtain ⟨⟨i, r⟩, hr, rfl⟩ := List.mem_map.mp ha
    obtain ⟨⟨j, r'⟩, hr', rfl⟩ := List.mem_map.mp hb
    simp only at hab
    subst hab
    have h1 := (mem_indexed _ _ _).mp hr
    have h2 := (mem_indexed _ _ _).mp hr'
    rw [h1] at h2
    cases h2
    rfl
  have e := eq_of_sorted (key := Prod.fst) ((sortBy_perm Prod.fst _).trans hperm)
    (fun a ha b hb => hkey a (((sortBy_perm Prod.fst _).trans hperm).mem_iff.mp ha) b
      (((sortBy_perm Prod.fst _).trans hperm).mem_iff.mp hb))
    (sortBy_sorted Prod.fst _) hsorted
  rw [e, List.map_map, List.map_map]
  apply List.ext_getElem?
  intro i
  rw [List.getElem?_map, List.getElem?_map, List.getElem?_zipIdx]
  cases I[i]? <;> simp

theorem zip_map_fst {α β γ : Type} (l : List (α × β)) (f : β → γ) :
    (l.map Prod.fst).zip ((l.map Prod.snd).map f) = l.map fun p => (p.1, f p.2) := by
  induction l with
  | nil => rfl
  | cons p l ih => rw [List.map_cons, List.map_cons, List.map_cons, List.map_cons, List.zip_cons_cons, ih]

/-- Frames that SPICE knows. -/
theorem spiceFrame_some {f g : Str} : spiceFrame f = some g → f = "itrf93".toList ∨ f = "ecliptic".toList ∨ f = "equatorial".toList := by
  unfold spiceFrame
  intro h
  by_cases h1 : f = "itrf93".toList
  · exact .inl h1
  rw [if_neg h1] at h
  by_cases h2 : f = "ecliptic".toList
  · exact .inr (.inl h2)
  rw [if_neg h2] at h
  by_cases h3 : f = "equatorial".toList
  · exact .inr (.inr h3)
  rw [if_neg h3] at h
  cases h

theorem spiceFrame_known {f : Str} (h : f = "itrf93".toList ∨ f = "ecliptic".toList ∨ f = "equatorial".toList) :
    ∃ g, spiceFrame f = some g := by
  unfold spiceFrame
  by_cases h1 : f = "itrf93".toList
  · rw [if_pos h1]; exact ⟨_, rfl⟩
  rw [if_neg h1]
  by_cases h2 : f = "ecliptic".toList
  · rw [if_pos h2]; exact ⟨_, rfl⟩
  rw [if_neg h2, if_pos ((h.resolve_left h1).resolve_left h2)]
  exact ⟨_, rfl⟩

theorem timeVarying_iff {w : World τ} {out : Str} {c d : Coords τ} : timeVarying w out c = .ok d ↔
    (uniq (c.rows.map Row.origin)).length = 1 ∧ ∃ fo fi, spiceFrame out = some fo ∧ spiceFrame c.frame = some fi ∧
      d = ⟨c.kind, out, c.rows.map fun r => rotateRow (auMatrix w (w.sxform fi fo r.time)) r⟩ := by
  unfold timeVarying
  by_cases h1 : (uniq (c.rows.map Row.origin)).length = 1
  swap
  · rw [if_pos h1]
    exact ⟨fun h => (by cases h), fun h => absurd h.1 h1⟩
  rw [if_neg (by simpa using h1)]
  cases h2 : spiceFrame out with
  | none => exact ⟨fun h => (by cases h), fun ⟨_, fo, fi, h, _⟩ => by cases h⟩
  | some fo =>
  simp only
  cases h3 : spiceFrame c.frame with
  | none => exact ⟨fun h => (by cases h), fun ⟨_, fo, fi, _, h, _⟩ => by cases h⟩
  | some fi =>
  simp only
  have e : ∀ t, (((c.rows.zipIdx.map fun p => (p.2, p.1)).filter fun r => decide (r.2.time = t)).map Prod.fst).zip
        (rotate (auMatrix w (w.sxform fi fo t)) out ⟨c.kind, c.frame,
          ((c.rows.zipIdx.map fun p => (p.2, p.1)).filter fun r => decide (r.2.time = t)).map Prod.snd⟩).rows
      = ((c.rows.zipIdx.map fun p => (p.2, p.1)).filter fun r => decide (r.2.time = t)).map fun r =>
        (r.1, rotateRow (auMatrix w (w.sxform fi fo t)) r.2) := fun t => zip_map_fst _ _
  simp only [e]
  rw [timeVarying_rows c.rows fun t r => rotateRow (auMatrix w (w.sxform fi fo t)) r]
  constructor
  · intro h; cases h; exact ⟨h1, fo, fi, rfl, rfl, rfl⟩
  · rintro ⟨-, fo', fi', a, b, rfl⟩
    cases a
    cases b
    rfl

/-! ### representations -/

theorem propagate_none {J c : Cov} (h : ∀ i j, c i j = none) : propagate J c = fun _ _ => none := by
  funext i j
  unfold propagate matO sumO
  rw [if_neg]
  intro hs
  have h0 := hs 0
  simp only at h0
  rw [if_neg] at h0
  · simp [mulO] at h0
  · intro hs
    have h1 := hs 0
    rw [h] at h1
    cases hj : J i 0 <;> rw [hj] at h1 <;> simp [mulO] at h1

/-- A row converted. -/
noncomputable def convertRow (w : World τ) (k : Kind) (f : Kind → ℝ → τ → Vals → Vals) (jac : Kind → ℝ → τ → Vals → Cov) (r : Row τ) :
    Row τ :=
  { r with
    vals := f k (w.mu r.origin) r.time r.vals
    cov := propagate (jac k (w.mu r.origin) r.time r.vals) r.cov }

theorem convert_iff {w : World τ} {k : Kind} {f : Kind → ℝ → τ → Vals → Vals} {jac : Kind → ℝ → τ → Vals → Cov} {kind : Kind}
    {c d : Coords τ} : convert w k f jac kind c = .ok d ↔
      ((k = .keplerian ∨ k = .cometary) → ∀ r ∈ c.rows, r.origin ∈ massive) ∧
      d = ⟨kind, c.frame, c.rows.map (convertRow w k f jac)⟩ := by
  unfold convert
  have e : (c.rows.map fun r =>
    ({ r with
      vals := f k (w.mu r.origin) r.time r.vals
      cov := if allNan c.rows then fun _ _ => none else propagate (jac k (w.mu r.origin) r.time r.vals) r.cov } : Row τ))
      = c.rows.map (convertRow w k f jac) := by
    apply List.map_congr_left
    intro r hr
    unfold convertRow
    by_cases ha : allNan c.rows = true
    · rw [if_pos ha]
      have : ∀ i j, r.cov i j = none := by
        have := List.all_eq_true.mp ha r hr
        simpa using this
      rw [propagate_none this]
    · rw [if_neg ha]
  rw [e]
  by_cases h : (k = .keplerian ∨ k = .cometary) ∧ (c.rows.any fun r => !decide (r.origin ∈ massive)) = true
  · rw [if_pos h]
    refine ⟨fun h => (by cases h), fun h' => ?_⟩
    exfalso
    obtain ⟨r, hr, hb⟩ := List.any_eq_true.mp h.2
    have := h'.1 h.1 r hr
    simp [this] at hb
  · rw [if_neg h]
    constructor
    · intro e
      cases e
      refine ⟨fun hk r hr => ?_, rfl⟩
      by_contra hn
      exact h ⟨hk, List.any_eq_true.mpr ⟨r, hr, by simpa using hn⟩⟩
    · rintro ⟨-, rfl⟩
      rfl

end Verif.Xform
