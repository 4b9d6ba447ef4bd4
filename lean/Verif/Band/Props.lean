import Verif.Band.Lemmas
import Mathlib.Analysis.SpecialFunctions.Log.Base
import Mathlib.Data.List.Induction
import Mathlib.Data.List.Perm.Basic

/-! # Properties of colour terms (C60, C61, C89, C90) -/

set_option linter.unusedSectionVars false

namespace Verif.Band.Props

open Verif Verif.Band Verif.Band.Spec Sched

section general
variable {K : Type} [Field K] [LinearOrder K] [IsStrictOrderedRing K]

/-! ### compositions -/

theorem key_valid {comp key : Comp K} (h : keyOfComp comp = .ok key) : ValidComp comp ∧ ValidComp key := by
  cases comp with
  | template id =>
    unfold keyOfComp at h
    simp only at h
    split at h
    · cases h
    · cases h; exact ⟨trivial, trivial⟩
  | mix c w =>
    unfold keyOfComp at h
    simp only at h
    split at h
    · cases h
    split at h
    · cases h
    rename_i h1 h2
    push Not at h1 h2
    cases h
    refine ⟨⟨h1.1, h1.2, h2⟩, div_nonneg h1.1 h2.le, div_nonneg h1.2 h2.le, ?_⟩
    rw [← add_div, div_self h2.ne']
    exact one_pos

theorem key_reflectance {comp key : Comp K} (h : keyOfComp comp = .ok key) (d : Data K) (ts : Str → Option (Curve K))
    (f : Str) : compReflectance d ts key f = compReflectance d ts comp f := by
  cases comp with
  | template id =>
    unfold keyOfComp at h
    simp only at h
    split at h
    · cases h
    · cases h; rfl
  | mix c w =>
    have hv := (key_valid h).1
    unfold keyOfComp at h
    simp only at h
    split at h
    · cases h
    split at h
    · cases h
    cases h
    have hp : c + w ≠ 0 := hv.2.2.ne'
    unfold compReflectance
    simp only
    rw [← add_div, div_self hp, div_one, div_one]

variable [DecidableEq K]

/-! ### tables -/

theorem table_cached {d : Data K} {mag : K → K} {s : State K (Comp K)} {comp key : Comp K} {t : List (Option K)}
    (hk : keyOfComp comp = .ok key) (ht : s.tables key = some t) : deltaTable d mag s comp = (.ok t, s) := by
  unfold deltaTable
  rw [hk]
  simp only
  rw [ht]

/-- What a call for a table leaves behind. -/
theorem table_state {d : Data K} {mag : K → K} {s : State K (Comp K)} (hs : Coherent d s) (comp : Comp K) :
    Coherent d (deltaTable d mag s comp).2 ∧ (deltaTable d mag s comp).2.templates = s.templates ∧
    (∀ k t, s.tables k = some t → (deltaTable d mag s comp).2.tables k = some t) ∧
    (∀ k, keyOfComp comp ≠ .ok k → (deltaTable d mag s comp).2.tables k = s.tables k) ∧
    (∀ t, (deltaTable d mag s comp).1 = .ok t →
      ∃ key, keyOfComp comp = .ok key ∧ (deltaTable d mag s comp).2.tables key = some t) := by
  unfold deltaTable
  cases hk : keyOfComp comp with
  | error e => exact ⟨hs, rfl, fun _ _ h => h, fun _ _ => rfl, fun t h => by cases h⟩
  | ok key =>
    simp only
    cases ht : s.tables key with
    | some t =>
      refine ⟨hs, rfl, fun _ _ h => h, fun _ _ => rfl, fun t' h => ?_⟩
      cases h
      exact ⟨key, rfl, ht⟩
    | none =>
      simp only
      cases hf : filterIds d with
      | error e => exact ⟨hs, rfl, fun _ _ h => h, fun _ _ => rfl, fun t h => by cases h⟩
      | ok p =>
        obtain ⟨ids, v⟩ := p
        simp only
        have hst := compIntegrals_state hs key ids
        generalize compIntegrals d s key ids = g at hst
        obtain ⟨r, s1⟩ := g
        simp only at hst
        cases r with
        | error e =>
          refine ⟨hst.1, hst.2.1, fun k t h => ?_, fun k _ => ?_, fun t h => by cases h⟩
          · simp only [hst.2.2]; exact h
          · simp only [hst.2.2]
        | ok ints =>
          simp only
          cases hd : deltas mag v ints with
          | error e =>
            refine ⟨hst.1, hst.2.1, fun k t h => ?_, fun k _ => ?_, fun t h => by cases h⟩
            · simp only [hst.2.2]; exact h
            · simp only [hst.2.2]
          | ok t =>
            refine ⟨hst.1, hst.2.1, fun k t' h => ?_, fun k hne => ?_, fun t' h => ?_⟩
            · simp only
              rw [if_neg, hst.2.2]
              · exact h
              · rintro rfl
                rw [ht] at h
                cases h
            · simp only
              rw [if_neg, hst.2.2]
              rintro rfl
              exact hne rfl
            · cases h
              exact ⟨key, rfl, by simp⟩

theorem lookup_zip_map {B : Type} (g : Str → B) (f : Str) : ∀ l : List Str,
    (l.zip (l.map g)).lookup f = if f ∈ l then some (g f) else none
  | [] => rfl
  | a :: l => by
    rw [List.map_cons, List.zip_cons_cons, List.lookup_cons]
    by_cases h : f = a
    · subst h; simp
    · have : (f == a) = false := by simpa using h
      rw [this]
      simp only
      rw [lookup_zip_map g f l]
      simp [h]

theorem filterIds_ok {d : Data K} {ids : List Str} {v : Nat} (h : filterIds d = .ok (ids, v)) :
    ids = d.filters.map Prod.fst ∧ ids[v]? = some ['V'] := by
  unfold filterIds at h
  simp only at h
  split at h
  · cases h
  · rename_i p hp
    cases h
    refine ⟨rfl, ?_⟩
    have h1 := List.find?_some hp
    have h2 := List.mem_reverse.mp (List.mem_of_find?_eq_some hp)
    rw [decide_eq_true_eq] at h1
    rw [← h1]
    exact (List.mem_zipIdx_iff_getElem? (x := p)).mp h2

/-- A table computed now holds the colours of the templates registered now. -/
theorem table_fresh {d : Data K} {mag : K → K} {s : State K (Comp K)} (hs : Coherent d s) {comp key : Comp K}
    (hk : keyOfComp comp = .ok key) (hn : s.tables key = none) {t : List (Option K)}
    (h : (deltaTable d mag s comp).1 = .ok t) :
    ∃ rv, compReflectance d s.templates comp ['V'] = some (some rv) ∧ 0 < rv ∧
      ∀ f ∈ d.filters.map Prod.fst, ∃ o, compReflectance d s.templates comp f = some o ∧
        deltaOf d t f = some (o.map fun x => mag (x / rv)) ∧ ∀ x, o = some x → 0 < x := by
  unfold deltaTable at h
  rw [hk] at h
  simp only at h
  rw [hn] at h
  simp only at h
  cases hf : filterIds d with
  | error e => rw [hf] at h; cases h
  | ok p =>
    obtain ⟨ids, v⟩ := p
    rw [hf] at h
    simp only at h
    obtain ⟨hids, hv⟩ := filterIds_ok hf
    have hc := compIntegrals_eq hs (key_valid hk).2 ids
    generalize compIntegrals d s key ids = g at hc h
    obtain ⟨r, s1⟩ := g
    simp only at hc
    subst hc
    unfold collect at h
    split at h
    · cases h
    · rename_i ints s2 he
      split at he
      swap
      · cases he
      rename_i hall
      cases he
      unfold deltas at h
      rw [List.getElem?_map, hv] at h
      simp only [Option.map_some] at h
      rw [key_reflectance hk] at h
      cases hV : compReflectance d s.templates comp ['V'] with
      | none =>
        rw [hV] at h
        cases h
      | some o =>
        cases o with
        | none => rw [hV] at h; cases h
        | some rv =>
          rw [hV] at h
          simp only [Option.getD_some] at h
          split at h
          · cases h
          · rename_i t' ht
            cases h
            split at ht
            · cases ht
            split at ht
            · cases ht
            rename_i h1 h2
            cases ht
            refine ⟨rv, rfl, not_le.mp h1, ?_⟩
            intro f hfm
            rw [← hids] at hfm
            obtain ⟨o, ho⟩ := Option.isSome_iff_exists.mp (hall f hfm)
            have ho' := ho
            rw [key_reflectance hk] at ho'
            refine ⟨o, ho', ?_, ?_⟩
            · unfold deltaOf
              rw [← hids, List.map_map, lookup_zip_map, if_pos hfm]
              simp [ho]
            · rintro x rfl
              by_contra hx
              refine h2 (List.any_eq_true.mpr ⟨some x, ?_, by simpa using hx⟩)
              exact List.mem_map.mpr ⟨f, hfm, by rw [ho]; rfl⟩

/-! ### histories -/

theorem convert_eq {d : Data K} {mag : K → K} {s s1 : State K (Comp K)} {mags out : List (Option K)} {src tgt : List Str}
    {comp : Comp K} (h : convert d mag s mags src tgt comp = (.ok out, s1)) :
    src.length = mags.length ∧ tgt.length = mags.length ∧ (∀ f ∈ src ++ tgt, f ∈ d.filters.map Prod.fst) ∧
      ∃ t, deltaTable d mag s comp = (.ok t, s1) ∧
        out = List.zipWith (fun m p => shift m ((deltaOf d t p.1).getD none) ((deltaOf d t p.2).getD none)) mags
          (src.zip tgt) := by
  unfold convert at h
  split at h
  · cases h
  rename_i h1
  split at h
  · cases h
  rename_i h2
  push Not at h1
  refine ⟨h1.1, h1.2, ?_, ?_⟩
  · intro f hf
    have h3 : ¬ (d.filters.lookup f).isNone = true := fun hn => h2 (List.any_eq_true.mpr ⟨f, hf, hn⟩)
    cases hl : d.filters.lookup f with
    | none => rw [hl] at h3; exact absurd rfl h3
    | some c =>
      have : ∀ m : List (Str × Curve K), m.lookup f = some c → f ∈ m.map Prod.fst := by
        intro m
        induction m with
        | nil => intro h; cases h
        | cons a l ih =>
          intro h
          rw [List.lookup_cons] at h
          split at h
          · rename_i ha
            have : f = a.1 := by simpa using ha
            rw [this]
            simp
          · exact List.mem_cons_of_mem _ (ih h)
      exact this _ hl
  · generalize hd : deltaTable d mag s comp = r at h
    obtain ⟨r, s'⟩ := r
    cases r with
    | error e => cases h
    | ok t => cases h; exact ⟨t, rfl, rfl⟩

theorem convert_with {d : Data K} {mag : K → K} {s s1 : State K (Comp K)} {mags : List (Option K)} {src tgt : List Str}
    {comp : Comp K} {t : List (Option K)} (h1 : src.length = mags.length) (h2 : tgt.length = mags.length)
    (h3 : ∀ f ∈ src ++ tgt, f ∈ d.filters.map Prod.fst) (h4 : deltaTable d mag s comp = (.ok t, s1)) :
    convert d mag s mags src tgt comp = (.ok (List.zipWith
      (fun m p => shift m ((deltaOf d t p.1).getD none) ((deltaOf d t p.2).getD none)) mags (src.zip tgt)), s1) := by
  unfold convert
  rw [if_neg (by push Not; exact ⟨h1, h2⟩), if_neg, h4]
  intro h
  obtain ⟨f, hf, hn⟩ := List.any_eq_true.mp h
  have key : ∀ m : List (Str × Curve K), f ∈ m.map Prod.fst → (m.lookup f).isNone = true → False := by
    intro m
    induction m with
    | nil => intro h _; cases h
    | cons a l ih =>
      intro h hn
      rw [List.lookup_cons] at hn
      split at hn
      · cases hn
      · rename_i ha
        refine ih ?_ hn
        rw [List.map_cons, List.mem_cons] at h
        rcases h with h | h
        · exact absurd (by simpa using h) (by simpa using ha)
        · exact h
  exact key _ (h3 f hf) hn

theorem convert_state {d : Data K} {mag : K → K} {s : State K (Comp K)} (mags : List (Option K))
    (src tgt : List Str) (comp : Comp K) :
    (convert d mag s mags src tgt comp).2 = s ∨ (convert d mag s mags src tgt comp).2 = (deltaTable d mag s comp).2 := by
  unfold convert
  split
  · exact .inl rfl
  split
  · exact .inl rfl
  right
  generalize deltaTable d mag s comp = r
  obtain ⟨r, s'⟩ := r
  cases r <;> rfl

theorem deltaMag_state {d : Data K} {mag : K → K} {s : State K (Comp K)} (comp : Comp K) (src tgt : Str) :
    (deltaMag d mag s comp src tgt).2 = s ∨
      (deltaMag d mag s comp src tgt).2 = (compIntegrals d s comp [src, tgt]).2 := by
  unfold deltaMag
  split
  · exact .inl rfl
  split
  · exact .inl rfl
  right
  generalize compIntegrals d s comp [src, tgt] = r
  obtain ⟨r, s'⟩ := r
  cases r with
  | error e => rfl
  | ok ints =>
    simp only
    split
    · split <;> rfl
    · rfl

theorem register_state {C : Type} (s : State K C) (id : Str) (wl rf : List (Option K)) :
    (register s id wl rf).2 = match checkTemplate id wl rf with
      | .error _ => s
      | .ok t => { s with templates := fun i => if i = id then some t else s.templates i, integrals := fun _ _ => none } := by
  unfold register
  cases checkTemplate id wl rf <;> rfl

/-- What a call does to the state. -/
theorem step_spec {d : Data K} {mag : K → K} {s : State K (Comp K)} (hs : Coherent d s) (op : Op K) :
    Coherent d (step d mag s op) ∧ (∀ k t, s.tables k = some t → (step d mag s op).tables k = some t) ∧
    (∀ k, (∀ mags src tgt comp, op = .convert mags src tgt comp → keyOfComp comp ≠ .ok k) →
      (step d mag s op).tables k = s.tables k) := by
  cases op with
  | register id wl rf =>
    have h := register_state s id wl rf
    simp only [step]
    rw [h]
    cases checkTemplate id wl rf with
    | error e => exact ⟨hs, fun _ _ h => h, fun _ _ => rfl⟩
    | ok t =>
      refine ⟨?_, fun _ _ h => h, fun _ _ => rfl⟩
      intro i f v h
      cases h
  | convert mags src tgt comp =>
    unfold step
    simp only
    have ht := table_state (mag := mag) hs comp
    rcases convert_state (d := d) (mag := mag) (s := s) mags src tgt comp with h | h
    · rw [h]; exact ⟨hs, fun _ _ h => h, fun _ _ => rfl⟩
    · rw [h]
      exact ⟨ht.1, ht.2.2.1, fun k hk => ht.2.2.2.1 k (hk mags src tgt comp rfl)⟩
  | deltaMag comp src tgt =>
    unfold step
    simp only
    rcases deltaMag_state (d := d) (mag := mag) (s := s) comp src tgt with h | h
    · rw [h]; exact ⟨hs, fun _ _ h => h, fun _ _ => rfl⟩
    · rw [h]
      have := compIntegrals_state hs comp [src, tgt]
      exact ⟨this.1, fun _ _ h => by rw [this.2.2]; exact h, fun _ _ => by rw [this.2.2]⟩
  | integrals id fs =>
    unfold step
    simp only
    have := (getIntegrals_eq hs id fs).2
    exact ⟨this.1, fun _ _ h => by rw [this.2.2]; exact h, fun _ _ => by rw [this.2.2]⟩

theorem step_templates {d : Data K} {mag : K → K} {s : State K (Comp K)} (hs : Coherent d s) (op : Op K) (id : Str) :
    (step d mag s op).templates id = match op with
      | .register i wl rf =>
        if i = id then
          match checkTemplate i wl rf with
          | .ok t => some t
          | .error _ => s.templates id
        else s.templates id
      | _ => s.templates id := by
  cases op with
  | register i wl rf =>
    have h := register_state s i wl rf
    simp only [step]
    rw [h]
    cases checkTemplate i wl rf with
    | error e => simp only; split <;> rfl
    | ok t =>
      simp only
      by_cases hi : i = id
      · rw [if_pos hi, if_pos hi.symm]
      · rw [if_neg hi, if_neg (Ne.symm hi)]
  | convert mags src tgt comp =>
    unfold step
    simp only
    have ht := table_state (mag := mag) hs comp
    rcases convert_state (d := d) (mag := mag) (s := s) mags src tgt comp with h | h
    · rw [h]
    · rw [h, ht.2.1]
  | deltaMag comp src tgt =>
    unfold step
    simp only
    rcases deltaMag_state (d := d) (mag := mag) (s := s) comp src tgt with h | h
    · rw [h]
    · rw [h, (compIntegrals_state hs comp [src, tgt]).2.1]
  | integrals i fs =>
    unfold step
    simp only
    rw [(getIntegrals_eq hs i fs).2.2.1]

theorem run_append (d : Data K) (mag : K → K) (a b : List (Op K)) :
    run d mag (a ++ b) = b.foldl (step d mag) (run d mag a) := by
  unfold run
  rw [List.foldl_append]

theorem run_coherent (d : Data K) (mag : K → K) (ops : List (Op K)) : Coherent d (run d mag ops) := by
  induction ops using List.reverseRecOn with
  | nil => intro i f v h; cases h
  | append_singleton ops op ih =>
    rw [run_append]
    exact (step_spec ih op).1

/-- The registered templates are the ones last registered. -/
theorem run_templates (d : Data K) (mag : K → K) (ops : List (Op K)) (id : Str) :
    (run d mag ops).templates id = lastRegistered ops id := by
  induction ops using List.reverseRecOn with
  | nil => rfl
  | append_singleton ops op ih =>
    rw [run_append]
    simp only [List.foldl_cons, List.foldl_nil]
    rw [step_templates (run_coherent d mag ops)]
    unfold lastRegistered at ih ⊢
    rw [List.foldl_append, List.foldl_cons, List.foldl_nil, ← ih]
    cases op <;> rfl

theorem run_no_table (d : Data K) (mag : K → K) {key : Comp K} {ops : List (Op K)}
    (h : ∀ mags src tgt comp, Op.convert mags src tgt comp ∈ ops → keyOfComp comp ≠ .ok key) :
    (run d mag ops).tables key = none := by
  induction ops using List.reverseRecOn with
  | nil => rfl
  | append_singleton ops op ih =>
    rw [run_append]
    simp only [List.foldl_cons, List.foldl_nil]
    rw [(step_spec (run_coherent d mag ops) op).2.2 key]
    · exact ih fun mags src tgt comp hm => h mags src tgt comp (by simp [hm])
    · rintro mags src tgt comp rfl
      exact h mags src tgt comp (by simp)

theorem tables_stay {d : Data K} {mag : K → K} {s : State K (Comp K)} (hs : Coherent d s) {k : Comp K}
    {t : List (Option K)} (h : s.tables k = some t) : ∀ ops : List (Op K), (ops.foldl (step d mag) s).tables k = some t := by
  intro ops
  induction ops generalizing s with
  | nil => exact h
  | cons op ops ih => exact ih (step_spec hs op).1 ((step_spec hs op).2.1 k t h)

/-! ### C61 -/

/-- `get_integrals` always answers for the template registered last. -/
theorem C61_integrals (d : Data K) (mag : K → K) (ops : List (Op K)) (id : Str) (fs : List Str) :
    (getIntegrals d (run d mag ops) id fs).1 = collect (reflectance d (lastRegistered ops) id) fs := by
  rw [(getIntegrals_eq (run_coherent d mag ops) id fs).1]
  congr 1
  have : (run d mag ops).templates = lastRegistered ops := funext (run_templates d mag ops)
  rw [this]

/-- `bandpass_delta_mag` always answers for the templates registered last. -/
theorem C61_delta_mag (d : Data K) (mag : K → K) (ops : List (Op K)) {comp : Comp K} {src tgt : Str} {x : K}
    (h : (deltaMag d mag (run d mag ops) comp src tgt).1 = .ok x) (hne : src ≠ tgt) :
    ∃ a b, compReflectance d (lastRegistered ops) comp src = some (some a) ∧
      compReflectance d (lastRegistered ops) comp tgt = some (some b) ∧ 0 < a ∧ 0 < b ∧ x = mag (b / a) := by
  have hT : (run d mag ops).templates = lastRegistered ops := funext (run_templates d mag ops)
  have hs := run_coherent d mag ops
  generalize run d mag ops = s at *
  unfold deltaMag at h
  split at h
  · cases h
  have hv : ValidComp comp := by
    cases comp with
    | template id => trivial
    | mix c w =>
      by_contra hn
      have : (compIntegrals d s (.mix c w) [src, tgt]).1 = .error .valueError := by
        change (mixIntegrals d s c w [src, tgt]).1 = _
        unfold mixIntegrals
        by_cases h1 : c < 0 ∨ w < 0
        · rw [if_pos h1]
        · rw [if_neg h1, if_pos]
          push Not at h1
          by_contra h2
          exact hn ⟨h1.1, h1.2, not_le.mp h2⟩
      generalize compIntegrals d s (.mix c w) [src, tgt] = g at this h
      obtain ⟨r, s1⟩ := g
      simp only at this
      subst this
      cases h
  have hc := compIntegrals_eq hs hv [src, tgt]
  rw [hT] at hc
  generalize compIntegrals d s comp [src, tgt] = g at hc h
  obtain ⟨r, s1⟩ := g
  simp only at hc
  subst hc
  unfold collect at h
  split at h
  · cases h
  · rename_i ints s2 he
    split at he
    swap
    · cases he
    rename_i hall
    cases he
    obtain ⟨o1, h1⟩ := Option.isSome_iff_exists.mp (hall src (by simp))
    obtain ⟨o2, h2⟩ := Option.isSome_iff_exists.mp (hall tgt (by simp))
    simp only [List.map_cons, List.map_nil, h1, h2, Option.getD_some] at h
    cases o1 with
    | none => cases o2 <;> cases h
    | some a =>
      cases o2 with
      | none => cases h
      | some b =>
        simp only at h
        split at h
        · cases h
        · rename_i hp
          push Not at hp
          cases h
          exact ⟨a, b, h1, h2, hp.1, hp.2, rfl⟩

/-- The first conversion with a composition uses the templates registered last: each magnitude is shifted by the colour of
the target minus the colour of the source. What is missing: a composition already used for a conversion (`C61_false`). -/
theorem C61_first_use (d : Data K) (mag : K → K) {ops : List (Op K)} {comp key : Comp K}
    (hk : keyOfComp comp = .ok key)
    (hfirst : ∀ mags src tgt comp', Op.convert mags src tgt comp' ∈ ops → keyOfComp comp' ≠ .ok key)
    {mags out : List (Option K)} {src tgt : List Str} {s1 : State K (Comp K)}
    (h : convert d mag (run d mag ops) mags src tgt comp = (.ok out, s1)) :
    out.length = mags.length ∧ ∃ rv, compReflectance d (lastRegistered ops) comp ['V'] = some (some rv) ∧ 0 < rv ∧
      ∀ (i : Nat) (f g : Str) (m : Option K), mags[i]? = some m → src[i]? = some f → tgt[i]? = some g →
        ∃ a b, compReflectance d (lastRegistered ops) comp f = some a ∧
          compReflectance d (lastRegistered ops) comp g = some b ∧ (∀ x, a = some x → 0 < x) ∧ (∀ x, b = some x → 0 < x) ∧
          out[i]? = some (shift m (a.map fun x => mag (x / rv)) (b.map fun x => mag (x / rv))) := by
  have hT : (run d mag ops).templates = lastRegistered ops := funext (run_templates d mag ops)
  have hs := run_coherent d mag ops
  have hn := run_no_table d mag hfirst
  obtain ⟨h1, h2, h3, t, ht, rfl⟩ := convert_eq h
  obtain ⟨rv, hv1, hv2, hall⟩ := table_fresh (mag := mag) hs hk hn (t := t) (by rw [ht])
  rw [hT] at hv1 hall
  refine ⟨by simp [h1, h2], rv, hv1, hv2, ?_⟩
  intro i f g m hm hf hg
  obtain ⟨a, ha1, ha2, ha3⟩ := hall f (h3 f (by simp [List.mem_of_getElem? hf]))
  obtain ⟨b, hb1, hb2, hb3⟩ := hall g (h3 g (by simp [List.mem_of_getElem? hg]))
  refine ⟨a, b, ha1, hb1, ha3, hb3, ?_⟩
  rw [List.getElem?_zipWith, hm, List.zip, List.getElem?_zipWith, hf, hg]
  simp only
  rw [ha2, hb2]
  rfl

/-- Once a conversion with a composition has succeeded, its colours never change, whatever is registered afterwards. -/
theorem C61_frozen (d : Data K) (mag : K → K) (ops later : List (Op K)) {comp : Comp K} {mags out : List (Option K)}
    {src tgt : List Str} {s1 : State K (Comp K)}
    (h : convert d mag (run d mag ops) mags src tgt comp = (.ok out, s1)) :
    (convert d mag (run d mag (ops ++ [.convert mags src tgt comp] ++ later)) mags src tgt comp).1 = .ok out := by
  have hs := run_coherent d mag ops
  obtain ⟨h1, h2, h3, t, ht, rfl⟩ := convert_eq h
  obtain ⟨e1, e2, e3, e4, e5⟩ := table_state (mag := mag) hs comp
  rw [ht] at e1 e2 e3 e4 e5
  obtain ⟨key, hk, hkey⟩ := e5 t rfl
  have hrun : run d mag (ops ++ [.convert mags src tgt comp] ++ later) = later.foldl (step d mag) s1 := by
    rw [run_append, run_append]
    simp only [List.foldl_cons, List.foldl_nil]
    unfold step
    simp only
    rw [h]
  rw [hrun, convert_with h1 h2 h3 (table_cached hk (tables_stay e1 hkey later))]

/-! ### C60 -/

/-- Converting to the same filter changes nothing (a magnitude may become NaN when the template does not reach the filter). -/
theorem C60_identity (d : Data K) (mag : K → K) (s : State K (Comp K)) {mags out : List (Option K)} {src : List Str}
    {comp : Comp K} {s1 : State K (Comp K)} (h : convert d mag s mags src src comp = (.ok out, s1)) (i : Nat) (x : K)
    (hx : out[i]? = some (some x)) : mags[i]? = some (some x) := by
  obtain ⟨h1, h2, h3, t, ht, rfl⟩ := convert_eq h
  rw [List.getElem?_zipWith, List.zip, List.getElem?_zipWith] at hx
  cases hm : mags[i]? with
  | none => rw [hm] at hx; cases hx
  | some m =>
    cases hf : src[i]? with
    | none => rw [hm, hf] at hx; cases hx
    | some f =>
      rw [hm, hf] at hx
      simp only [Option.some.injEq] at hx
      unfold shift at hx
      split at hx
      · rename_i m' a b ha hb
        rw [ha] at hb
        cases hb
        cases hx
        rw [sub_self, add_zero]
      · cases hx

/-- Converting in two steps is converting in one. -/
theorem C60_chain (d : Data K) (mag : K → K) (ops : List (Op K)) {mags x y : List (Option K)} {A B C : List Str}
    {comp : Comp K} {s1 s2 : State K (Comp K)} (h1 : convert d mag (run d mag ops) mags A B comp = (.ok x, s1))
    (h2 : convert d mag s1 x B C comp = (.ok y, s2)) :
    ∃ z, (convert d mag (run d mag ops) mags A C comp).1 = .ok z ∧
      ∀ (i : Nat) (v : K), y[i]? = some (some v) ↔ z[i]? = some (some v) ∧ ∃ u, x[i]? = some (some u) := by
  have hs := run_coherent d mag ops
  obtain ⟨a1, a2, a3, t, ht, rfl⟩ := convert_eq h1
  obtain ⟨b1, b2, b3, t', ht', rfl⟩ := convert_eq h2
  obtain ⟨e1, e2, e3, e4, e5⟩ := table_state (mag := mag) hs comp
  rw [ht] at e1 e2 e3 e4 e5
  obtain ⟨key, hk, hkey⟩ := e5 t rfl
  rw [table_cached hk hkey] at ht'
  cases ht'
  have hl : C.length = mags.length := by rw [b2]; simp [a1, a2]
  have hf : ∀ f ∈ A ++ C, f ∈ d.filters.map Prod.fst := by
    intro f hf
    rcases List.mem_append.mp hf with h | h
    · exact a3 f (by simp [h])
    · exact b3 f (by simp [h])
  refine ⟨_, by rw [convert_with a1 hl hf ht], ?_⟩
  · intro i v
    simp only [List.getElem?_zipWith, List.zip]
    cases hm : mags[i]? with
    | none => simp
    | some m =>
      cases hA : A[i]? with
      | none => simp
      | some f =>
        cases hB : B[i]? with
        | none => simp
        | some g =>
          cases hC : C[i]? with
          | none => simp
          | some e =>
            simp only [Option.some.injEq]
            generalize (deltaOf d t f).getD none = da
            generalize (deltaOf d t g).getD none = db
            generalize (deltaOf d t e).getD none = dc
            cases m <;> cases da <;> cases db <;> cases dc <;> simp [shift]
            rename_i w p q r
            rw [show w + (q - p) + (r - q) = w + (r - p) by ring]

/-- A filter that can be converted to some filter is converted to itself without change. -/
theorem C60_identity_defined (d : Data K) (mag : K → K) (s : State K (Comp K)) {mags out out' : List (Option K)} {src tgt : List Str}
    {comp : Comp K} {s1 s2 : State K (Comp K)} (h : convert d mag s mags src src comp = (.ok out, s1))
    (h' : convert d mag s mags src tgt comp = (.ok out', s2)) (i : Nat) (u : K) (hu : out'[i]? = some (some u)) :
    out[i]? = mags[i]? := by
  obtain ⟨h1, h2, h3, t, ht, rfl⟩ := convert_eq h
  obtain ⟨g1, g2, g3, t', ht', rfl⟩ := convert_eq h'
  rw [ht] at ht'
  cases ht'
  simp only [List.getElem?_zipWith, List.zip] at hu ⊢
  cases hm : mags[i]? with
  | none => simp [hm] at hu
  | some m =>
    cases hf : src[i]? with
    | none => simp [hm, hf] at hu
    | some f =>
      cases hg : tgt[i]? with
      | none => simp [hm, hf, hg] at hu
      | some g =>
        simp only [hm, hf, hg, Option.some.injEq] at hu ⊢
        generalize (deltaOf d t f).getD none = da at hu ⊢
        generalize (deltaOf d t g).getD none = db at hu ⊢
        cases m <;> cases da <;> cases db <;> simp [shift] at hu ⊢

/-- Converting there and back restores the magnitudes, wherever the way there gives a number. -/
theorem C60_inverse (d : Data K) (mag : K → K) (ops : List (Op K)) {mags x y : List (Option K)} {A B : List Str}
    {comp : Comp K} {s1 s2 : State K (Comp K)} (h1 : convert d mag (run d mag ops) mags A B comp = (.ok x, s1))
    (h2 : convert d mag s1 x B A comp = (.ok y, s2)) (i : Nat) (v : K) :
    y[i]? = some (some v) ↔ mags[i]? = some (some v) ∧ ∃ u, x[i]? = some (some u) := by
  obtain ⟨z, hz, hi⟩ := C60_chain d mag ops h1 h2
  have hc : convert d mag (run d mag ops) mags A A comp = (.ok z, (convert d mag (run d mag ops) mags A A comp).2) := by
    rw [← hz]
  rw [hi]
  constructor
  · rintro ⟨a, b⟩
    exact ⟨C60_identity d mag _ hc i v a, b⟩
  · rintro ⟨a, u, b⟩
    exact ⟨by rw [C60_identity_defined d mag _ hc h1 i u b, a], u, b⟩

/-- Weights count by their share only. -/
theorem C60_weights (d : Data K) (mag : K → K) (s : State K (Comp K)) (mags : List (Option K)) (src tgt : List Str)
    (c w k : K) (hk : 0 < k) :
    convert d mag s mags src tgt (.mix (k * c) (k * w)) = convert d mag s mags src tgt (.mix c w) := by
  have : keyOfComp (.mix (k * c) (k * w)) = keyOfComp (.mix c w) := by
    unfold keyOfComp
    simp only
    rw [← mul_add, mul_div_mul_left _ _ hk.ne', mul_div_mul_left _ _ hk.ne']
    have h1 : (k * c < 0 ∨ k * w < 0) ↔ (c < 0 ∨ w < 0) := by
      rw [mul_neg_iff, mul_neg_iff]
      simp [hk, hk.not_gt]
    have h2 : k * (c + w) ≤ 0 ↔ c + w ≤ 0 := by
      rw [mul_nonpos_iff]
      constructor
      · rintro (h | h)
        · exact h.2
        · exact absurd hk (not_lt.mpr h.1)
      · exact fun h => .inl ⟨hk.le, h⟩
    simp only [h1, h2]
  unfold convert
  have ht : deltaTable d mag s (.mix (k * c) (k * w)) = deltaTable d mag s (.mix c w) := by
    unfold deltaTable
    rw [this]
  rw [ht]

/-! ### C89: registration -/

omit [IsStrictOrderedRing K] [DecidableEq K] in
theorem all_some : ∀ {l : List (Option K)}, none ∉ l → ∃ xs : List K, l = xs.map some
  | [], _ => ⟨[], rfl⟩
  | none :: l, h => absurd List.mem_cons_self h
  | some a :: l, h => by
    obtain ⟨xs, rfl⟩ := all_some fun hm => h (List.mem_cons_of_mem _ hm)
    exact ⟨a :: xs, rfl⟩

theorem strict_iff (l : Curve K) (hs : l.Pairwise fun a b => a.1 ≤ b.1) :
    ((l.zip l.tail).any fun p => decide (p.2.1 - p.1.1 ≤ 0)) = false ↔ (l.map Prod.fst).Nodup := by
  have h1 : ((l.zip l.tail).any fun p => decide (p.2.1 - p.1.1 ≤ 0)) = false ↔ ∀ p ∈ l.zip l.tail, p.1.1 < p.2.1 := by
    rw [List.any_eq_false]
    constructor
    · intro h p hp
      have := h p hp
      simpa using this
    · intro h p hp
      simpa using h p hp
  rw [h1, zip_tail_pairwise (fun a b : K × K => a.1 < b.1) (fun a b c => lt_trans)]
  unfold List.Nodup
  rw [List.pairwise_map]
  constructor
  · exact fun h => h.imp fun h => h.ne
  · intro h
    exact (hs.and h).imp fun h => lt_of_le_of_ne h.1 h.2

/-- What registering finite samples does. -/
theorem check_some (id : Str) (xs ys : List K) :
    checkTemplate id (xs.map some) (ys.map some) =
      if id ≠ [] ∧ xs.length = ys.length ∧ 2 ≤ xs.length ∧ xs.Nodup then .ok (sortBy Prod.fst (xs.zip ys))
      else .error .valueError := by
  unfold checkTemplate
  by_cases h1 : id = []
  · simp [h1]
  rw [if_neg h1]
  by_cases h2 : xs.length = ys.length
  swap
  · simp [h2]
  rw [if_neg (by simpa using h2)]
  by_cases h3 : xs.length < 2
  · rw [if_pos (by simpa using h3), if_neg]
    rintro ⟨-, -, h, -⟩; omega
  rw [if_neg (by simpa using h3), if_neg (by simp)]
  simp only
  have hz : List.zipWith (fun (a b : Option K) => (a.getD 0, b.getD 0)) (xs.map some) (ys.map some) = xs.zip ys := by
    rw [List.zipWith_map]
    rfl
  rw [hz]
  have hnd : ((sortBy Prod.fst (xs.zip ys)).map Prod.fst).Nodup ↔ xs.Nodup := by
    rw [((sortBy_perm Prod.fst (xs.zip ys)).map Prod.fst).nodup_iff, List.map_fst_zip (by omega)]
  have hst := strict_iff (sortBy Prod.fst (xs.zip ys)) (sortBy_sorted Prod.fst _)
  by_cases h4 : xs.Nodup
  · rw [if_neg, if_pos ⟨h1, h2, by omega, h4⟩]
    rw [hst.mpr (hnd.mpr h4)]
    simp
  · rw [if_pos, if_neg]
    · exact fun h => h4 h.2.2.2
    · by_contra hn
      exact h4 (hnd.mp (hst.mp (by simpa using hn)))

/-- A registration is accepted exactly for a name and two lists of one length, of at least two finite numbers, with no
wavelength twice; the template then holds the samples by wavelength. Otherwise ValueError is raised and nothing changes. -/
theorem C89_accepts (id : Str) (wl rf : List (Option K)) :
    (∀ t, checkTemplate id wl rf = .ok t ↔
      id ≠ [] ∧ ∃ xs ys : List K, wl = xs.map some ∧ rf = ys.map some ∧ xs.length = ys.length ∧ 2 ≤ xs.length ∧ xs.Nodup ∧
        t.Perm (xs.zip ys) ∧ t.Pairwise fun a b => a.1 < b.1) ∧
    (∀ e, checkTemplate id wl rf = .error e → e = .valueError) ∧
    (∀ (C : Type) (s : State K C) e, (register s id wl rf).1 = .error e → (register s id wl rf).2 = s) := by
  have herr : (∃ xs ys : List K, wl = xs.map some ∧ rf = ys.map some) ∨ checkTemplate id wl rf = .error .valueError := by
    by_cases h : none ∈ wl ∨ none ∈ rf
    · right
      unfold checkTemplate
      split
      · rfl
      split
      · rfl
      split
      · rfl
      rw [if_pos]
      simpa [List.any_eq_true] using h
    · left
      push Not at h
      obtain ⟨xs, hx⟩ := all_some h.1
      obtain ⟨ys, hy⟩ := all_some h.2
      exact ⟨xs, ys, hx, hy⟩
  refine ⟨?_, ?_, ?_⟩
  · intro t
    constructor
    · intro h
      rcases herr with ⟨xs, ys, rfl, rfl⟩ | he
      · rw [check_some] at h
        split at h
        · rename_i hc
          cases h
          refine ⟨hc.1, xs, ys, rfl, rfl, hc.2.1, hc.2.2.1, hc.2.2.2, sortBy_perm _ _, ?_⟩
          have hnd : ((sortBy Prod.fst (xs.zip ys)).map Prod.fst).Nodup := by
            rw [((sortBy_perm Prod.fst (xs.zip ys)).map Prod.fst).nodup_iff, List.map_fst_zip (by omega)]
            exact hc.2.2.2
          unfold List.Nodup at hnd
          rw [List.pairwise_map] at hnd
          exact ((sortBy_sorted Prod.fst (xs.zip ys)).and hnd).imp fun h => lt_of_le_of_ne h.1 h.2
        · cases h
      · rw [he] at h; cases h
    · rintro ⟨h1, xs, ys, rfl, rfl, h2, h3, h4, h5, h6⟩
      rw [check_some, if_pos ⟨h1, h2, h3, h4⟩]
      congr 1
      refine eq_of_sorted Prod.fst ((sortBy_perm _ _).trans h5.symm) ?_ (sortBy_sorted _ _) (h6.imp fun h => h.le)
      intro a ha b hb hab
      have ha' := h5.mem_iff.mpr ((sortBy_perm _ _).mem_iff.mp ha)
      have hb' := h5.mem_iff.mpr ((sortBy_perm _ _).mem_iff.mp hb)
      have hnd : (t.map Prod.fst).Nodup := by
        unfold List.Nodup
        rw [List.pairwise_map]
        exact h6.imp fun h => h.ne
      exact List.inj_on_of_nodup_map hnd ha' hb' hab
  · intro e h
    rcases herr with ⟨xs, ys, rfl, rfl⟩ | he
    · rw [check_some] at h
      split at h
      · cases h
      · cases h; rfl
    · rw [he] at h; cases h; rfl
  · intro C s e h
    unfold register at h ⊢
    cases hc : checkTemplate id wl rf with
    | error e' => rfl
    | ok t => rw [hc] at h; cases h

/-- The order of the samples does not matter. -/
theorem C89_order (id : Str) {xs ys xs' ys' : List K} (h1 : xs.length = ys.length) (h2 : xs'.length = ys'.length)
    (hp : (xs.zip ys).Perm (xs'.zip ys')) :
    checkTemplate id (xs.map some) (ys.map some) = checkTemplate id (xs'.map some) (ys'.map some) := by
  have hx : xs.Perm xs' := by
    have := hp.map Prod.fst
    rwa [List.map_fst_zip (by omega), List.map_fst_zip (by omega)] at this
  rw [check_some, check_some]
  have hc : (id ≠ [] ∧ xs.length = ys.length ∧ 2 ≤ xs.length ∧ xs.Nodup) ↔
      (id ≠ [] ∧ xs'.length = ys'.length ∧ 2 ≤ xs'.length ∧ xs'.Nodup) := by
    have := hx.length_eq
    rw [hx.nodup_iff]
    constructor
    · rintro ⟨a, -, b, c⟩; exact ⟨a, h2, by omega, c⟩
    · rintro ⟨a, -, b, c⟩; exact ⟨a, h1, by omega, c⟩
  by_cases h : id ≠ [] ∧ xs.length = ys.length ∧ 2 ≤ xs.length ∧ xs.Nodup
  · rw [if_pos h, if_pos (hc.mp h)]
    congr 1
    refine sortBy_congr Prod.fst hp ?_
    intro a ha b hb hab
    have hnd : ((xs.zip ys).map Prod.fst).Nodup := by
      rw [List.map_fst_zip (by omega)]
      exact h.2.2.2
    exact List.inj_on_of_nodup_map hnd ha hb hab
  · rw [if_neg h, if_neg fun h' => h (hc.mpr h')]

/-! ### C90: mixtures and grey templates -/

/-- Registering the mixture of two registered templates with the same wavelengths gives, in every filter, the mixture of
their mean reflectances. -/
theorem C90_mixture (d : Data K) (ts : Str → Option (Curve K)) (c w : K) {a b m : Str} {ta tb : Curve K}
    (ha : ts a = some ta) (hb : ts b = some tb) (hm : ts m = some (mixed c w ta tb))
    (hw : ta.map Prod.fst = tb.map Prod.fst) (f : Str) :
    reflectance d ts m f = match reflectance d ts a f, reflectance d ts b f with
      | some (some x), some (some y) => some (some (c * x + w * y))
      | some _, some _ => some none
      | _, _ => none := by
  unfold reflectance
  rw [ha, hb, hm]
  cases d.norm f with
  | none => rfl
  | some n =>
    simp only
    cases d.filters.lookup f with
    | none => rfl
    | some curve =>
      simp only [Option.map_some]
      rw [photon_mixed d.sun curve c w hw]
      cases photon d.sun curve ta with
      | none => cases photon d.sun curve tb <;> rfl
      | some x =>
        cases photon d.sun curve tb with
        | none => rfl
        | some y =>
          simp only [Option.map_some]
          congr 2
          rw [add_div, mul_div_assoc, mul_div_assoc]

/-- The norms are those computed from the curves (`_solar_norm_by_filter_id`, api.py:188-206). -/
def NormsComputed (d : Data K) : Prop :=
  ∀ f n, d.norm f = some n → ∃ c, d.filters.lookup f = some c ∧ 2 ≤ c.length ∧ solarNorm d.sun c = some n ∧ 0 < n

/-- A grey template over the range of the filters has its grey level as reflectance in every filter. -/
theorem C90_grey (d : Data K) (hd : NormsComputed d) (ts : Str → Option (Curve K)) {id : Str} {t : Curve K} {k : K}
    (ht : ts id = some t) (hne : t ≠ []) (hk : ∀ q ∈ t, q.2 = k) (hs : t.Pairwise fun a b => a.1 < b.1)
    (hcover : ∀ f c, d.filters.lookup f = some c → lo t ≤ max (lo d.sun) (lo c) ∧ min (hi d.sun) (hi c) ≤ hi t)
    {f : Str} {n : K} (hf : d.norm f = some n) : reflectance d ts id f = some (some k) := by
  obtain ⟨c, h1, h2, h3, h4⟩ := hd f n hf
  unfold reflectance
  rw [hf, ht, h1]
  simp only [Option.map_some]
  obtain ⟨h5, h6⟩ := hcover f c h1
  rw [photon_grey d.sun c hne hk hs h5 h6 h2, h3]
  simp only [Option.map_some]
  rw [mul_div_assoc, div_self h4.ne', mul_one]

/-- The colours of a grey template vanish: after any calls, `bandpass_delta_mag` between two filters it covers returns 0,
whatever the magnitude scale as long as equal fluxes differ by 0 (`C90_mag10`). -/
theorem C90_grey_colours (d : Data K) {mag : K → K} (hmag : mag 1 = 0) (hd : NormsComputed d) (ops : List (Op K))
    {id : Str} {t : Curve K} {k : K}
    (ht : lastRegistered ops id = some t) (hne : t ≠ []) (hk : ∀ q ∈ t, q.2 = k) (hk0 : 0 < k)
    (hs : t.Pairwise fun a b => a.1 < b.1)
    (hcover : ∀ f c, d.filters.lookup f = some c → lo t ≤ max (lo d.sun) (lo c) ∧ min (hi d.sun) (hi c) ≤ hi t)
    {src tgt : Str} (h1 : src ≠ []) (h2 : tgt ≠ []) {n m : K} (hn : d.norm src = some n) (hm : d.norm tgt = some m) :
    (deltaMag d mag (run d mag ops) (.template id) src tgt).1 = .ok 0 := by
  have hT : (run d mag ops).templates = lastRegistered ops := funext (run_templates d mag ops)
  have hc := compIntegrals_eq (run_coherent d mag ops) (comp := .template id) trivial [src, tgt]
  rw [hT] at hc
  have ha : compReflectance d (lastRegistered ops) (.template id) src = some (some k) :=
    C90_grey d hd _ ht hne hk hs hcover hn
  have hb : compReflectance d (lastRegistered ops) (.template id) tgt = some (some k) :=
    C90_grey d hd _ ht hne hk hs hcover hm
  unfold deltaMag
  rw [if_neg (by simp [h1, h2])]
  by_cases he : src = tgt
  · rw [if_pos he]
  rw [if_neg he]
  generalize compIntegrals d (run d mag ops) (.template id) [src, tgt] = g at hc
  obtain ⟨r, s1⟩ := g
  simp only at hc
  subst hc
  have : collect (compReflectance d (lastRegistered ops) (.template id)) [src, tgt] = .ok [some k, some k] := by
    unfold collect
    rw [if_pos (by simp [ha, hb])]
    simp [ha, hb]
  rw [this]
  simp only
  rw [if_neg (by simp [hk0])]
  rw [div_self hk0.ne', hmag]

end general

/-! ### real magnitudes -/

/-- `-2.5 * log10(x)`. -/
noncomputable def mag10 (x : ℝ) : ℝ := -(5 / 2) * Real.logb 10 x

theorem mag10_div {x y : ℝ} (hx : 0 < x) (hy : 0 < y) : mag10 (x / y) = mag10 x - mag10 y := by
  unfold mag10
  rw [Real.logb_div hx.ne' hy.ne']
  ring

/-- The first conversion with a composition adds what `bandpass_delta_mag` reports. -/
theorem C60_delta_mag (d : Data ℝ) {ops : List (Op ℝ)} {comp key : Comp ℝ} (hk : keyOfComp comp = .ok key)
    (hfirst : ∀ mags src tgt comp', Op.convert mags src tgt comp' ∈ ops → keyOfComp comp' ≠ .ok key)
    {mags out : List (Option ℝ)} {src tgt : List Str} {s1 : State ℝ (Comp ℝ)}
    (h : convert d mag10 (run d mag10 ops) mags src tgt comp = (.ok out, s1)) {i : Nat} {f g : Str} {m x : ℝ}
    (hm : mags[i]? = some (some m)) (hf : src[i]? = some f) (hg : tgt[i]? = some g)
    (hd : (deltaMag d mag10 (run d mag10 ops) comp f g).1 = .ok x) (hfg : f ≠ g) : out[i]? = some (some (m + x)) := by
  obtain ⟨-, rv, hv, hv0, hall⟩ := C61_first_use d mag10 hk hfirst h
  obtain ⟨a, b, ha, hb, ha0, hb0, ho⟩ := hall i f g _ hm hf hg
  rw [ho]
  obtain ⟨ra, rb, h1, h2, h3, h4, rfl⟩ := C61_delta_mag d mag10 ops hd hfg
  rw [ha] at h1
  rw [hb] at h2
  cases h1
  cases h2
  simp only [Option.map_some, shift]
  congr 2
  rw [mag10_div h3 hv0, mag10_div h4 hv0, mag10_div h4 h3]
  ring

/-- `-2.5 * log10` is a scale for which the colours of a grey template vanish. -/
theorem C90_mag10 : mag10 1 = 0 := by simp [mag10]

/-! ### witnesses -/

/-- Two filters, `V` and `R`, under a flat sun. -/
def dataExample : Data ℚ where
  sun := [(1, 1), (2, 1), (3, 1)]
  filters := [(['V'], [(1, 1), (2, 1)]), (['R'], [(2, 1), (3, 1)])]
  norm := fun f => if f = ['V'] then some (3 / 2) else if f = ['R'] then some (5 / 2) else none
  integrals := fun _ _ => none

/-- A grey template. -/
def greyOp : Op ℚ := .register ['T'] [some 3, some 1] [some 1, some 1]

/-- A red template under the same name. -/
def redOp : Op ℚ := .register ['T'] [some 1, some 2, some 3] [some 1, some 1, some 3]

/-- A conversion from `V` to `R`. -/
def convertOp : Op ℚ := .convert [some 0] [['V']] [['R']] (.template ['T'])

theorem red_last : lastRegistered ([greyOp] ++ [convertOp] ++ [redOp]) ['T'] = some [((1 : ℚ), (1 : ℚ)), (2, 1), (3, 3)] := by
  decide +kernel

theorem grey_last : lastRegistered [greyOp] ['T'] = some [((1 : ℚ), (1 : ℚ)), (3, 1)] := by
  decide +kernel

theorem grey_integrals : collect (reflectance dataExample (lastRegistered [greyOp]) ['T']) [['V'], ['R']]
    = .ok [some 1, some 1] := by decide +kernel

theorem grey_table (mag : ℚ → ℚ) :
    (deltaTable dataExample mag (run dataExample mag [greyOp]) (.template ['T'])).1 = .ok [some (mag 1), some (mag 1)] := by
  have hk : keyOfComp (.template ['T'] : Comp ℚ) = .ok (.template ['T']) := rfl
  have hi : filterIds dataExample = .ok ([['V'], ['R']], 0) := by decide +kernel
  have hn : (run dataExample mag [greyOp]).tables (.template ['T']) = none :=
    run_no_table dataExample mag (by intro mags src tgt comp h; simp [greyOp] at h)
  have hc := compIntegrals_eq (run_coherent dataExample mag [greyOp]) (comp := .template ['T']) trivial [['V'], ['R']]
  have hT : (run dataExample mag [greyOp]).templates = lastRegistered [greyOp] := funext (run_templates dataExample mag [greyOp])
  rw [hT] at hc
  have hc' : (compIntegrals dataExample (run dataExample mag [greyOp]) (.template ['T']) [['V'], ['R']]).1
      = .ok [some 1, some 1] := hc.trans grey_integrals
  unfold deltaTable
  rw [hk]
  simp only
  rw [hn]
  simp only
  rw [hi]
  simp only
  generalize compIntegrals dataExample (run dataExample mag [greyOp]) (.template ['T']) [['V'], ['R']] = g at hc'
  obtain ⟨r, s1⟩ := g
  simp only at hc'
  subst hc'
  have hd : deltas mag 0 [some (1 : ℚ), some 1] = .ok [some (mag 1), some (mag 1)] := by
    have h01 : ¬ (1 : ℚ) ≤ 0 := by norm_num
    simp [deltas, h01]
  simp only
  rw [hd]

theorem grey_works (mag : ℚ → ℚ) : ∃ s1, convert dataExample mag (run dataExample mag [greyOp]) [some 0] [['V']] [['R']]
    (.template ['T']) = (.ok [some 0], s1) := by
  have h := grey_table mag
  generalize hg : deltaTable dataExample mag (run dataExample mag [greyOp]) (.template ['T']) = g at h
  obtain ⟨r, s1⟩ := g
  simp only at h
  subst h
  refine ⟨s1, ?_⟩
  rw [convert_with (by simp) (by simp) (by simp [dataExample]) hg]
  have e1 : deltaOf dataExample [some (mag 1), some (mag 1)] ['V'] = some (some (mag 1)) := rfl
  have e2 : deltaOf dataExample [some (mag 1), some (mag 1)] ['R'] = some (some (mag 1)) := rfl
  simp [e1, e2, shift]

/-- Registering a new template under a name already used for a conversion does not change the conversions: whatever the
magnitude scale, as long as it tells a reflectance ratio of 11/5 from 1. -/
theorem C61_false (mag : ℚ → ℚ) (hmag : mag (11 / 5) ≠ mag 1) :
    ¬ ∀ (d : Data ℚ) (ops : List (Op ℚ)) (comp : Comp ℚ) (m x a b rv : ℚ) (f g : Str),
      (convert d mag (run d mag ops) [some m] [f] [g] comp).1 = .ok [some x] →
      compReflectance d (lastRegistered ops) comp ['V'] = some (some rv) →
      compReflectance d (lastRegistered ops) comp f = some (some a) →
      compReflectance d (lastRegistered ops) comp g = some (some b) → x = m + (mag (b / rv) - mag (a / rv)) := by
  intro h
  obtain ⟨s1, hg⟩ := grey_works mag
  have hfrozen := C61_frozen dataExample mag [greyOp] [redOp] hg
  have h1 := h dataExample ([greyOp] ++ [convertOp] ++ [redOp]) (.template ['T']) 0 0 1 (11 / 5) 1 ['V'] ['R'] hfrozen
    (by decide +kernel) (by decide +kernel) (by decide +kernel)
  rw [div_one, div_one, zero_add] at h1
  exact hmag (sub_eq_zero.mp h1.symm)

/-- The hypotheses of `C61_first_use` and `C60_chain` hold for a conversion after a registration. -/
example (mag : ℚ → ℚ) : keyOfComp (.template ['T'] : Comp ℚ) = .ok (.template ['T']) ∧
    (∀ mags src tgt comp', Op.convert mags src tgt comp' ∈ [greyOp] → keyOfComp comp' ≠ .ok (.template ['T'])) ∧
    ∃ out s1, convert dataExample mag (run dataExample mag [greyOp]) [some 0] [['V']] [['R']] (.template ['T']) = (.ok out, s1) :=
  ⟨rfl, by intro mags src tgt comp h; simp [greyOp] at h, _, grey_works mag⟩

/-- `bandpass_delta_mag` sees the new template. -/
example : (deltaMag dataExample (fun x => x) (run dataExample (fun x => x) [greyOp, convertOp, redOp]) (.template ['T'])
    ['V'] ['R']).1 = .ok (11 / 5) := by decide +kernel

/-- The norms of the example are the computed ones. -/
theorem norms_example : NormsComputed dataExample := by
  intro f n h
  by_cases h1 : f = ['V']
  · subst h1
    refine ⟨[(1, 1), (2, 1)], by decide +kernel, by decide +kernel, ?_, ?_⟩
    · rw [← h]; decide +kernel
    · cases h; norm_num
  · by_cases h2 : f = ['R']
    · subst h2
      refine ⟨[(2, 1), (3, 1)], by decide +kernel, by decide +kernel, ?_, ?_⟩
      · rw [← h]; decide +kernel
      · cases h; norm_num
    · simp [dataExample, h1, h2] at h

/-- The hypotheses of `C90_grey_colours` hold for the grey template of the example. -/
example : (deltaMag dataExample (fun x => x - 1) (run dataExample (fun x => x - 1) [greyOp, convertOp]) (.template ['T'])
    ['V'] ['R']).1 = .ok 0 :=
  C90_grey_colours dataExample (mag := fun x => x - 1) (by norm_num) norms_example [greyOp, convertOp]
    (t := [((1 : ℚ), (1 : ℚ)), (3, 1)]) (k := 1) (by decide +kernel) (by decide) (by decide +kernel) (by norm_num)
    (by decide +kernel)
    (by
      intro f c h
      simp only [dataExample, List.lookup] at h
      split at h
      · cases h; decide +kernel
      · split at h
        · cases h; decide +kernel
        · cases h)
    (by decide) (by decide) (n := 3 / 2) (m := 5 / 2) (by decide +kernel) (by decide +kernel)

/-- Samples in another order are the same template. -/
example : checkTemplate ['T'] [some (3 : ℚ), some 1] [some 7, some 5] = .ok [(1, 5), (3, 7)] := by decide +kernel

end Verif.Band.Props
