import Verif.Vendor.CurveProps
import Verif.Vendor.TemplateProps
import Verif.Sched.Orbits

/-! # Colour terms of many filters: the properties -/

set_option linter.unusedSectionVars false

namespace Verif.Vendor.Props

open Verif Sched Band Band.Spec Band.Props

variable {K : Type} [Field K] [LinearOrder K] [IsStrictOrderedRing K]

/-- The filters asked for: all of them by default; neither the source nor an empty name. -/
def asked (d : Data K) (src : Str) (targets : Option (List Str)) : List Str :=
  ((targets.getD (d.filters.map Prod.fst)).filter fun t => decide (t ≠ [])).filter fun t => decide (t ≠ src)

/-- The colour term of a reflectance `r` against a reflectance `i`: a number if `r` is positive, infinity if it is zero and NaN if it is
negative or NaN itself. -/
def IsTerm (mag : K → K) (i : K) (r : Option K) (v : Term K) : Prop :=
  match r with
  | none => v = .nan
  | some x => (0 < x → v = .num (mag (x / i))) ∧ (x = 0 → v = .inf) ∧ (x < 0 → v = .nan)

theorem term_spec (mag : K → K) {i : K} (hi : 0 < i) (r : Option K) (v : Term K) : IsTerm mag i r v ↔ v = term mag i r := by
  cases r with
  | none => exact Iff.rfl
  | some x =>
    unfold IsTerm term
    simp only
    rcases lt_trichotomy x 0 with h | h | h
    · rw [if_pos (div_neg_of_neg_of_pos h hi)]
      constructor
      · intro hv; exact hv.2.2 h
      · intro hv; exact ⟨fun h' => absurd h' (not_lt.mpr h.le), fun h' => absurd h' h.ne, fun _ => hv⟩
    · subst h
      rw [zero_div, if_neg (lt_irrefl _), if_pos rfl]
      constructor
      · intro hv; exact hv.2.1 rfl
      · intro hv; exact ⟨fun h' => absurd h' (lt_irrefl _), fun _ => hv, fun h' => absurd h' (lt_irrefl _)⟩
    · rw [if_neg (not_lt.mpr (div_pos h hi).le), if_neg (div_pos h hi).ne']
      constructor
      · intro hv; exact hv.1 h
      · intro hv; exact ⟨fun _ => hv, fun h' => absurd h' h.ne', fun h' => absurd h' (not_lt.mpr h.le)⟩

theorem dict_map {V : Type} (ts : List Str) (g : Str → V) : dict (ts.zip (ts.map g)) = (uniq ts).map fun t => (t, g t) := by
  unfold dict
  rw [zip_map_self, List.map_map]
  have e1 : ts.map (Prod.fst ∘ fun a => (a, g a)) = ts := List.map_id ts
  rw [e1, ← List.map_reverse, ← zip_map_self]
  have e2 : ∀ k ∈ uniq ts, ((ts.reverse.zip (ts.reverse.map g)).lookup k).map (fun v => (k, v)) = some (k, g k) := by
    intro k hk
    rw [lookup_zip_map, if_pos (List.mem_reverse.mpr ((mem_uniq ts k).mp hk))]
    rfl
  rw [List.filterMap_congr e2]
  exact congrFun (List.filterMap_eq_map (f := fun t => (t, g t))) (uniq ts)

theorem comp_invalid {d : Data K} {s : State K (Comp K)} {comp : Comp K} (h : ¬ ValidComp comp) (fs : List Str) :
    (compIntegrals d s comp fs).1 = .error .valueError := by
  cases comp with
  | template id => exact absurd trivial h
  | mix c w =>
    change (mixIntegrals d s c w fs).1 = _
    unfold mixIntegrals
    by_cases h1 : c < 0 ∨ w < 0
    · rw [if_pos h1]
    · rw [if_neg h1, if_pos]
      push Not at h1
      by_contra h2
      exact h ⟨h1.1, h1.2, not_le.mp h2⟩

theorem colorTerms_eq {d : Data K} (mag : K → K) {s : State K (Comp K)} (hs : Coherent d s) (comp : Comp K) (src : Str)
    (targets : Option (List Str)) (out : List (Str × Term K)) :
    ((colorTerms d mag s comp src targets).1 = .ok out ↔ src ≠ [] ∧ (asked d src targets = [] ∧ out = [] ∨
      asked d src targets ≠ [] ∧ ValidComp comp ∧
      (∀ f ∈ src :: asked d src targets, (compReflectance d s.templates comp f).isSome) ∧
      ∃ i, 0 < i ∧ compReflectance d s.templates comp src = some (some i) ∧
        out = (uniq (asked d src targets)).map fun t => (t, term mag i ((compReflectance d s.templates comp t).getD none)))) ∧
    ((∀ out, (colorTerms d mag s comp src targets).1 ≠ .ok out) → (colorTerms d mag s comp src targets).1 = .error .valueError) := by
  have hask : asked d src targets = (targets.getD (d.filters.map Prod.fst)).filter fun t => decide (t ≠ [] ∧ t ≠ src) := by
    unfold asked
    rw [List.filter_filter]
    congr 1
    funext t
    by_cases h1 : t = [] <;> by_cases h2 : t = src <;> simp [h1, h2]
  unfold colorTerms
  rw [← hask]
  generalize asked d src targets = ts
  by_cases h0 : src = []
  · rw [if_pos h0]
    exact ⟨⟨fun h => (by cases h), fun h => absurd h0 h.1⟩, fun _ => rfl⟩
  rw [if_neg h0]
  simp only
  by_cases h1 : ts = []
  · rw [if_pos h1]
    refine ⟨⟨fun h => ?_, ?_⟩, fun h => absurd rfl (h [])⟩
    · cases h
      exact ⟨h0, Or.inl ⟨h1, rfl⟩⟩
    · rintro ⟨-, ⟨-, rfl⟩ | ⟨h, -⟩⟩
      · rfl
      · exact absurd h1 h
  rw [if_neg h1]
  by_cases hv : ValidComp comp
  · have hc := compIntegrals_eq hs hv (src :: ts)
    generalize compIntegrals d s comp (src :: ts) = g at hc
    obtain ⟨r, s1⟩ := g
    simp only at hc
    subst hc
    generalize compReflectance d s.templates comp = R
    unfold collect
    by_cases hall : ∀ f ∈ src :: ts, (R f).isSome
    · rw [if_pos hall]
      simp only [List.map_cons]
      obtain ⟨o, ho⟩ := Option.isSome_iff_exists.mp (hall src (by simp))
      rw [ho, Option.getD_some]
      cases o with
      | none =>
        simp only
        refine ⟨⟨fun h => (by cases h), ?_⟩, fun _ => trivial⟩
        rintro ⟨-, ⟨h, -⟩ | ⟨-, -, -, i, -, h, -⟩⟩
        · exact absurd h h1
        · cases h
      | some i =>
        simp only
        by_cases hi : i ≤ 0
        · rw [if_pos hi]
          refine ⟨⟨fun h => (by cases h), ?_⟩, fun _ => rfl⟩
          rintro ⟨-, ⟨h, -⟩ | ⟨-, -, -, j, hj, h, -⟩⟩
          · exact absurd h h1
          · cases h
            exact absurd hj (not_lt.mpr hi)
        · rw [if_neg hi]
          have e : dict (ts.zip ((ts.map fun f => (R f).getD none).map (term mag i))) =
              (uniq ts).map fun t => (t, term mag i ((R t).getD none)) := by
            rw [List.map_map]
            exact dict_map ts fun t => term mag i ((R t).getD none)
          rw [e]
          refine ⟨⟨fun h => ?_, ?_⟩, fun h => absurd rfl (h _)⟩
          · cases h
            exact ⟨h0, Or.inr ⟨h1, hv, hall, i, not_le.mp hi, rfl, rfl⟩⟩
          · rintro ⟨-, ⟨h, -⟩ | ⟨-, -, -, j, hj, h, rfl⟩⟩
            · exact absurd h h1
            · cases h
              rfl
    · rw [if_neg hall]
      simp only
      refine ⟨⟨fun h => (by cases h), ?_⟩, fun _ => trivial⟩
      rintro ⟨-, ⟨h, -⟩ | ⟨-, -, h, -⟩⟩
      · exact absurd h h1
      · exact absurd h hall
  · have hc := comp_invalid (d := d) (s := s) hv (src :: ts)
    generalize compIntegrals d s comp (src :: ts) = g at hc
    obtain ⟨r, s1⟩ := g
    simp only at hc
    subst hc
    simp only
    refine ⟨⟨fun h => (by cases h), ?_⟩, fun _ => trivial⟩
    rintro ⟨-, ⟨h, -⟩ | ⟨-, h, -⟩⟩
    · exact absurd h h1
    · exact absurd h hv

/-- `bandpass_color_terms` answers for the templates registered last: one entry for each distinct filter asked for other than the source,
in the order asked. It is refused (ValueError) for an empty source, and, if a filter is left, for weights that make no mix, for a filter
or template that is not known and for a source whose reflectance is not a positive number. -/
theorem C158_terms (d : Data K) (mag : K → K) (ops : List (Op K)) (comp : Comp K) (src : Str) (targets : Option (List Str)) :
    (∀ out, (colorTerms d mag (run d mag ops) comp src targets).1 = .ok out →
      (out.map Prod.fst).Nodup ∧ (∀ t, t ∈ out.map Prod.fst ↔ t ∈ targets.getD (d.filters.map Prod.fst) ∧ t ≠ [] ∧ t ≠ src) ∧
      ∀ t v, (t, v) ∈ out → ∃ i r, 0 < i ∧ compReflectance d (lastRegistered ops) comp src = some (some i) ∧
        compReflectance d (lastRegistered ops) comp t = some r ∧ IsTerm mag i r v) ∧
    ((∃ out, (colorTerms d mag (run d mag ops) comp src targets).1 = .ok out) ↔
      src ≠ [] ∧ ((∃ t ∈ targets.getD (d.filters.map Prod.fst), t ≠ [] ∧ t ≠ src) → ValidComp comp ∧
        (∃ i, 0 < i ∧ compReflectance d (lastRegistered ops) comp src = some (some i)) ∧
        ∀ t ∈ targets.getD (d.filters.map Prod.fst), t ≠ [] → t ≠ src → (compReflectance d (lastRegistered ops) comp t).isSome)) ∧
    ∀ e, (colorTerms d mag (run d mag ops) comp src targets).1 = .error e → e = .valueError := by
  have hT : (run d mag ops).templates = lastRegistered ops := funext (run_templates d mag ops)
  have key := fun out => colorTerms_eq mag (run_coherent d mag ops) comp src targets out
  rw [hT] at key
  have hmem : ∀ t, t ∈ asked d src targets ↔ t ∈ targets.getD (d.filters.map Prod.fst) ∧ t ≠ [] ∧ t ≠ src := by
    intro t
    unfold asked
    rw [List.mem_filter, List.mem_filter, decide_eq_true_eq, decide_eq_true_eq, and_assoc]
  have hnil : asked d src targets ≠ [] ↔ ∃ t ∈ targets.getD (d.filters.map Prod.fst), t ≠ [] ∧ t ≠ src := by
    constructor
    · intro h
      obtain ⟨t, ht⟩ := List.exists_mem_of_ne_nil _ h
      exact ⟨t, (hmem t).mp ht⟩
    · rintro ⟨t, ht⟩ h
      have := (hmem t).mpr ht
      rw [h] at this
      cases this
  refine ⟨?_, ?_, ?_⟩
  · intro out hout
    obtain ⟨-, ⟨hn, rfl⟩ | ⟨hn, -, hall, i, hi, hsrc, rfl⟩⟩ := (key out).1.mp hout
    · refine ⟨List.nodup_nil, ?_, ?_⟩
      · intro t
        rw [← hmem, hn]
        simp
      · intro t v h
        cases h
    · have e : ((uniq (asked d src targets)).map fun t => (t, term mag i ((compReflectance d (lastRegistered ops) comp t).getD none))).map
          Prod.fst = uniq (asked d src targets) := by
        rw [List.map_map]
        exact List.map_id _
      refine ⟨by rw [e]; exact nodup_uniq _, ?_, ?_⟩
      · intro t
        rw [e, mem_uniq, hmem]
      · intro t v h
        obtain ⟨t', ht', he⟩ := List.mem_map.mp h
        cases he
        obtain ⟨r, hr⟩ := Option.isSome_iff_exists.mp (hall t (List.mem_cons_of_mem _ ((mem_uniq _ _).mp ht')))
        refine ⟨i, r, hi, hsrc, hr, ?_⟩
        rw [hr, Option.getD_some, term_spec mag hi]
  · constructor
    · rintro ⟨out, hout⟩
      obtain ⟨h0, ⟨hn, rfl⟩ | ⟨hn, hv, hall, i, hi, hsrc, rfl⟩⟩ := (key out).1.mp hout
      · refine ⟨h0, fun h => ?_⟩
        exact absurd hn (hnil.mpr h)
      · refine ⟨h0, fun _ => ⟨hv, ⟨i, hi, hsrc⟩, ?_⟩⟩
        intro t ht h1 h2
        exact hall t (List.mem_cons_of_mem _ ((hmem t).mpr ⟨ht, h1, h2⟩))
    · rintro ⟨h0, h⟩
      by_cases hn : asked d src targets = []
      · exact ⟨[], (key []).1.mpr ⟨h0, Or.inl ⟨hn, rfl⟩⟩⟩
      · obtain ⟨hv, ⟨i, hi, hsrc⟩, hall⟩ := h (hnil.mp hn)
        refine ⟨_, (key _).1.mpr ⟨h0, Or.inr ⟨hn, hv, ?_, i, hi, hsrc, rfl⟩⟩⟩
        intro f hf
        rcases List.mem_cons.mp hf with rfl | hf
        · rw [hsrc]
          rfl
        · obtain ⟨h1, h2, h3⟩ := (hmem f).mp hf
          exact hall f h1 h2 h3
  · intro e he
    have := (key []).2 (by intro out h; rw [he] at h; cases h)
    rw [he] at this
    cases this
    rfl

theorem deltaMag_eq {d : Data K} (mag : K → K) {s : State K (Comp K)} (hs : Coherent d s) {comp : Comp K} (hv : ValidComp comp)
    {src tgt : Str} (h1 : src ≠ []) (h2 : tgt ≠ []) (h3 : tgt ≠ src) {a b : Option K}
    (ha : compReflectance d s.templates comp src = some a) (hb : compReflectance d s.templates comp tgt = some b) (x : K) :
    (deltaMag d mag s comp src tgt).1 = .ok x ↔ ∃ i r, a = some i ∧ b = some r ∧ 0 < i ∧ 0 < r ∧ x = mag (r / i) := by
  unfold deltaMag
  rw [if_neg (by push Not; exact ⟨h1, h2⟩), if_neg (fun h => h3 h.symm)]
  have hc := compIntegrals_eq hs hv [src, tgt]
  generalize compIntegrals d s comp [src, tgt] = g at hc
  obtain ⟨r, s1⟩ := g
  simp only at hc
  subst hc
  unfold collect
  rw [if_pos]
  · simp only [List.map_cons, List.map_nil, ha, hb, Option.getD_some]
    cases a with
    | none =>
      constructor
      · intro h; cases b <;> cases h
      · rintro ⟨i, r, h, -⟩; cases h
    | some i =>
      cases b with
      | none =>
        constructor
        · intro h; cases h
        · rintro ⟨i, r, -, h, -⟩; cases h
      | some r =>
        simp only
        by_cases hp : i ≤ 0 ∨ r ≤ 0
        · rw [if_pos hp]
          constructor
          · intro h; cases h
          · rintro ⟨i', r', h4, h5, h6, h7, -⟩
            cases h4
            cases h5
            rcases hp with hp | hp
            · exact absurd h6 (not_lt.mpr hp)
            · exact absurd h7 (not_lt.mpr hp)
        · rw [if_neg hp]
          push Not at hp
          constructor
          · intro h
            cases h
            exact ⟨i, r, rfl, rfl, hp.1, hp.2, rfl⟩
          · rintro ⟨i', r', h4, h5, -, -, rfl⟩
            cases h4
            cases h5
            rfl
  · intro f hf
    rcases List.mem_cons.mp hf with rfl | hf
    · rw [ha]; rfl
    · rw [List.mem_singleton.mp hf, hb]; rfl

/-- Entry by entry, `bandpass_color_terms` says what `bandpass_delta_mag` says: a number where that gives this number, and infinity or NaN
where that raises. -/
theorem C158_delta_mag (d : Data K) (mag : K → K) (ops : List (Op K)) {comp : Comp K} {src : Str} {targets : Option (List Str)}
    {out : List (Str × Term K)} (h : (colorTerms d mag (run d mag ops) comp src targets).1 = .ok out) {t : Str} {v : Term K}
    (ht : (t, v) ∈ out) (x : K) : v = .num x ↔ (deltaMag d mag (run d mag ops) comp src t).1 = .ok x := by
  have hT : (run d mag ops).templates = lastRegistered ops := funext (run_templates d mag ops)
  obtain ⟨hA, hB, -⟩ := C158_terms d mag ops comp src targets
  obtain ⟨-, hkeys, hvals⟩ := hA out h
  obtain ⟨i, r, hi, hsrc, hr, hv⟩ := hvals t v ht
  obtain ⟨ht1, ht2, ht3⟩ := (hkeys t).mp (List.mem_map.mpr ⟨(t, v), ht, rfl⟩)
  obtain ⟨h0, himp⟩ := hB.mp ⟨out, h⟩
  obtain ⟨hcomp, -⟩ := himp ⟨t, ht1, ht2, ht3⟩
  rw [deltaMag_eq mag (run_coherent d mag ops) hcomp h0 ht2 ht3 (by rw [hT]; exact hsrc) (by rw [hT]; exact hr)]
  rw [term_spec mag hi] at hv
  rw [hv]
  cases r with
  | none =>
    constructor
    · intro h'; cases h'
    · rintro ⟨i', r', -, h', -⟩; cases h'
  | some r =>
    unfold term
    simp only
    constructor
    · intro h'
      split at h'
      · cases h'
      split at h'
      · cases h'
      rename_i h4 h5
      cases h'
      refine ⟨i, r, rfl, rfl, hi, ?_, rfl⟩
      have : 0 < r / i := lt_of_le_of_ne (not_lt.mp h4) (Ne.symm h5)
      rwa [div_pos_iff_of_pos_right hi] at this
    · rintro ⟨i', r', h4, h5, -, h7, rfl⟩
      cases h4
      cases h5
      have := div_pos h7 hi
      rw [if_neg (not_lt.mpr this.le), if_neg this.ne']

/-- A source or a template that is not known is not always refused: without other targets the answer is an empty dictionary. -/
theorem C158_unknown_false :
    ¬ ∀ (d : Data ℚ) (mag : ℚ → ℚ) (ops : List (Op ℚ)) (comp : Comp ℚ) (src : Str) (targets : Option (List Str)),
      compReflectance d (lastRegistered ops) comp src = none → ∃ e, (colorTerms d mag (run d mag ops) comp src targets).1 = .error e := by
  intro h
  obtain ⟨e, he⟩ := h dataExample id [] (.template ['X']) ['Q'] (some [['Q']]) (by decide +kernel)
  cases he

/-- Changing the source: the colour terms against another source are those against the first one, minus the term of the other. -/
theorem C158_source (d : Data ℝ) (ops : List (Op ℝ)) {comp : Comp ℝ} {src src' : Str} {targets targets' : Option (List Str)}
    {out out' : List (Str × Term ℝ)} (h : (colorTerms d mag10 (run d mag10 ops) comp src targets).1 = .ok out)
    (h' : (colorTerms d mag10 (run d mag10 ops) comp src' targets').1 = .ok out') {t : Str} {a b : ℝ} {v : Term ℝ}
    (ha : (t, .num a) ∈ out) (hb : (src', .num b) ∈ out) (hv : (t, v) ∈ out') : v = .num (a - b) := by
  obtain ⟨-, -, h1⟩ := (C158_terms d mag10 ops comp src targets).1 out h
  obtain ⟨-, -, h2⟩ := (C158_terms d mag10 ops comp src' targets').1 out' h'
  obtain ⟨i, r, hi, hsrc, hr, hrv⟩ := h1 t _ ha
  obtain ⟨i', r', hi', hsrc', hr', hrv'⟩ := h1 src' _ hb
  obtain ⟨j, q, hj, hj', hq, hqv⟩ := h2 t v hv
  rw [hsrc] at hsrc'
  cases hsrc'
  rw [hr'] at hj'
  cases hj'
  rw [hr] at hq
  cases hq
  have pos : ∀ (r : Option ℝ) (i x : ℝ), IsTerm mag10 i r (.num x) → ∃ y, r = some y ∧ 0 < y ∧ x = mag10 (y / i) := by
    intro r i x hx
    cases r with
    | none => cases hx
    | some y =>
      rcases lt_trichotomy y 0 with hy | hy | hy
      · have := hx.2.2 hy; cases this
      · have := hx.2.1 hy; cases this
      · have := hx.1 hy
        cases this
        exact ⟨y, rfl, hy, rfl⟩
  obtain ⟨y, rfl, hy, rfl⟩ := pos r i a hrv
  obtain ⟨y', hy', -, rfl⟩ := pos (some j) i b hrv'
  cases hy'
  rw [hqv.1 hy]
  congr 1
  rw [mag10_div hy hj, mag10_div hy hi, mag10_div hj hi]
  ring

/-- A case: two filters, and a template registered by the user. -/
example : (colorTerms dataExample (fun x => x) (run dataExample (fun x => x) [redOp]) (.template ['T']) ['V'] none).1 =
    .ok [(['R'], .num (11 / 5))] := by decide +kernel

end Verif.Vendor.Props
