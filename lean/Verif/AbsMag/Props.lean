import Verif.AbsMag.Rows
import Verif.AbsMag.FitProps

/-! # Absolute magnitudes from detections (C72, C92) -/

namespace Verif.AbsMag.Props

open Verif Band Hg Sched Hg.Props

variable {T : Type}

/-- A row of the input: the object it belongs to, the detection, and where the object was. -/
abbrev Row := Option Str × Detection × Pos

/-- A row that the forward model accepts: its exposure is in the table, the band of the exposure is resolved to a filter with
a curve, the observatory is known, and the object is neither at the Sun nor at the observer. -/
def Fine (W : World T) (exps : List (Exposure T)) (strict : Bool) (r : Row) : Prop :=
  ∃ e f p q, exps.find? (fun e => decide (some e.id = r.2.1.exposureId)) = some e ∧
    Band.Spec.Answer W.tables (!strict) (some e.code) (some e.filter) f ∧ f ∈ W.tables.curves ∧
    f ∈ W.data.filters.map Prod.fst ∧ W.site e.code e.midpoint = .ok (some q) ∧ r.2.2 = some p ∧
    GoodRow (some p) (some q)

/-- The single-object estimator on some rows. -/
noncomputable def single (W : World T) (s : State ℝ (Comp ℝ)) (R : List Row) (exps : List (Exposure T)) (origins : List Str)
    (frame : Str) (comp : Comp ℝ) (G : Option ℝ) (strict : Bool) (reference : Str) : Except PyErr Fit :=
  (estimate W s (R.map fun r => r.2.1) exps ⟨origins, frame, R.map fun r => r.2.2⟩ comp G strict reference).1

/-- The grouped estimator on some rows. -/
noncomputable def grouped (W : World T) (s : State ℝ (Comp ℝ)) (R : List Row) (exps : List (Exposure T)) (origins : List Str)
    (frame : Str) (comp : Comp ℝ) (G : Option ℝ) (strict : Bool) (reference : Str) : Except PyErr (List (Str × Fit)) :=
  (estimateGrouped W s (R.map fun r => r.2.1) exps ⟨origins, frame, R.map fun r => r.2.2⟩ (R.map Prod.fst) comp G strict
    reference).1

/-- The rows of one object. -/
def rowsOf (x : Str) (R : List Row) : List Row := R.filter fun r => decide (r.1 = some x)

open Classical in
/-- The predicted magnitude of a row. -/
noncomputable def val (W : World T) (t : List (Option ℝ)) (exps : List (Exposure T)) (H0 : ℝ) (G : Option ℝ) (strict : Bool)
    (r : Row) : Num :=
  if h : ∃ v, RowVal W t exps H0 G strict r.2 v then h.choose else .nan

theorem val_spec {W : World T} {t : List (Option ℝ)} {exps : List (Exposure T)} {H0 : ℝ} {G : Option ℝ} {strict : Bool}
    {r : Row} {v : Num} (h : RowVal W t exps H0 G strict r.2 v) : val W t exps H0 G strict r = v := by
  have hex : ∃ v, RowVal W t exps H0 G strict r.2 v := ⟨v, h⟩
  unfold val
  rw [dif_pos hex]
  exact rowVal_unique hex.choose_spec h

theorem fine_iff {W : World T} (t : List (Option ℝ)) {exps : List (Exposure T)} (H0 : ℝ) (G : Option ℝ) {strict : Bool}
    {r : Row} : Fine W exps strict r ↔ RowVal W t exps H0 G strict r.2 (val W t exps H0 G strict r) := by
  constructor
  · rintro ⟨e, f, p, q, h1, h2, h3, h4, h5, h6, h7⟩
    have : RowVal W t exps H0 G strict r.2 ((magRow (some H0) G p q).plusDelta ((deltaOf W.data t f).getD none)) :=
      ⟨e, f, p, q, h1, h2, h3, h4, h5, h6, h7, rfl⟩
    rw [val_spec this]
    exact this
  · rintro ⟨e, f, p, q, h1, h2, h3, h4, h5, h6, h7, -⟩
    exact ⟨e, f, p, q, h1, h2, h3, h4, h5, h6, h7⟩

theorem forward_rows {W : World T} {s : State ℝ (Comp ℝ)} {R : List Row} {exps : List (Exposure T)} {origins : List Str}
    {frame : Str} {comp : Comp ℝ} {H0 : ℝ} {G : Option ℝ} {strict : Bool} {out : List Num} :
    (forwardAt H0 W s (R.map fun r => r.2.1) exps ⟨origins, frame, R.map fun r => r.2.2⟩ comp G strict).1 = .ok out ↔
      ['V'] ∈ W.data.filters.map Prod.fst ∧ ∃ t, (deltaTable W.data mag s comp).1 = .ok t ∧
        (∀ r ∈ R, Fine W exps strict r) ∧ out = R.map (val W t exps H0 G strict) := by
  rw [forward_ok (by simp)]
  have hz : (R.map fun r => r.2.1).zip (R.map fun r => r.2.2) = R.map Prod.snd := by
    rw [List.zip_map']
  simp only [hz]
  refine and_congr_right fun _ => exists_congr fun t => and_congr_right fun _ => ?_
  clear hz
  induction R generalizing out with
  | nil =>
    constructor
    · intro h; cases h; exact ⟨by simp, rfl⟩
    · rintro ⟨-, rfl⟩; exact List.Forall₂.nil
  | cons r R ih =>
    simp only [List.map_cons, List.forall_mem_cons]
    constructor
    · intro h
      cases h with
      | cons h1 h2 =>
        obtain ⟨h3, rfl⟩ := ih.mp h2
        have := val_spec h1
        refine ⟨⟨(fine_iff t H0 G).mpr (this ▸ h1), h3⟩, by rw [this]⟩
    · rintro ⟨⟨h1, h2⟩, rfl⟩
      exact List.Forall₂.cons ((fine_iff t H0 G).mp h1) (ih.mpr ⟨h2, rfl⟩)

/-- The rows that reach the fit. -/
noncomputable def kept (W : World T) (t : List (Option ℝ)) (exps : List (Exposure T)) (G : Option ℝ) (strict : Bool)
    (R : List Row) : Rows :=
  R.filterMap fun r => usable r.2.1 (val W t exps 0 G strict r)

theorem zip_kept {W : World T} {t : List (Option ℝ)} {exps : List (Exposure T)} {G : Option ℝ} {strict : Bool} (R : List Row) :
    (List.zipWith usable (R.map fun r => r.2.1) (R.map (val W t exps 0 G strict))).filterMap id = kept W t exps G strict R := by
  rw [zipWith_maps, List.filterMap_map]
  rfl

theorem single_ok {W : World T} {s : State ℝ (Comp ℝ)} {R : List Row} {exps : List (Exposure T)} {origins : List Str}
    {frame : Str} {comp : Comp ℝ} {G : Option ℝ} {strict : Bool} {reference : Str} {fit : Fit} :
    single W s R exps origins frame comp G strict reference = .ok fit ↔
      reference = ['V'] ∧ ['V'] ∈ W.data.filters.map Prod.fst ∧ ∃ t, (deltaTable W.data mag s comp).1 = .ok t ∧
        (∀ r ∈ R, Fine W exps strict r) ∧ fitRows (kept W t exps G strict R) = .ok fit := by
  unfold single estimate
  by_cases hr : reference = ['V']
  swap
  · rw [if_pos hr]
    exact ⟨fun h => (by cases h), fun h => absurd h.1 hr⟩
  rw [if_neg (by simpa using hr)]
  by_cases h0 : R = []
  · subst h0
    rw [if_pos (show List.map (fun r : Row => r.2.1) [] = [] from rfl)]
    refine ⟨fun h => (by cases h), ?_⟩
    rintro ⟨-, -, t, -, -, h⟩
    rw [kept, List.filterMap_nil, fitRows_eq, if_pos rfl] at h
    cases h
  rw [if_neg (by simpa using h0), if_neg (by simp)]
  have hf := fun out => forward_rows (out := out) (W := W) (s := s) (R := R) (exps := exps) (origins := origins) (frame := frame) (comp := comp)
    (H0 := 0) (G := G) (strict := strict)
  change ∀ out, (forward W s _ exps _ comp G strict).1 = .ok out ↔ _ at hf
  generalize forward W s (R.map fun r => r.2.1) exps ⟨origins, frame, R.map fun r => r.2.2⟩ comp G strict = F at hf ⊢
  obtain ⟨F, s1⟩ := F
  cases F with
  | error e =>
    simp only
    refine ⟨fun h => (by cases h), ?_⟩
    rintro ⟨-, hV, t, ht, hR, -⟩
    have := (hf _).mpr ⟨hV, t, ht, hR, rfl⟩
    cases this
  | ok m0 =>
    obtain ⟨hV, t, ht, hR, rfl⟩ := (hf _).mp rfl
    simp only [zip_kept]
    have hiff : ((if kept W t exps G strict R = [] then ((.error .valueError : Except PyErr Fit), s1)
        else (fitRows (kept W t exps G strict R), s1)).1 = .ok fit) ↔ fitRows (kept W t exps G strict R) = .ok fit := by
      split
      · rename_i he
        rw [he, fitRows_eq, if_pos rfl]
      · rfl
    rw [hiff]
    constructor
    · intro h
      exact ⟨hr, hV, t, ht, hR, h⟩
    · rintro ⟨-, -, t', ht', -, h⟩
      rw [ht] at ht'
      cases ht'
      exact h

/-- The id with the kept row. -/
noncomputable def keptOf (W : World T) (t : List (Option ℝ)) (exps : List (Exposure T)) (G : Option ℝ) (strict : Bool)
    (R : List Row) : List (Str × ℝ × Option ℝ) :=
  R.filterMap fun r => usableOf (r.1, r.2.1) (val W t exps 0 G strict r)

theorem zip_keptOf {W : World T} {t : List (Option ℝ)} {exps : List (Exposure T)} {G : Option ℝ} {strict : Bool} (R : List Row) :
    (List.zipWith usableOf ((R.map Prod.fst).zip (R.map fun r => r.2.1)) (R.map (val W t exps 0 G strict))).filterMap id
      = keptOf W t exps G strict R := by
  rw [List.zip_map', zipWith_maps, List.filterMap_map]
  rfl

theorem keptOf_filter {W : World T} {t : List (Option ℝ)} {exps : List (Exposure T)} {G : Option ℝ} {strict : Bool} (x : Str)
    (R : List Row) : ((keptOf W t exps G strict R).filter fun r => decide (r.1 = x)).map Prod.snd
      = kept W t exps G strict (rowsOf x R) := by
  unfold keptOf kept rowsOf
  induction R with
  | nil => rfl
  | cons r R ih =>
    obtain ⟨k, d, p⟩ := r
    simp only [List.filterMap_cons, List.filter_cons]
    cases k with
    | none =>
      have : usableOf (none, d) (val W t exps 0 G strict (none, d, p)) = none := rfl
      rw [this]
      simpa using ih
    | some k =>
      cases hu : usable d (val W t exps 0 G strict (some k, d, p)) with
      | none =>
        have : usableOf (some k, d) (val W t exps 0 G strict (some k, d, p)) = none := by
          unfold usableOf; simp only [hu]
        rw [this]
        by_cases hk : k = x
        · subst hk
          simpa [List.filterMap_cons, hu] using ih
        · simpa [hk] using ih
      | some u =>
        have : usableOf (some k, d) (val W t exps 0 G strict (some k, d, p)) = some (k, u) := by
          unfold usableOf; simp only [hu]
        rw [this]
        by_cases hk : k = x
        · subst hk
          simpa [List.filterMap_cons, hu] using ih
        · simpa [hk] using ih

theorem grouped_ok {W : World T} {s : State ℝ (Comp ℝ)} {R : List Row} {exps : List (Exposure T)} {origins : List Str}
    {frame : Str} {comp : Comp ℝ} {G : Option ℝ} {strict : Bool} {reference : Str} {table : List (Str × Fit)} :
    grouped W s R exps origins frame comp G strict reference = .ok table ↔
      reference = ['V'] ∧ (R = [] ∧ table = [] ∨ R ≠ [] ∧ ['V'] ∈ W.data.filters.map Prod.fst ∧
        ∃ t, (deltaTable W.data mag s comp).1 = .ok t ∧ (∀ r ∈ R, Fine W exps strict r) ∧
          table = (runs (sortBy Prod.fst (keptOf W t exps G strict R))).filterMap fitGroup) := by
  unfold grouped estimateGrouped
  by_cases hr : reference = ['V']
  swap
  · rw [if_pos hr]
    exact ⟨fun h => (by cases h), fun h => absurd h.1 hr⟩
  rw [if_neg (by simpa using hr)]
  by_cases h0 : R = []
  · subst h0
    rw [if_pos (show List.map (fun r : Row => r.2.1) [] = [] from rfl)]
    constructor
    · intro h; cases h; exact ⟨hr, .inl ⟨rfl, rfl⟩⟩
    · rintro ⟨-, ⟨-, rfl⟩ | ⟨h, -⟩⟩
      · rfl
      · exact absurd rfl h
  rw [if_neg (by simpa using h0), if_neg (by simp), if_neg (by simp)]
  have hf := fun out => forward_rows (out := out) (W := W) (s := s) (R := R) (exps := exps) (origins := origins) (frame := frame) (comp := comp)
    (H0 := 0) (G := G) (strict := strict)
  change ∀ out, (forward W s _ exps _ comp G strict).1 = .ok out ↔ _ at hf
  generalize forward W s (R.map fun r => r.2.1) exps ⟨origins, frame, R.map fun r => r.2.2⟩ comp G strict = F at hf ⊢
  obtain ⟨F, s1⟩ := F
  cases F with
  | error e =>
    simp only
    refine ⟨fun h => (by cases h), ?_⟩
    rintro ⟨-, ⟨h, -⟩ | ⟨-, hV, t, ht, hR, -⟩⟩
    · exact absurd h h0
    have := (hf _).mpr ⟨hV, t, ht, hR, rfl⟩
    cases this
  | ok m0 =>
    obtain ⟨hV, t, ht, hR, rfl⟩ := (hf _).mp rfl
    simp only [zip_keptOf]
    have hiff : ((if keptOf W t exps G strict R = [] then ((.ok [] : Except PyErr (List (Str × Fit))), s1)
        else (.ok ((runs (sortBy Prod.fst (keptOf W t exps G strict R))).filterMap fitGroup), s1)).1)
        = .ok ((runs (sortBy Prod.fst (keptOf W t exps G strict R))).filterMap fitGroup) := by
      split
      · rename_i he
        rw [he]
        have : sortBy (α := Str × ℝ × Option ℝ) Prod.fst [] = [] := rfl
        rw [this, runs]
        rfl
      · rfl
    rw [hiff]
    constructor
    · intro h
      cases h
      exact ⟨hr, .inr ⟨h0, hV, t, ht, hR, rfl⟩⟩
    · rintro ⟨-, ⟨h, -⟩ | ⟨-, -, t', ht', -, rfl⟩⟩
      · exact absurd h h0
      rw [ht] at ht'
      cases ht'
      rfl

theorem mem_table {W : World T} {t : List (Option ℝ)} {exps : List (Exposure T)} {G : Option ℝ} {strict : Bool} {R : List Row}
    (x : Str) (fit : Fit) :
    (x, fit) ∈ (runs (sortBy Prod.fst (keptOf W t exps G strict R))).filterMap fitGroup ↔
      fitRows (kept W t exps G strict (rowsOf x R)) = .ok fit := by
  have hs := (runs_spec _ _ le_rfl (sortBy_sorted Prod.fst (keptOf W t exps G strict R))).2
  rw [List.mem_filterMap]
  constructor
  · rintro ⟨⟨k, g⟩, hm, hg⟩
    unfold fitGroup at hg
    cases hf : fitRows g with
    | error e => simp only [hf] at hg; cases hg
    | ok f =>
      simp only [hf, Option.some.injEq, Prod.mk.injEq] at hg
      obtain ⟨rfl, rfl⟩ := hg
      obtain ⟨-, rfl⟩ := (hs k g).mp hm
      rw [sortBy_filter, keptOf_filter] at hf
      exact hf
  · intro h
    have hne := ((C92_accepts _).2.mp ⟨fit, h⟩).1
    refine ⟨(x, kept W t exps G strict (rowsOf x R)), (hs _ _).mpr ⟨hne, ?_⟩, ?_⟩
    · rw [sortBy_filter, keptOf_filter]
    · unfold fitGroup
      simp only [h]

theorem pairwise_table {l : List (Str × List (ℝ × Option ℝ))} (h : l.Pairwise fun a b => a.1 < b.1) :
    (l.filterMap fitGroup).Pairwise fun a b => a.1 < b.1 := by
  rw [List.pairwise_filterMap]
  apply h.imp
  intro a b hab a' ha b' hb
  have key : ∀ (g : Str × List (ℝ × Option ℝ)) (r : Str × Fit), fitGroup g = some r → r.1 = g.1 := by
    intro g r hr
    unfold fitGroup at hr
    cases hf : fitRows g.2 with
    | error e => simp only [hf] at hr; cases hr
    | ok f => simp only [hf, Option.some.injEq] at hr; rw [← hr]
  rw [key a a' ha, key b b' hb]
  exact hab

/-- Whenever the grouped estimator returns, its ids are strictly increasing and each object has the estimate the single-object
estimator gives on the rows of that object alone; an object without an estimate there has none here. Rows of other objects,
rows without an object, their order and the labels of the positions do not matter. -/
theorem C72_grouped {W : World T} {s : State ℝ (Comp ℝ)} {R : List Row} {exps : List (Exposure T)} {origins : List Str}
    {frame : Str} {comp : Comp ℝ} {G : Option ℝ} {strict : Bool} {reference : Str} {table : List (Str × Fit)}
    (h : grouped W s R exps origins frame comp G strict reference = .ok table) (origins' : List Str) (frame' : Str) :
    table.Pairwise (fun a b => a.1 < b.1) ∧
    ∀ x fit, (x, fit) ∈ table ↔ single W s (rowsOf x R) exps origins' frame' comp G strict reference = .ok fit := by
  obtain ⟨hr, ⟨rfl, rfl⟩ | ⟨h0, hV, t, ht, hR, rfl⟩⟩ := grouped_ok.mp h
  · refine ⟨List.Pairwise.nil, fun x fit => ⟨fun h => (by cases h), fun h => ?_⟩⟩
    obtain ⟨-, -, t, -, -, h⟩ := single_ok.mp h
    rw [rowsOf, List.filter_nil, kept, List.filterMap_nil, fitRows_eq, if_pos rfl] at h
    cases h
  · refine ⟨pairwise_table (runs_spec _ _ le_rfl (sortBy_sorted Prod.fst _)).1, fun x fit => ?_⟩
    rw [mem_table, single_ok]
    constructor
    · intro h
      exact ⟨hr, hV, t, ht, fun r hr => hR r (List.mem_filter.mp hr).1, h⟩
    · rintro ⟨-, -, t', ht', -, h⟩
      rw [ht] at ht'
      cases ht'
      exact h

/-- Two calls with the same rows in another order give the same table, or both raise. -/
theorem C72_order {W : World T} {s : State ℝ (Comp ℝ)} {R R' : List Row} (hp : R.Perm R') (exps : List (Exposure T))
    (origins origins' : List Str) (frame frame' : Str) (comp : Comp ℝ) (G : Option ℝ) (strict : Bool) (reference : Str)
    (table : List (Str × Fit)) : grouped W s R exps origins frame comp G strict reference = .ok table ↔
      grouped W s R' exps origins' frame' comp G strict reference = .ok table := by
  have key : ∀ {R R' : List Row} (_ : R.Perm R') {t : List (Option ℝ)},
      (runs (sortBy Prod.fst (keptOf W t exps G strict R))).filterMap fitGroup
        = (runs (sortBy Prod.fst (keptOf W t exps G strict R'))).filterMap fitGroup := by
    intro R R' hp t
    have p1 := pairwise_table (runs_spec _ _ le_rfl (sortBy_sorted Prod.fst (keptOf W t exps G strict R))).1
    have p2 := pairwise_table (runs_spec _ _ le_rfl (sortBy_sorted Prod.fst (keptOf W t exps G strict R'))).1
    have hperm : ((runs (sortBy Prod.fst (keptOf W t exps G strict R))).filterMap fitGroup).Perm
        ((runs (sortBy Prod.fst (keptOf W t exps G strict R'))).filterMap fitGroup) := by
      apply (List.perm_ext_iff_of_nodup ?_ ?_).mpr
      · rintro ⟨x, fit⟩
        rw [mem_table, mem_table]
        have : (kept W t exps G strict (rowsOf x R)).Perm (kept W t exps G strict (rowsOf x R')) :=
          (hp.filter _).filterMap _
        rw [fitRows_perm this]
      · exact p1.imp fun h e => by subst e; exact lt_irrefl _ h
      · exact p2.imp fun h e => by subst e; exact lt_irrefl _ h
    exact hperm.eq_of_pairwise (le := fun a b : Str × Fit => a.1 < b.1)
      (fun a b _ _ h1 h2 => absurd h1 (lt_asymm h2)) p1 p2
  rw [grouped_ok, grouped_ok]
  have e0 : R = [] ↔ R' = [] := ⟨fun e => by subst e; exact hp.nil_eq.symm, fun e => by subst e; exact hp.eq_nil⟩
  simp only [e0, ne_eq, hp.mem_iff, key hp]

/-- The call is all or nothing: it returns exactly when every row is fine, whether it has an object, a magnitude or not. One
row of another object with an unknown exposure, band or observatory makes it raise. -/
theorem C72_accepts {W : World T} {s : State ℝ (Comp ℝ)} {R : List Row} {exps : List (Exposure T)} {origins : List Str}
    {frame : Str} {comp : Comp ℝ} {G : Option ℝ} {strict : Bool} {reference : Str} (h0 : R ≠ []) :
    (∃ table, grouped W s R exps origins frame comp G strict reference = .ok table) ↔
      reference = ['V'] ∧ ['V'] ∈ W.data.filters.map Prod.fst ∧ (∃ t, (deltaTable W.data mag s comp).1 = .ok t) ∧
        ∀ r ∈ R, Fine W exps strict r := by
  constructor
  · rintro ⟨table, h⟩
    obtain ⟨hr, ⟨h, -⟩ | ⟨-, hV, t, ht, hR, -⟩⟩ := grouped_ok.mp h
    · exact absurd h h0
    · exact ⟨hr, hV, ⟨t, ht⟩, hR⟩
  · rintro ⟨hr, hV, ⟨t, ht⟩, hR⟩
    exact ⟨_, grouped_ok.mpr ⟨hr, .inr ⟨h0, hV, t, ht, hR, rfl⟩⟩⟩

/-- An object is left out exactly when the single-object estimator would raise for lack of usable rows or for a zero
uncertainty; that error is not reported. -/
theorem C72_left_out {W : World T} {s : State ℝ (Comp ℝ)} {R : List Row} {exps : List (Exposure T)} {origins : List Str}
    {frame : Str} {comp : Comp ℝ} {G : Option ℝ} {strict : Bool} {reference : Str} {table : List (Str × Fit)}
    (h : grouped W s R exps origins frame comp G strict reference = .ok table) (x : Str) :
    (∀ fit, (x, fit) ∉ table) ↔ ∃ e, single W s (rowsOf x R) exps origins frame comp G strict reference = .error e := by
  have hm := (C72_grouped h origins frame).2 x
  cases hs : single W s (rowsOf x R) exps origins frame comp G strict reference with
  | error e =>
    refine ⟨fun _ => ⟨e, rfl⟩, fun _ fit hf => ?_⟩
    rw [hm, hs] at hf
    cases hf
  | ok f =>
    refine ⟨fun h => absurd ((hm f).mpr hs) (h f), ?_⟩
    rintro ⟨e, he⟩
    cases he

theorem plus_shift {a b : Num} {d : Option ℝ} {H0 m : ℝ} (h : a.plusDelta d = .fin m)
    (hab : ∀ x, a = .fin x → b = .fin (x - H0)) : b.plusDelta d = .fin (m - H0) := by
  cases a with
  | inf => cases d <;> cases h
  | nan => cases d <;> cases h
  | fin x =>
    cases d with
    | none => cases h
    | some d =>
      rw [hab x rfl]
      simp only [Num.plusDelta, Num.fin.injEq] at h ⊢
      linarith

theorem magRow_shift {G : Option ℝ} {p q : V3} {H0 x : ℝ} (h : magRow (some H0) G p q = .fin x) :
    magRow (some 0) G p q = .fin (x - H0) := by
  cases G with
  | none => cases h
  | some G =>
    unfold magRow at h ⊢
    simp only at h ⊢
    cases hc : correctionFromCos (cosPhase p q) G with
    | inf => rw [hc] at h; cases h
    | nan => rw [hc] at h; cases h
    | fin c =>
      rw [hc] at h
      simp only [Num.addLeft, Num.fin.injEq] at h ⊢
      linarith

/-- The estimator inverts the prediction. If every magnitude is missing or is the one predicted for absolute magnitude `H0`,
whatever filters, observatories and geometries are mixed, then an estimate is `H0`, with no scatter and no chi-square; and there
is one as soon as a row has a magnitude and no uncertainty is zero. -/
theorem C92_recover {W : World T} {s : State ℝ (Comp ℝ)} {R : List Row} {exps : List (Exposure T)} {origins : List Str}
    {frame : Str} {comp : Comp ℝ} {G : Option ℝ} {strict : Bool} {H0 : ℝ} {out : List Num}
    (h : (forwardAt H0 W s (R.map fun r => r.2.1) exps ⟨origins, frame, R.map fun r => r.2.2⟩ comp G strict).1 = .ok out)
    (hm : ∀ (i : Nat) (r : Row) (m : ℝ), R[i]? = some r → r.2.1.mag = some m → out[i]? = some (.fin m)) :
    (∀ f, single W s R exps origins frame comp G strict ['V'] = .ok f →
      f.H = H0 ∧ (∀ e, f.sigmaEff = some e → e = 0) ∧ ∀ c, f.chi2Red = some c → c = 0) ∧
    ((∃ r ∈ R, r.2.1.mag ≠ none) → (∀ r ∈ R, r.2.1.sigma ≠ some 0) →
      ∃ f, single W s R exps origins frame comp G strict ['V'] = .ok f) := by
  obtain ⟨hV, t, ht, hR, rfl⟩ := forward_rows.mp h
  have hval : ∀ r ∈ R, ∀ m, r.2.1.mag = some m → val W t exps 0 G strict r = .fin (m - H0) := by
    intro r hr m hmag
    obtain ⟨i, hi⟩ := List.mem_iff_getElem?.mp hr
    have h1 := hm i r m hi hmag
    rw [List.getElem?_map, hi] at h1
    simp only [Option.map_some, Option.some.injEq] at h1
    have h2 := (fine_iff t H0 G).mp (hR r hr)
    rw [h1] at h2
    obtain ⟨e, f, p, q, a1, a2, a3, a4, a5, a6, a7, a8⟩ := h2
    have : RowVal W t exps 0 G strict r.2 (.fin (m - H0)) :=
      ⟨e, f, p, q, a1, a2, a3, a4, a5, a6, a7, (plus_shift a8.symm fun x hx => magRow_shift hx).symm⟩
    exact val_spec this
  have hk : ∀ k ∈ kept W t exps G strict R, k.1 = H0 ∧ ∃ r ∈ R, k.2 = r.2.1.sigma := by
    intro k hk
    obtain ⟨r, hr, hu⟩ := List.mem_filterMap.mp hk
    cases hmag : r.2.1.mag with
    | none => unfold usable at hu; simp only [hmag] at hu; cases hu
    | some m =>
      rw [hval r hr m hmag] at hu
      unfold usable at hu
      simp only [hmag, Option.some.injEq] at hu
      subst hu
      exact ⟨by simp, r, hr, rfl⟩
  constructor
  · intro f hf
    obtain ⟨-, -, t', ht', -, hf⟩ := single_ok.mp hf
    rw [ht] at ht'
    cases ht'
    exact fit_const (fun r hr => (hk r hr).1) hf
  · rintro ⟨r, hr, hmag⟩ hs
    obtain ⟨m, hmag⟩ := Option.ne_none_iff_exists'.mp hmag
    have hmem : (m - (m - H0), r.2.1.sigma) ∈ kept W t exps G strict R := by
      apply List.mem_filterMap.mpr
      refine ⟨r, hr, ?_⟩
      rw [hval r hr m hmag]
      unfold usable
      simp only [hmag]
    have hne : kept W t exps G strict R ≠ [] := List.ne_nil_of_mem hmem
    have : Weighted (kept W t exps G strict R) ∨ Unweighted (kept W t exps G strict R) := by
      rcases cases_rows (kept W t exps G strict R) with h | h | ⟨-, k, hkm, h⟩
      · exact .inl h
      · exact .inr h
      · obtain ⟨-, r', hr', e⟩ := hk k hkm
        rw [h] at e
        exact absurd e.symm (hs r' hr')
    obtain ⟨f, hf⟩ := (C92_accepts _).2.mpr ⟨hne, this⟩
    exact ⟨f, single_ok.mpr ⟨rfl, hV, t, ht, hR, hf⟩⟩

/-! ### a concrete case -/

/-- One filter, one exposure, an observer at (1, 0, 0). -/
noncomputable def worldExample : World Unit where
  data := ⟨[], [(['V'], [])], fun _ => none, fun _ _ => none⟩
  tables := ⟨[['V']], []⟩
  site := fun _ _ => .ok (some ⟨1, 0, 0⟩)

noncomputable def stateExample : State ℝ (Comp ℝ) := ⟨fun _ => none, fun _ _ => none, fun _ => some [some 0]⟩

def exposuresExample : List (Exposure Unit) := [⟨['e'], ['X'], ['V'], ()⟩]

/-- Rows of two objects, interleaved, one without a magnitude. -/
noncomputable def rowsExample : List Row :=
  [(some ['b'], ⟨some ['e'], some 20, none⟩, some ⟨2, 0, 0⟩), (some ['a'], ⟨some ['e'], some 21, some 1⟩, some ⟨2, 0, 0⟩),
    (none, ⟨some ['e'], none, none⟩, some ⟨2, 0, 0⟩), (some ['b'], ⟨some ['e'], some 22, some 1⟩, some ⟨2, 0, 0⟩)]

theorem exampleDistances : V3.norm ⟨2, 0, 0⟩ = 2 ∧ V3.norm (V3.sub ⟨2, 0, 0⟩ ⟨1, 0, 0⟩) = 1 ∧ V3.norm ⟨1, 0, 0⟩ = 1 := by
  refine ⟨?_, ?_, ?_⟩
  · simp [V3.norm]
  · simp [V3.norm, V3.sub]
    norm_num
  · simp [V3.norm]

theorem exampleRow {r : Row} (hr : r ∈ rowsExample) (H0 : ℝ) :
    ∃ x, RowVal worldExample [some 0] exposuresExample H0 (some 0) true r.2 (.fin x) := by
  obtain ⟨d1, d2, d3⟩ := exampleDistances
  have hc : cosPhase ⟨2, 0, 0⟩ ⟨1, 0, 0⟩ = 1 := by
    unfold cosPhase clip1
    rw [d1, d2, d3]
    norm_num
  have hm : ∃ x, (magRow (some H0) (some 0) ⟨2, 0, 0⟩ ⟨1, 0, 0⟩).plusDelta (some 0) = .fin x := by
    unfold magRow correctionFromCos mag10
    simp only
    rw [hc, if_neg (by norm_num), if_pos]
    · exact ⟨_, rfl⟩
    · unfold mixture
      have := Real.exp_pos (-3.33 * Real.sqrt ((1 - 1) / (1 + 1)) ^ (0.63 : ℝ))
      linarith
  obtain ⟨x, hx⟩ := hm
  have hpos : r.2.2 = some ⟨2, 0, 0⟩ ∧ r.2.1.exposureId = some ['e'] := by
    simp only [rowsExample, List.mem_cons, List.not_mem_nil, or_false] at hr
    rcases hr with rfl | rfl | rfl | rfl <;> exact ⟨rfl, rfl⟩
  refine ⟨x, ⟨['e'], ['X'], ['V'], ()⟩, ['V'], ⟨2, 0, 0⟩, ⟨1, 0, 0⟩, ?_, ⟨false, .known _ _ (by simp [worldExample]), by simp⟩,
    by simp [worldExample], by simp [worldExample], rfl, hpos.1, ⟨_, _, rfl, rfl, ?_, ?_⟩, ?_⟩
  · rw [hpos.2]
    rfl
  · rw [fromSun_eq, d1]; norm_num
  · rw [fromObserver_eq, d2]; norm_num
  · rw [← hx]
    rfl

/-- The grouped estimator returns on the example, with an estimate for both objects. -/
example : ∃ table, grouped worldExample stateExample rowsExample exposuresExample [] [] (.template ['T']) (some 0) true ['V']
    = .ok table ∧ (∃ f, (['a'], f) ∈ table) ∧ ∃ f, (['b'], f) ∈ table := by
  have hV : ['V'] ∈ worldExample.data.filters.map Prod.fst := by simp [worldExample]
  have ht : (deltaTable worldExample.data mag stateExample (.template ['T'])).1 = .ok [some 0] := by
    rw [Band.Props.table_cached (key := .template ['T']) rfl rfl]
  have hf : ∀ r ∈ rowsExample, Fine worldExample exposuresExample true r := by
    intro r hr
    obtain ⟨x, hx⟩ := exampleRow hr 0
    refine (fine_iff [some 0] 0 (some 0)).mpr ?_
    rw [val_spec hx]
    exact hx
  obtain ⟨table, h⟩ := (C72_accepts (W := worldExample) (s := stateExample) (R := rowsExample) (exps := exposuresExample)
    (origins := []) (frame := []) (comp := .template ['T']) (G := some 0) (strict := true) (reference := ['V'])
    (by simp [rowsExample])).mpr ⟨rfl, hV, ⟨_, ht⟩, hf⟩
  have key : ∀ (x : Str) (r : Row) (m : ℝ), r ∈ rowsExample → r.1 = some x → r.2.1.mag = some m → ∃ f, (x, f) ∈ table := by
    intro x r m hr hx hm
    obtain ⟨v, hv⟩ := exampleRow hr 0
    have hmem : (m - v, r.2.1.sigma) ∈ kept worldExample [some 0] exposuresExample (some 0) true (rowsOf x rowsExample) := by
      refine List.mem_filterMap.mpr ⟨r, List.mem_filter.mpr ⟨hr, by simp [hx]⟩, ?_⟩
      rw [val_spec hv]
      unfold usable
      simp only [hm]
    have hc : Weighted (kept worldExample [some 0] exposuresExample (some 0) true (rowsOf x rowsExample)) ∨
        Unweighted (kept worldExample [some 0] exposuresExample (some 0) true (rowsOf x rowsExample)) := by
      rcases cases_rows (kept worldExample [some 0] exposuresExample (some 0) true (rowsOf x rowsExample)) with h | h | ⟨-, k, hk, e⟩
      · exact .inl h
      · exact .inr h
      · exfalso
        obtain ⟨r', hr', hu⟩ := List.mem_filterMap.mp hk
        have hr' := (List.mem_filter.mp hr').1
        unfold usable at hu
        split at hu
        · simp only [Option.some.injEq] at hu
          rw [← hu] at e
          simp only at e
          simp only [rowsExample, List.mem_cons, List.not_mem_nil, or_false] at hr'
          rcases hr' with rfl | rfl | rfl | rfl <;> simp at e
        · cases hu
    obtain ⟨f, hf'⟩ := (C92_accepts _).2.mpr ⟨List.ne_nil_of_mem hmem, hc⟩
    exact ⟨f, ((C72_grouped h [] []).2 x f).mpr (single_ok.mpr
      ⟨rfl, hV, _, ht, fun r hr => hf r (List.mem_filter.mp hr).1, hf'⟩)⟩
  exact ⟨table, h, key ['a'] _ 21 (List.mem_cons_of_mem _ List.mem_cons_self) rfl rfl, key ['b'] _ 20 List.mem_cons_self rfl rfl⟩

end Verif.AbsMag.Props
