import Verif.AbsMag.Lemmas

/-! # The forward model works row by row -/

namespace Verif.AbsMag

open Verif Band Hg Sched Hg.Props

variable {T : Type}

/-- What happens to one detection with its object position: its exposure is the first one with its id, the filter is resolved
and known, the observer exists, the geometry is good, and `v` is the predicted magnitude for H = `H0`. -/
def RowVal (W : World T) (t : List (Option ℝ)) (exps : List (Exposure T)) (H0 : ℝ) (G : Option ℝ) (strict : Bool)
    (r : Detection × Pos) (v : Num) : Prop :=
  ∃ e f p q, exps.find? (fun e => decide (some e.id = r.1.exposureId)) = some e ∧
    Band.Spec.Answer W.tables (!strict) (some e.code) (some e.filter) f ∧ f ∈ W.tables.curves ∧
    f ∈ W.data.filters.map Prod.fst ∧ W.site e.code e.midpoint = .ok (some q) ∧ r.2 = some p ∧
    GoodRow (some p) (some q) ∧ v = (magRow (some H0) G p q).plusDelta ((deltaOf W.data t f).getD none)

theorem rowVal_unique {W : World T} {t : List (Option ℝ)} {exps : List (Exposure T)} {H0 : ℝ} {G : Option ℝ} {strict : Bool}
    {r : Detection × Pos} {v w : Num} (h1 : RowVal W t exps H0 G strict r v) (h2 : RowVal W t exps H0 G strict r w) : v = w := by
  obtain ⟨e, f, p, q, a1, a2, -, -, a5, a6, -, rfl⟩ := h1
  obtain ⟨e', f', p', q', b1, b2, -, -, b5, b6, -, rfl⟩ := h2
  rw [a1] at b1; cases b1
  rw [a5] at b5; cases b5
  rw [a6] at b6; cases b6
  obtain ⟨u, hu, -⟩ := a2
  obtain ⟨u', hu', -⟩ := b2
  rw [(Band.ResolveProps.C68_unique hu hu').1]

theorem gather_ok_iff {A B E : Type} (work : A → Except E B) : ∀ (l : List A) (out : List B),
    gather work l = .ok out ↔ List.Forall₂ (fun a b => work a = .ok b) l out := by
  intro l
  induction l with
  | nil =>
    intro out
    unfold gather
    constructor
    · intro h; cases h; exact List.Forall₂.nil
    · intro h; cases h; rfl
  | cons a l ih =>
    intro out
    unfold gather
    cases ha : work a with
    | error e =>
      constructor
      · intro h; cases h
      · intro h; cases h with | cons h _ => rw [ha] at h; cases h
    | ok b =>
      cases hl : gather work l with
      | error e =>
        constructor
        · intro h; cases h
        · intro h
          cases h with
          | cons _ h => rw [(ih _).mpr h] at hl; cases hl
      | ok bs =>
        constructor
        · intro h; cases h; exact List.Forall₂.cons ha ((ih _).mp hl)
        · intro h
          cases h with
          | cons h1 h2 =>
            rw [ha] at h1; cases h1
            rw [(ih _).mpr h2] at hl; cases hl
            rfl

theorem align_ok {exps : List (Exposure T)} {dets : List Detection} {es : List (Exposure T)} :
    align exps dets = .ok es ↔
      List.Forall₂ (fun (d : Detection) e => exps.find? (fun e => decide (some e.id = d.exposureId)) = some e) dets es := by
  unfold align
  have hrow : ∀ (d : Detection) (e : Exposure T), (match exps.find? fun e => decide (some e.id = d.exposureId) with
      | none => (.error .valueError : Except PyErr (Exposure T))
      | some e => .ok e) = .ok e ↔ exps.find? (fun e => decide (some e.id = d.exposureId)) = some e := by
    intro d e
    cases exps.find? fun e => decide (some e.id = d.exposureId) with
    | none => simp
    | some x => simp
  constructor
  · intro h
    split at h
    · cases h
    · rw [gather_ok_iff] at h
      exact h.imp fun d e h => (hrow d e).mp h
  · intro h
    rw [if_neg]
    · rw [gather_ok_iff]
      exact h.imp fun d e h => (hrow d e).mpr h
    · intro hn
      obtain ⟨d, hd, hn⟩ := List.any_eq_true.mp hn
      obtain ⟨i, hi⟩ := List.mem_iff_getElem?.mp hd
      have hlt : i < dets.length := by rw [List.getElem?_eq_some_iff] at hi; exact hi.1
      have hlen := h.length_eq
      have hf := (List.forall₂_iff_get.mp h).2 i hlt (by omega)
      rw [List.getElem?_eq_some_iff] at hi
      obtain ⟨_, hi⟩ := hi
      simp only [List.get_eq_getElem, hi] at hf
      have := List.find?_some hf
      rw [decide_eq_true_eq] at this
      rw [← this] at hn
      cases hn

/-- The magnitudes a user predicts for detections of an object of absolute magnitude `H0`: find the exposures, resolve their
bands, call `predict_magnitudes`. -/
noncomputable def forwardAt (H0 : ℝ) (W : World T) (s : State ℝ (Comp ℝ)) (dets : List Detection) (exps : List (Exposure T))
    (obj : Coords) (comp : Comp ℝ) (G : Option ℝ) (strict : Bool) : Except PyErr (List Num) × State ℝ (Comp ℝ) :=
  match align exps dets with
  | .error e => (.error e, s)
  | .ok es =>
    match mapBands W.tables (es.map fun e => some e.code) (es.map fun e => some e.filter) (!strict) .raise with
    | .error e => (.error e, s)
    | .ok canonical => predict W.data s (.scalar (some H0)) obj canonical (observers W es) (.scalar G) ['V'] comp

/-- The answer is row by row. -/
theorem forward_ok {W : World T} {s : State ℝ (Comp ℝ)} {dets : List Detection} {exps : List (Exposure T)} {obj : Coords}
    {comp : Comp ℝ} {H0 : ℝ} {G : Option ℝ} {strict : Bool} {out : List Num} (hl : obj.rows.length = dets.length) :
    (forwardAt H0 W s dets exps obj comp G strict).1 = .ok out ↔
      ['V'] ∈ W.data.filters.map Prod.fst ∧ ∃ t, (deltaTable W.data mag s comp).1 = .ok t ∧
        List.Forall₂ (RowVal W t exps H0 G strict) (dets.zip obj.rows) out := by
  unfold forwardAt
  cases hA : align exps dets with
  | error e =>
    constructor
    · intro h; cases h
    · rintro ⟨-, t, -, h⟩
      exfalso
      have hex : ∃ es, align exps dets = .ok es := by
        have hlen := h.length_eq
        rw [List.length_zip, hl, Nat.min_self] at hlen
        have : ∀ d ∈ dets, ∃ e, exps.find? (fun e => decide (some e.id = d.exposureId)) = some e := by
          intro d hd
          obtain ⟨i, hi⟩ := List.mem_iff_getElem?.mp hd
          rw [List.getElem?_eq_some_iff] at hi
          obtain ⟨hlt, hi⟩ := hi
          have := (List.forall₂_iff_get.mp h).2 i (by simp [hl, hlt]) (by omega)
          obtain ⟨e, _, _, _, he, _⟩ := this
          simp only [List.get_eq_getElem, List.getElem_zip, hi] at he
          exact ⟨e, he⟩
        clear h hA hl hlen
        induction dets with
        | nil => exact ⟨[], align_ok.mpr List.Forall₂.nil⟩
        | cons d dets ih =>
          obtain ⟨es, he⟩ := ih fun d hd => this d (List.mem_cons_of_mem _ hd)
          obtain ⟨e, h1⟩ := this d List.mem_cons_self
          exact ⟨e :: es, align_ok.mpr (List.Forall₂.cons h1 (align_ok.mp he))⟩
      obtain ⟨es, he⟩ := hex
      rw [he] at hA
      cases hA
  | ok es =>
  have hA' := align_ok.mp hA
  have hle : es.length = dets.length := hA'.length_eq.symm
  have hAi : ∀ (i : Nat) (h1 : i < dets.length) (h2 : i < es.length),
      exps.find? (fun e => decide (some e.id = dets[i].exposureId)) = some es[i] := by
    intro i h1 h2
    exact (List.forall₂_iff_get.mp hA').2 i h1 h2
  simp only
  cases hM : mapBands W.tables (es.map fun e => some e.code) (es.map fun e => some e.filter) (!strict) .raise with
  | error e =>
    constructor
    · intro h; cases h
    · rintro ⟨-, t, -, h⟩
      exfalso
      have hlen := h.length_eq
      rw [List.length_zip, hl, Nat.min_self] at hlen
      have hrow : ∀ (i : Nat) (h2 : i < es.length), ∃ f,
          Band.Spec.Answer W.tables (!strict) (some es[i].code) (some es[i].filter) f ∧ f ∈ W.tables.curves := by
        intro i h2
        obtain ⟨e, f, _, _, he, hf, hc, _⟩ := (List.forall₂_iff_get.mp h).2 i (by simp [hl]; omega) (by omega)
        simp only [List.get_eq_getElem, List.getElem_zip] at he
        rw [hAi i (by omega) h2] at he
        cases he
        exact ⟨f, hf, hc⟩
      have := ((Band.ResolveProps.C68_accepts W.tables (es.map fun e => some e.code) (es.map fun e => some e.filter) (!strict)
        .raise).1).mpr ⟨by simp, by decide, ?_, ?_⟩
      · obtain ⟨o, ho⟩ := this
        rw [ho] at hM; cases hM
      · intro i c b f hc hb ha
        rw [List.getElem?_map, Option.map_eq_some_iff] at hc hb
        obtain ⟨e, he, rfl⟩ := hc
        obtain ⟨e', he', rfl⟩ := hb
        rw [he] at he'; cases he'
        rw [List.getElem?_eq_some_iff] at he
        obtain ⟨h2, rfl⟩ := he
        obtain ⟨f', hf', hc'⟩ := hrow i h2
        obtain ⟨u, hu, -⟩ := ha
        obtain ⟨u', hu', -⟩ := hf'
        rw [(Band.ResolveProps.C68_unique hu hu').1]
        exact hc'
      · intro _ i c b hc hb
        rw [List.getElem?_map, Option.map_eq_some_iff] at hc hb
        obtain ⟨e, he, rfl⟩ := hc
        obtain ⟨e', he', rfl⟩ := hb
        rw [he] at he'; cases he'
        rw [List.getElem?_eq_some_iff] at he
        obtain ⟨h2, rfl⟩ := he
        obtain ⟨f', hf', -⟩ := hrow i h2
        exact ⟨f', hf'⟩
  | ok canonical =>
  obtain ⟨lc, hrows⟩ := Band.ResolveProps.C68_rows hM
  rw [List.length_map] at lc
  have hci : ∀ (i : Nat) (h2 : i < es.length), ∃ f, canonical[i]? = some (some f) ∧
      Band.Spec.Answer W.tables (!strict) (some es[i].code) (some es[i].filter) f ∧ f ∈ W.tables.curves := by
    intro i h2
    obtain ⟨o, ho, h3, h4, h5⟩ := hrows i (some es[i].code) (some es[i].filter) (by simp [h2]) (by simp [h2])
    cases o with
    | none => exact absurd rfl (h5 rfl)
    | some f => exact ⟨f, ho, (h3 f).mp rfl, h4 f rfl⟩
  simp only
  constructor
  · intro h
    have hacc := (C91_accepts W.data s (.scalar (some H0)) (.scalar G) obj canonical (observers W es) ['V'] comp).mp ⟨out, h⟩
    obtain ⟨-, hknown, hV, ⟨obs, hobs, hgood⟩, -⟩ := hacc
    have hobs' := hobs
    unfold observers at hobs
    cases hg : gather (fun (e : Exposure T) => W.site e.code e.midpoint) es with
    | error e => rw [hg] at hobs; cases hobs
    | ok ps =>
    rw [hg] at hobs
    cases hobs
    rw [gather_ok_iff] at hg
    have lps : es.length = ps.length := hg.length_eq
    have hv := (goodRows_iff _ _).mpr hgood
    unfold predict at h
    rw [if_neg (by simp [lc, hle, hl]), if_neg, if_neg (fun hc => known_iff.mp hc hV), hobs'] at h
    swap
    · intro hc
      obtain ⟨f, hm, hc⟩ := List.any_eq_true.mp hc
      obtain ⟨g, rfl, hg'⟩ := hknown f hm
      exact known_iff.mp hc hg'
    simp only at h
    rw [hv] at h
    simp only [broadcast] at h
    cases hT : deltaTable W.data mag s comp with
    | mk r s2 =>
    cases r with
    | error e => rw [hT] at h; cases h
    | ok t =>
    rw [hT] at h
    simp only [if_pos] at h
    rw [run_kernel] at h
    swap
    · simp [lc, hle, hl, ← lps]
    cases h
    refine ⟨hV, t, rfl, ?_⟩
    rw [List.forall₂_iff_get]
    refine ⟨by simp [kernel, lc, hle, hl, ← lps], ?_⟩
    intro i h1 h2
    have i0 : i < dets.length := by simp at h1; omega
    have i1 : i < es.length := by omega
    have i2 : i < obj.rows.length := by omega
    have i3 : i < ps.length := by omega
    obtain ⟨f, hf1, hf2, hf3⟩ := hci i i1
    have hsite := (List.forall₂_iff_get.mp hg).2 i i1 i3
    simp only [List.get_eq_getElem] at hsite
    obtain ⟨p, q, ep, eq, hg1, hg2⟩ := hgood.2 i _ _ (List.getElem?_eq_getElem i2) (List.getElem?_eq_getElem i3)
    have hfk : f ∈ W.data.filters.map Prod.fst := by
      obtain ⟨g, eg, hg'⟩ := hknown (some f) (List.mem_of_getElem? hf1)
      cases eg; exact hg'
    refine ⟨es[i], f, p, q, ?_, hf2, hf3, hfk, ?_, ?_, ⟨p, q, rfl, rfl, hg1, hg2⟩, ?_⟩
    · simp only [List.get_eq_getElem, List.getElem_zip]
      exact hAi i i0 i1
    · rw [hsite, eq]
    · simp only [List.get_eq_getElem, List.getElem_zip]
      exact ep
    · have hfc : canonical[i] = some f := by
        rw [List.getElem?_eq_getElem (by omega)] at hf1; exact Option.some.inj hf1
      simp only [List.get_eq_getElem, kernel, List.getElem_zipWith, List.getElem_zip, List.getElem_replicate,
        List.getElem_map, onRow, ep, eq, hfc, Option.bind_some]
  · rintro ⟨hV, t, ht, h⟩
    have hlen := h.length_eq
    rw [List.length_zip, hl, Nat.min_self] at hlen
    have hri : ∀ (i : Nat) (i0 : i < dets.length) (i4 : i < out.length), RowVal W t exps H0 G strict (dets[i], obj.rows[i]) out[i] := by
      intro i i0 i4
      have := (List.forall₂_iff_get.mp h).2 i (by simp [hl, i0]) i4
      simpa only [List.get_eq_getElem, List.getElem_zip] using this
    -- the observers
    have hobs : ∃ ps, gather (fun (e : Exposure T) => W.site e.code e.midpoint) es = .ok ps ∧ ps.length = es.length ∧
        ∀ (i : Nat) (h1 : i < es.length) (h2 : i < ps.length), W.site es[i].code es[i].midpoint = .ok ps[i] := by
      have hall : ∀ e ∈ es, ∃ q, W.site e.code e.midpoint = .ok q := by
        intro e he
        obtain ⟨i, hi⟩ := List.mem_iff_getElem?.mp he
        rw [List.getElem?_eq_some_iff] at hi
        obtain ⟨i1, hi⟩ := hi
        obtain ⟨e', f, p, q, he', -, -, -, hs, -⟩ := hri i (by omega) (by omega)
        rw [hAi i (by omega) i1] at he'
        cases he'
        rw [hi] at hs
        exact ⟨_, hs⟩
      have : ∃ ps, List.Forall₂ (fun (e : Exposure T) q => W.site e.code e.midpoint = .ok q) es ps := by
        clear hlen hri hci hrows hM hAi hle hA' hA lc h
        induction es with
        | nil => exact ⟨[], List.Forall₂.nil⟩
        | cons e es ih =>
          obtain ⟨ps, h⟩ := ih fun e he => hall e (List.mem_cons_of_mem _ he)
          obtain ⟨q, hq⟩ := hall e List.mem_cons_self
          exact ⟨q :: ps, List.Forall₂.cons hq h⟩
      obtain ⟨ps, hps⟩ := this
      refine ⟨ps, (gather_ok_iff _ _ _).mpr hps, hps.length_eq.symm, ?_⟩
      intro i h1 h2
      exact (List.forall₂_iff_get.mp hps).2 i h1 h2
    obtain ⟨ps, hps, lps, hpi⟩ := hobs
    have hknown : ∀ f ∈ canonical, ∃ g, f = some g ∧ g ∈ W.data.filters.map Prod.fst := by
      intro f hf
      obtain ⟨i, hi⟩ := List.mem_iff_getElem?.mp hf
      have i1 : i < es.length := by rw [List.getElem?_eq_some_iff] at hi; obtain ⟨h, -⟩ := hi; omega
      obtain ⟨g, hg1, hg2, -⟩ := hci i i1
      rw [hg1] at hi
      cases hi
      obtain ⟨e', f', p, q, he', hf', -, hk, -⟩ := hri i (by omega) (by omega)
      rw [hAi i (by omega) i1] at he'
      cases he'
      obtain ⟨u, hu, -⟩ := hg2
      obtain ⟨u', hu', -⟩ := hf'
      rw [(Band.ResolveProps.C68_unique hu' hu).1] at hk
      exact ⟨g, rfl, hk⟩
    have hgood : GoodRows obj.rows ps := by
      refine ⟨by omega, ?_⟩
      intro i a b ha hb
      rw [List.getElem?_eq_some_iff] at ha hb
      obtain ⟨i2, rfl⟩ := ha
      obtain ⟨i3, rfl⟩ := hb
      obtain ⟨e', f', p, q, he', -, -, -, hs, hp, hgr, -⟩ := hri i (by omega) (by omega)
      rw [hAi i (by omega) (by omega)] at he'
      cases he'
      rw [hpi i (by omega) i3] at hs
      have hq : ps[i] = some q := by injection hs
      simp only at hp
      rw [hp, hq]
      exact hgr
    have hacc := (C91_accepts W.data s (.scalar (some H0)) (.scalar G) obj canonical (observers W es) ['V'] comp).mpr
      ⟨by omega, hknown, hV, ⟨_, by unfold observers; rw [hps], hgood⟩, trivial, trivial, ?_⟩
    swap
    · rw [convert_nil]
      generalize hT : deltaTable W.data mag s comp = r at ht
      obtain ⟨r, s2⟩ := r
      simp only at ht
      subst ht
      exact ⟨[], rfl⟩
    obtain ⟨out', h'⟩ := hacc
    rw [h']
    congr 1
    -- by uniqueness of the rows
    have hv := (goodRows_iff _ _).mpr hgood
    unfold predict at h'
    rw [if_neg (by simp [lc, hle, hl]), if_neg, if_neg (fun hc => known_iff.mp hc hV)] at h'
    swap
    · intro hc
      obtain ⟨f, hm, hc⟩ := List.any_eq_true.mp hc
      obtain ⟨g, rfl, hg'⟩ := hknown f hm
      exact known_iff.mp hc hg'
    rw [show observers W es = .ok ⟨es.map fun _ => sun, "ecliptic".toList, ps⟩ by unfold observers; rw [hps]] at h'
    simp only at h'
    rw [hv] at h'
    simp only [broadcast] at h'
    generalize hT : deltaTable W.data mag s comp = r at ht h'
    obtain ⟨r, s2⟩ := r
    simp only at ht
    subst ht
    simp only [if_pos] at h'
    rw [run_kernel] at h'
    swap
    · simp [lc, hle, hl, lps]
    cases h'
    apply List.ext_getElem
    · simp [kernel, lc, hle, hl, lps, hlen]
    · intro i h1 h2
      have i0 : i < dets.length := by omega
      obtain ⟨e', f', p, q, he', hf', -, -, hs, hp, hgr, hval⟩ := hri i i0 h2
      rw [hAi i i0 (by omega)] at he'
      cases he'
      rw [hpi i (by omega) (by omega)] at hs
      have hq : ps[i] = some q := by injection hs
      simp only at hp
      obtain ⟨g, hg1, hg2, -⟩ := hci i (by omega)
      obtain ⟨u, hu, -⟩ := hg2
      obtain ⟨u', hu', -⟩ := hf'
      have hfc : canonical[i]'(by omega) = some f' := by
        rw [List.getElem?_eq_getElem (by omega)] at hg1
        rw [Option.some.inj hg1, (Band.ResolveProps.C68_unique hu hu').1]
      rw [hval]
      simp only [kernel, List.getElem_zipWith, List.getElem_zip, List.getElem_replicate,
        List.getElem_map, onRow, hp, hq, hfc, Option.bind_some]

end Verif.AbsMag
