import Verif.Hg.Props
import Verif.Band.Props

/-! # Predicted magnitudes (C91) -/

namespace Verif.Hg.Props

open Verif Verif.Hg Verif.Band Real

theorem mag_one : mag 1 = 0 := by simp [mag]

/-- Every table in the cache gives V no colour. -/
def TablesV (d : Data ℝ) (s : State ℝ (Comp ℝ)) : Prop :=
  ∀ k t, s.tables k = some t → deltaOf d t ['V'] = some (some 0)

theorem deltaTable_V {d : Data ℝ} {s : State ℝ (Comp ℝ)} (hs : Coherent d s) (hv : TablesV d s) (comp : Comp ℝ) :
    TablesV d (deltaTable d mag s comp).2 ∧ ∀ t, (deltaTable d mag s comp).1 = .ok t → deltaOf d t ['V'] = some (some 0) := by
  have key : ∀ t, (deltaTable d mag s comp).1 = .ok t → deltaOf d t ['V'] = some (some 0) := by
    intro t ht
    cases hk : keyOfComp comp with
    | error e => unfold deltaTable at ht; rw [hk] at ht; cases ht
    | ok key =>
      cases hc : s.tables key with
      | some t' =>
        rw [Band.Props.table_cached hk hc] at ht
        cases ht
        exact hv key _ hc
      | none =>
        have hV : ['V'] ∈ d.filters.map Prod.fst := by
          unfold deltaTable at ht
          rw [hk] at ht
          simp only at ht
          rw [hc] at ht
          simp only at ht
          cases hf : filterIds d with
          | error e => rw [hf] at ht; cases ht
          | ok p =>
            obtain ⟨h1, h2⟩ := Band.Props.filterIds_ok hf
            rw [← h1]
            exact List.mem_of_getElem? h2
        obtain ⟨rv, e1, e2, h⟩ := Band.Props.table_fresh hs hk hc ht
        obtain ⟨o, e3, e4, -⟩ := h _ hV
        rw [e1] at e3
        cases e3
        rw [e4]
        simp [div_self e2.ne', mag_one]
  refine ⟨fun k t ht => ?_, key⟩
  obtain ⟨-, -, h3, h4, h5⟩ := Band.Props.table_state (mag := mag) hs comp
  by_cases hk : keyOfComp comp = .ok k
  · cases hc : s.tables k with
    | some t' =>
      rw [h3 k t' hc] at ht
      cases ht
      exact hv k _ hc
    | none =>
      cases hr : (deltaTable d mag s comp).1 with
      | ok t' =>
        obtain ⟨k', e1, e2⟩ := h5 t' hr
        rw [hk] at e1
        cases e1
        rw [e2] at ht
        cases ht
        exact key _ hr
      | error e =>
        exfalso
        have : (deltaTable d mag s comp).2.tables k = none := by
          unfold deltaTable at hr ⊢
          rw [hk] at hr ⊢
          simp only at hr ⊢
          rw [hc] at hr ⊢
          simp only at hr ⊢
          cases hf : filterIds d with
          | error e => simp only; exact hc
          | ok p =>
            obtain ⟨ids, v⟩ := p
            rw [hf] at hr
            simp only at hr ⊢
            have hst := compIntegrals_state hs k ids
            generalize compIntegrals d s k ids = g at hst hr
            obtain ⟨r, s1⟩ := g
            cases r with
            | error e => simp only; simp only at hst; rw [hst.2.2]; exact hc
            | ok ints =>
              simp only at hr hst ⊢
              cases hd : deltas mag v ints with
              | error e => simp only; rw [hst.2.2]; exact hc
              | ok t => rw [hd] at hr; cases hr
        rw [this] at ht
        cases ht
  · rw [h4 k hk] at ht
    exact hv k t ht

theorem run_V (d : Data ℝ) (ops : List (Op ℝ)) : TablesV d (run d mag ops) := by
  induction ops using List.reverseRecOn with
  | nil => intro k t h; cases h
  | append_singleton ops op ih =>
    rw [Band.Props.run_append]
    simp only [List.foldl_cons, List.foldl_nil]
    have hs := Band.Props.run_coherent d mag ops
    cases op with
    | convert mags src tgt comp =>
      simp only [step]
      rcases Band.Props.convert_state (d := d) (mag := mag) (s := run d mag ops) mags src tgt comp with h | h
      · rw [h]; exact ih
      · rw [h]; exact (deltaTable_V hs ih comp).1
    | register id wl rf =>
      intro k t h
      rw [(Band.Props.step_spec hs _).2.2 k (by intro _ _ _ _ h; cases h)] at h
      exact ih k t h
    | deltaMag comp src tgt =>
      intro k t h
      rw [(Band.Props.step_spec hs _).2.2 k (by intro _ _ _ _ h; cases h)] at h
      exact ih k t h
    | integrals id fs =>
      intro k t h
      rw [(Band.Props.step_spec hs _).2.2 k (by intro _ _ _ _ h; cases h)] at h
      exact ih k t h

/-- The number in a result, if it is one. -/
def toOption : Num → Option ℝ
  | .fin x => some x
  | _ => none

/-- The column an argument stands for. -/
noncomputable def column (n : Nat) (a : Arg) : List (Option ℝ) := (List.range n).map a.at

theorem broadcast_column {n : Nat} {a : Arg} {xs : List (Option ℝ)} (h : broadcast n a = .ok xs) : xs = column n a := by
  by_cases hf : Fits n a
  · obtain ⟨ys, e, l, g⟩ := broadcast_fits n a hf
    rw [e] at h
    cases h
    apply List.ext_getElem?
    intro i
    unfold column
    rw [List.getElem?_map]
    by_cases hi : i < n
    · rw [g i hi, List.getElem?_range hi]; rfl
    · rw [List.getElem?_eq_none (by omega), List.getElem?_eq_none (by simp; omega)]; rfl
  · rw [broadcast_not n a hf] at h; cases h

theorem shift_to_V (m δ : Option ℝ) : shift m δ (some 0) = minusDelta m δ := by
  unfold shift minusDelta
  cases m <;> cases δ <;> simp [sub_eq_add_neg]

theorem shift_from_V (x : Num) (δ : Option ℝ) : shift (toOption x) (some 0) δ = toOption (x.plusDelta δ) := by
  unfold shift Num.plusDelta toOption
  cases x <;> cases δ <;> simp

theorem known_mem {d : Data ℝ} {f : Str} (h : (d.filters.lookup f).isNone ≠ true) : f ∈ d.filters.map Prod.fst := by
  by_contra hn
  apply h
  have key : ∀ m : List (Str × Curve ℝ), f ∉ m.map Prod.fst → (m.lookup f).isNone = true := by
    intro m
    induction m with
    | nil => intro _; rfl
    | cons p m ih =>
      intro h
      rw [List.map_cons, List.mem_cons, not_or] at h
      rw [List.lookup_cons]
      have : (f == p.1) = false := by simpa using h.1
      rw [this]
      exact ih h.2
  exact key _ hn

theorem allSome {l : List (Option Str)} (h : ∀ f ∈ l, f ≠ none) : ∃ fs : List Str, l = fs.map some := by
  induction l with
  | nil => exact ⟨[], rfl⟩
  | cons a l ih =>
    obtain ⟨fs, rfl⟩ := ih fun f hf => h f (List.mem_cons_of_mem _ hf)
    cases a with
    | none => exact absurd rfl (h none List.mem_cons_self)
    | some a => exact ⟨a :: fs, rfl⟩

/-- Whatever was called before, `predict_magnitudes` is `convert_magnitude` of `H` from the reference filter to V, then
`calculate_apparent_magnitude_v`, then `convert_magnitude` from V to the filter of each exposure (a magnitude is infinite only
where the V magnitude is). The filters are all known. -/
theorem C91_predict (d : Data ℝ) (ops : List (Op ℝ)) {H G : Arg} {obj obs : Coords} {filters : List (Option Str)}
    {reference : Str} {comp : Comp ℝ} {out : List Num} {s1 : State ℝ (Comp ℝ)}
    (h : predict d (run d mag ops) H obj filters (.ok obs) G reference comp = (.ok out, s1)) :
    ∃ Hv mv fs, filters = fs.map some ∧
      convert d mag (run d mag ops) (column fs.length H) (List.replicate fs.length reference)
        (List.replicate fs.length "V".toList) comp = (.ok Hv, s1) ∧
      apparentV (.array Hv) obj obs G = .ok mv ∧
      convert d mag s1 (mv.map toOption) (List.replicate fs.length "V".toList) fs comp = (.ok (out.map toOption), s1) ∧
      out.length = fs.length ∧ ∀ i : Nat, out[i]? = some .inf → mv[i]? = some .inf := by
  have hs := Band.Props.run_coherent d mag ops
  have hV := run_V d ops
  generalize run d mag ops = s at h hs hV
  unfold predict at h
  split at h
  · cases h
  rename_i hl
  split at h
  · cases h
  rename_i hf
  split at h
  · cases h
  rename_i href
  simp only at h
  rcases validGeometry_cases obj.rows obs.rows with hv | hv
  swap
  · rw [hv] at h; cases h
  rw [hv] at h
  simp only at h
  cases hH : broadcast obj.rows.length H with
  | error e => rw [hH] at h; cases h
  | ok Hs =>
  cases hG : broadcast obj.rows.length G with
  | error e => rw [hH, hG] at h; cases h
  | ok Gs =>
  rw [hH, hG] at h
  simp only at h
  have lH : Hs.length = obj.rows.length := by rw [broadcast_column hH]; simp [column]
  have lG : Gs.length = obj.rows.length := by rw [broadcast_column hG]; simp [column]
  have hgr := (validGeometry_ok).mp hv
  cases hT : deltaTable d mag s comp with
  | mk r s2 =>
  cases r with
  | error e => rw [hT] at h; cases h
  | ok t =>
  rw [hT] at h
  simp only at h
  have htV : deltaOf d t ['V'] = some (some 0) := by
    have := (deltaTable_V hs hV comp).2 t
    rw [hT] at this
    exact this rfl
  have hcache : deltaTable d mag s2 comp = (.ok t, s2) := by
    obtain ⟨-, -, -, -, h5⟩ := Band.Props.table_state (mag := mag) hs comp
    rw [hT] at h5
    obtain ⟨key, e1, e2⟩ := h5 t rfl
    exact Band.Props.table_cached e1 e2
  have hVm : "V".toList ∈ d.filters.map Prod.fst := by
    unfold deltaOf at htV
    have : ∀ (l : List Str) (u : List (Option ℝ)), (l.zip u).lookup ['V'] = some (some 0) → ['V'] ∈ l := by
      intro l
      induction l with
      | nil => intro u h; cases h
      | cons a l ih =>
        intro u h
        cases u with
        | nil => cases h
        | cons b u =>
          rw [List.zip_cons_cons, List.lookup_cons] at h
          split at h
          · rename_i he
            rw [beq_iff_eq] at he
            rw [he]; exact List.mem_cons_self
          · exact List.mem_cons_of_mem _ (ih u h)
    exact this _ _ htV
  rw [run_kernel] at h
  swap
  · have : (if reference = ['V'] then Hs else Hs.map fun H => minusDelta H ((deltaOf d t reference).getD none)).length
        = obj.rows.length := by split <;> simp [lH]
    simp [this, lG, hgr.1, not_not.mp hl]
  rw [Prod.mk.injEq] at h
  obtain ⟨h, rfl⟩ := h
  cases h
  have hfs : ∀ f ∈ filters, f ≠ none := by
    rintro f hm rfl
    exact hf (List.any_eq_true.mpr ⟨none, hm, rfl⟩)
  obtain ⟨fs, rfl⟩ := allSome hfs
  have hn : obj.rows.length = fs.length := by simpa using hl
  have hmem : ∀ f ∈ fs, f ∈ d.filters.map Prod.fst := by
    intro f hm
    apply known_mem
    intro hc
    exact hf (List.any_eq_true.mpr ⟨some f, List.mem_map.mpr ⟨f, hm, rfl⟩, hc⟩)
  have hHv : convert d mag s (column fs.length H) (List.replicate fs.length reference)
      (List.replicate fs.length "V".toList) comp = (.ok (Hs.map fun H => minusDelta H ((deltaOf d t reference).getD none)), s2) := by
    rw [Band.Props.convert_with (t := t) (s1 := s2) (by simp [column]) (by simp [column]) _ hT]
    · congr 2
      rw [← hn, ← broadcast_column hH]
      rw [show List.map (fun H => minusDelta H ((deltaOf d t reference).getD none)) Hs
        = List.zipWith (fun H _ => minusDelta H ((deltaOf d t reference).getD none)) Hs
          ((List.replicate obj.rows.length reference).zip (List.replicate obj.rows.length "V".toList)) by
          apply List.ext_getElem?
          intro i
          rw [List.getElem?_map, List.getElem?_zipWith]
          by_cases hi : i < obj.rows.length
          · have : i < Hs.length := by omega
            simp [this, hi]
          · have : Hs[i]? = none := List.getElem?_eq_none (by omega)
            rw [this]; rfl]
      apply List.ext_getElem?
      intro i
      rw [List.getElem?_zipWith, List.getElem?_zipWith]
      cases hz : ((List.replicate obj.rows.length reference).zip (List.replicate obj.rows.length "V".toList))[i]? with
      | none => cases Hs[i]? <;> rfl
      | some p =>
        cases hh : Hs[i]? with
        | none => rfl
        | some x =>
          rw [List.getElem?_zip_eq_some] at hz
          obtain ⟨z1, z2⟩ := hz
          rw [List.getElem?_replicate] at z1 z2
          by_cases hi : i < obj.rows.length
          · rw [if_pos hi] at z1 z2
            have z1' := Option.some.inj z1
            have z2' := Option.some.inj z2
            simp only
            rw [← z1', ← z2', show "V".toList = ['V'] from rfl, htV]
            simp only [Option.getD_some]
            rw [shift_to_V]
          · rw [if_neg hi] at z1
            cases z1
    · intro f hm
      rcases List.mem_append.mp hm with hm | hm
      · rw [List.mem_replicate] at hm
        rw [hm.2]; exact known_mem href
      · rw [List.mem_replicate] at hm
        rw [hm.2]; exact hVm
  have hHv' : (if reference = ['V'] then Hs else Hs.map fun H => minusDelta H ((deltaOf d t reference).getD none))
      = Hs.map fun H => minusDelta H ((deltaOf d t reference).getD none) := by
    split
    · rename_i hr
      rw [hr, htV]
      symm
      have : (fun H => minusDelta H (Option.getD (some (some (0 : ℝ))) none)) = id := by
        funext x; cases x <;> simp [minusDelta]
      rw [this, List.map_id]
    · rfl
  rw [hHv']
  set Hv := Hs.map fun H => minusDelta H ((deltaOf d t reference).getD none) with hHvdef
  have lHv : Hv.length = obj.rows.length := by simp [hHvdef, lH]
  have hap : apparentV (.array Hv) obj obs G
      = .ok (kernel Num.nan (fun a p q => magRow a.1 a.2 p q) ((Hv.zip Gs).zip obj.rows) obs.rows) := by
    unfold apparentV
    rw [if_neg (by simp [hgr.1]), hv]
    simp only
    rw [show broadcast obj.rows.length (.array Hv) = .ok Hv by unfold broadcast; simp only; rw [if_neg (by simp [lHv])], hG]
    simp only
    rw [run_kernel _ _ _ _ _ (by simp [lHv, lG, hgr.1])]
  refine ⟨Hv, _, fs, rfl, hHv, hap, ?_, ?_, ?_⟩
  · rw [Band.Props.convert_with (t := t) (s1 := s2) _ _ _ hcache]
    · congr 2
      apply List.ext_getElem?
      intro i
      by_cases hi : i < fs.length
      · have i1 : i < Hv.length := by omega
        have i2 : i < Gs.length := by omega
        have i3 : i < obj.rows.length := by omega
        have i4 : i < obs.rows.length := by omega
        simp only [kernel, List.getElem?_zipWith, List.zip, List.getElem?_map, List.getElem?_eq_getElem i1,
          List.getElem?_eq_getElem i2, List.getElem?_eq_getElem i3, List.getElem?_eq_getElem i4,
          List.getElem?_eq_getElem hi, List.getElem?_replicate, if_pos hi, Option.map_some]
        rw [show "V".toList = ['V'] from rfl, htV]
        simp only [Option.getD_some, Option.bind_some, Option.some.injEq]
        rw [shift_from_V]
        congr 1
        unfold onRow
        simp only
        split <;> rfl
      · rw [List.getElem?_eq_none, List.getElem?_eq_none]
        · simp [kernel, lHv, lG, hgr.1, hn]; omega
        · simp [kernel, lHv, lG, hgr.1, hn]; omega
    · simp [kernel, lHv, lG, hgr.1, hn]
    · simp [kernel, lHv, lG, hgr.1, hn]
    · intro f hm
      rcases List.mem_append.mp hm with hm | hm
      · rw [List.mem_replicate] at hm
        rw [hm.2]; exact hVm
      · exact hmem f hm
  · simp [kernel, lHv, lG, hgr.1, hn]
  · intro i hi
    by_cases hlt : i < fs.length
    · have i1 : i < Hv.length := by omega
      have i2 : i < Gs.length := by omega
      have i3 : i < obj.rows.length := by omega
      have i4 : i < obs.rows.length := by omega
      simp only [kernel, List.getElem?_zipWith, List.zip, List.getElem?_map, List.getElem?_eq_getElem i1,
        List.getElem?_eq_getElem i2, List.getElem?_eq_getElem i3, List.getElem?_eq_getElem i4,
        List.getElem?_eq_getElem hlt, Option.map_some, onRow] at hi ⊢
      split at hi
      · rename_i hp hq
        rw [Option.some.injEq] at hi
        simp only [Option.some.injEq]
        unfold Num.plusDelta at hi
        split at hi <;> first | assumption | cases hi
      · cases hi
    · rw [List.getElem?_eq_none] at hi
      · cases hi
      · simp [kernel, lHv, lG, hgr.1, hn]; omega

theorem convert_nil (d : Data ℝ) (s : State ℝ (Comp ℝ)) (comp : Comp ℝ) :
    convert d mag s [] [] [] comp = match deltaTable d mag s comp with
      | (.error e, s) => (.error e, s)
      | (.ok _, s) => (.ok [], s) := by
  unfold convert
  rw [if_neg (by simp), if_neg (by simp)]
  generalize deltaTable d mag s comp = r
  obtain ⟨r, s2⟩ := r
  cases r <;> rfl

theorem known_iff {d : Data ℝ} {f : Str} : (d.filters.lookup f).isNone = true ↔ f ∉ d.filters.map Prod.fst := by
  constructor
  · intro h hm
    have key : ∀ m : List (Str × Curve ℝ), f ∈ m.map Prod.fst → (m.lookup f).isNone = true → False := by
      intro m
      induction m with
      | nil => intro h _; cases h
      | cons p m ih =>
        intro h hn
        rw [List.lookup_cons] at hn
        split at hn
        · cases hn
        · rename_i he
          rw [beq_eq_false_iff_ne] at he
          rw [List.map_cons, List.mem_cons] at h
          rcases h with h | h
          · exact he h
          · exact ih h hn
    exact key _ hm h
  · intro h
    by_contra hn
    exact h (known_mem hn)

/-- `predict_magnitudes` succeeds exactly when there is one exposure per object, every filter and the reference filter are
known, the observers can be computed, the rows are good, `H` and `G` fit, and `convert_magnitude` knows the composition. -/
theorem C91_accepts (d : Data ℝ) (s : State ℝ (Comp ℝ)) (H G : Arg) (obj : Coords) (filters : List (Option Str))
    (observers : Except PyErr Coords) (reference : Str) (comp : Comp ℝ) :
    (∃ out, (predict d s H obj filters observers G reference comp).1 = .ok out) ↔
      obj.rows.length = filters.length ∧ (∀ f ∈ filters, ∃ g, f = some g ∧ g ∈ d.filters.map Prod.fst) ∧
      reference ∈ d.filters.map Prod.fst ∧
      (∃ obs, observers = .ok obs ∧ GoodRows obj.rows obs.rows) ∧ Fits obj.rows.length H ∧ Fits obj.rows.length G ∧
      ∃ o, (convert d mag s [] [] [] comp).1 = .ok o := by
  unfold predict
  by_cases hl : obj.rows.length = filters.length
  swap
  · rw [if_pos hl]; exact ⟨fun ⟨_, h⟩ => (by cases h), fun h => absurd h.1 hl⟩
  rw [if_neg (by simpa using hl)]
  by_cases hf : ∀ f ∈ filters, ∃ g, f = some g ∧ g ∈ d.filters.map Prod.fst
  swap
  · rw [if_pos]
    · exact ⟨fun ⟨_, h⟩ => (by cases h), fun h => absurd h.2.1 hf⟩
    · push Not at hf
      obtain ⟨f, hm, h⟩ := hf
      refine List.any_eq_true.mpr ⟨f, hm, ?_⟩
      cases f with
      | none => rfl
      | some g => exact known_iff.mpr (h g rfl)
  rw [if_neg]
  swap
  · intro h
    obtain ⟨f, hm, h⟩ := List.any_eq_true.mp h
    obtain ⟨g, rfl, hg⟩ := hf f hm
    exact known_iff.mp h hg
  by_cases hr : reference ∈ d.filters.map Prod.fst
  swap
  · rw [if_pos (known_iff.mpr hr)]; exact ⟨fun ⟨_, h⟩ => (by cases h), fun h => absurd h.2.2.1 hr⟩
  rw [if_neg (fun h => known_iff.mp h hr)]
  cases observers with
  | error e => exact ⟨fun ⟨_, h⟩ => (by cases h), fun ⟨_, _, _, ⟨_, h, _⟩, _⟩ => by cases h⟩
  | ok obs =>
  simp only
  rcases validGeometry_cases obj.rows obs.rows with hv | hv
  swap
  · rw [hv]
    refine ⟨fun ⟨_, h⟩ => (by cases h), fun ⟨_, _, _, ⟨_, h, hg⟩, _⟩ => ?_⟩
    cases h
    rw [(goodRows_iff _ _).mpr hg] at hv
    cases hv
  have hg := (goodRows_iff _ _).mp hv
  rw [hv]
  simp only
  by_cases hH : Fits obj.rows.length H
  swap
  · rw [broadcast_not _ _ hH]; exact ⟨fun ⟨_, h⟩ => (by cases h), fun h => absurd h.2.2.2.2.1 hH⟩
  obtain ⟨Hs, eH, lH, -⟩ := broadcast_fits _ _ hH
  rw [eH]
  by_cases hG : Fits obj.rows.length G
  swap
  · rw [broadcast_not _ _ hG]; exact ⟨fun ⟨_, h⟩ => (by cases h), fun h => absurd h.2.2.2.2.2.1 hG⟩
  obtain ⟨Gs, eG, lG, -⟩ := broadcast_fits _ _ hG
  rw [eG, convert_nil]
  simp only
  cases hT : deltaTable d mag s comp with
  | mk r s2 =>
  cases r with
  | error e => exact ⟨fun ⟨_, h⟩ => (by cases h), fun ⟨_, _, _, _, _, _, _, h⟩ => by cases h⟩
  | ok t =>
    simp only
    refine ⟨fun _ => ⟨hl, hf, hr, ⟨_, rfl, hg⟩, hH, hG, _, rfl⟩, fun _ => ?_⟩
    rw [run_kernel]
    · exact ⟨_, rfl⟩
    · have : (if reference = ['V'] then Hs else Hs.map fun H => minusDelta H ((deltaOf d t reference).getD none)).length
          = obj.rows.length := by split <;> simp [lH]
      simp [this, lG, hg.1, hl]

/-- As far as later calls can tell, a prediction is a conversion with the same composition, or nothing happened. -/
theorem C91_state (d : Data ℝ) (s : State ℝ (Comp ℝ)) (H G : Arg) (obj : Coords) (filters : List (Option Str))
    (observers : Except PyErr Coords) (reference : Str) (comp : Comp ℝ) :
    (predict d s H obj filters observers G reference comp).2 = s ∨
      (predict d s H obj filters observers G reference comp).2 = step d mag s (.convert [] [] [] comp) := by
  simp only [step]
  rw [convert_nil]
  unfold predict
  split
  · exact .inl rfl
  split
  · exact .inl rfl
  split
  · exact .inl rfl
  cases observers with
  | error e => exact .inl rfl
  | ok obs =>
  simp only
  rcases validGeometry_cases obj.rows obs.rows with hv | hv
  swap
  · rw [hv]; exact .inl rfl
  rw [hv]
  simp only
  cases broadcast obj.rows.length H with
  | error e => exact .inl rfl
  | ok Hs =>
  cases broadcast obj.rows.length G with
  | error e => exact .inl rfl
  | ok Gs =>
  right
  simp only
  generalize deltaTable d mag s comp = r
  obtain ⟨r, s2⟩ := r
  cases r <;> rfl

end Verif.Hg.Props
