import Verif.Band.Packaged
import Verif.Band.ResolveProps

/-! # The packaged filters and bands: the properties -/

namespace Verif.Band.ResolveProps

open Verif Band Spec

theorem packaged_filters_nodup : packagedFilters.Nodup := by decide +kernel

theorem packaged_keys_nodup : (bandMappings.map fun m => (m.1, m.2.1)).Nodup := by decide +kernel

theorem packaged_targets : ∀ m ∈ bandMappings, m.2.2 ∈ packagedFilters := by decide +kernel

theorem packaged_plain : ∀ m ∈ bandMappings, '|' ∉ m.1 ∧ '|' ∉ m.2.1 := by decide +kernel

/-- A key is the code and the band. -/
theorem key_inj {c b c' b' : Str} (h1 : '|' ∉ c') (h2 : '|' ∉ b') (h : c ++ '|' :: b = c' ++ '|' :: b') : c = c' ∧ b = b' := by
  induction c generalizing c' with
  | nil =>
    cases c' with
    | nil => exact ⟨rfl, by simpa using h⟩
    | cons x c' =>
      rw [List.nil_append, List.cons_append] at h
      injection h with e _
      exact absurd (by rw [← e]; simp) h1
  | cons x c ih =>
    cases c' with
    | nil =>
      rw [List.nil_append, List.cons_append] at h
      injection h with e1 e2
      refine absurd ?_ h2
      rw [← e2]
      simp
    | cons y c' =>
      rw [List.cons_append, List.cons_append] at h
      injection h with e1 e2
      obtain ⟨r1, r2⟩ := ih (fun hm => h1 (List.mem_cons_of_mem _ hm)) e2
      exact ⟨by rw [e1, r1], r2⟩

theorem lookup_mappings (l : List (Str × Str × Str)) (hk : (l.map fun m => (m.1, m.2.1)).Nodup)
    (hp : ∀ m ∈ l, '|' ∉ m.1 ∧ '|' ∉ m.2.1) (c b f : Str) :
    (l.map fun m => (m.1 ++ '|' :: m.2.1, m.2.2)).lookup (c ++ '|' :: b) = some f ↔ (c, b, f) ∈ l := by
  induction l with
  | nil => simp
  | cons m l ih =>
    obtain ⟨c', b', f'⟩ := m
    rw [List.map_cons, List.nodup_cons] at hk
    have ih := ih hk.2 fun m hm => hp m (List.mem_cons_of_mem _ hm)
    rw [List.map_cons, List.lookup_cons]
    by_cases he : c ++ '|' :: b = c' ++ '|' :: b'
    · obtain ⟨rfl, rfl⟩ := key_inj (hp (c', b', f') (by simp)).1 (hp (c', b', f') (by simp)).2 he
      rw [beq_self_eq_true]
      simp only [List.mem_cons, Prod.mk.injEq, true_and]
      constructor
      · intro h; left; exact (Option.some.inj h).symm
      · rintro (rfl | hm)
        · rfl
        · exact absurd (List.mem_map.mpr ⟨_, hm, rfl⟩) hk.1
    · have hb : (c ++ '|' :: b == c' ++ '|' :: b') = false := by simpa using he
      simp only [hb]
      rw [ih, List.mem_cons]
      constructor
      · exact Or.inr
      · rintro (h | h)
        · cases h; exact absurd rfl he
        · exact h

/-- In the packaged map a station and band have at most one filter, and a row is found exactly under its station and band. -/
theorem packaged_lookup (c b f : Str) : packaged.mapping.lookup (c ++ ['|'] ++ b) = some f ↔ (c, b, f) ∈ bandMappings := by
  have e : c ++ ['|'] ++ b = c ++ '|' :: b := by simp
  rw [e]
  exact lookup_mappings _ packaged_keys_nodup packaged_plain c b f

/-- With the packaged tables every filter that a row resolves to has a curve, fallback or not. -/
theorem packaged_curve {c b : Option Str} {f : Str} {u : Bool} (h : Resolves packaged c b f u) : f ∈ packaged.curves := by
  cases h with
  | known _ _ h => exact h
  | mapped c b name _ _ _ hl => exact packaged_targets _ ((packaged_lookup c name f).mp hl)
  | fallback _ x _ _ _ hx hf =>
    have key : ∀ y ∈ letters, (if y = 'y' then "PS1_y".toList else "SDSS_".toList ++ [y]) ∈ packagedFilters := by decide +kernel
    rw [hf]
    exact key _ hx

/-- With the packaged tables there are no suggestions without a curve: with `on_unknown="skip"` columns of one length are never refused,
and with `"raise"` they are refused exactly if some row has no filter. -/
theorem C162_total (codes bands : List (Option Str)) (allow : Bool) (h : codes.length = bands.length) :
    (∃ out, mapBands packaged codes bands allow .skip = .ok out) ∧
    ((∃ out, mapBands packaged codes bands allow .raise = .ok out) ↔
      ∀ (i : Nat) (c b : Option Str), codes[i]? = some c → bands[i]? = some b → ∃ f, Answer packaged allow c b f) := by
  have hrow : ∀ r ∈ rowsOf packaged codes bands, ∃ (i : Nat) (c b : Option Str), codes[i]? = some c ∧ bands[i]? = some b ∧
      (rowsOf packaged codes bands)[i]? = some r ∧ ∀ f u, Resolves packaged c b f u ↔ r = (some f, u) := by
    intro r hr
    obtain ⟨i, hi, hri⟩ := List.getElem_of_mem hr
    have hl := rowsOf_length packaged h
    have hb : bands[i]? = some bands[i] := List.getElem?_eq_getElem (by omega)
    have hc : codes[i]? = some codes[i] := List.getElem?_eq_getElem (by omega)
    obtain ⟨r', hr', hres⟩ := rowsOf_at packaged hc hb
    have : r' = r := by
      rw [List.getElem?_eq_getElem hi, hri] at hr'
      exact (Option.some.inj hr').symm
    subst this
    exact ⟨i, _, _, hc, hb, hr', hres⟩
  have hcurve : ∀ r ∈ rowsOf packaged codes bands, noCurve packaged (answerOf allow r) = false := by
    intro r hr
    obtain ⟨i, c, b, -, -, -, hres⟩ := hrow r hr
    cases ha : answerOf allow r with
    | none => rfl
    | some f =>
      obtain ⟨u, hu, -⟩ := (answer_iff hres allow f).mp ha
      have := packaged_curve hu
      unfold noCurve
      simpa using this
  constructor
  · rw [mapBands_eq, if_pos ⟨h, by decide, fun h => (by cases h), hcurve⟩]
    exact ⟨_, rfl⟩
  · rw [mapBands_eq]
    constructor
    · rintro ⟨out, ho⟩ i c b hc hb
      split at ho
      · rename_i hcond
        obtain ⟨r, hr, hres⟩ := rowsOf_at packaged hc hb
        have := hcond.2.2.1 rfl r (List.mem_of_getElem? hr)
        obtain ⟨f, hf⟩ := Option.ne_none_iff_exists'.mp this
        exact ⟨f, (answer_iff hres allow f).mp hf⟩
      · cases ho
    · intro hall
      rw [if_pos]
      · exact ⟨_, rfl⟩
      · refine ⟨h, by decide, fun _ r hr => ?_, hcurve⟩
        obtain ⟨i, c, b, hc, hb, -, hres⟩ := hrow r hr
        obtain ⟨f, hf⟩ := hall i c b hc hb
        rw [(answer_iff hres allow f).mpr hf]
        simp

/-- The filter of a row, without fallbacks, is the band itself if it is a filter, and otherwise the one in the map for this station and
the band that is meant. -/
theorem C162_map (code b f : Str) :
    Resolves packaged (some code) (some b) f false ↔
      (b ∈ packagedFilters ∧ f = b) ∨ (b ∉ packagedFilters ∧ ∃ name, Reported code b name ∧ (code, name, f) ∈ bandMappings) := by
  constructor
  · intro h
    cases h with
    | known _ _ h => exact Or.inl ⟨h, rfl⟩
    | mapped _ _ name _ hn hr hl => exact Or.inr ⟨hn, name, hr, (packaged_lookup _ _ _).mp hl⟩
  · rintro (⟨h, rfl⟩ | ⟨hn, name, hr, hm⟩)
    · exact .known _ _ h
    · exact .mapped _ _ name _ hn hr ((packaged_lookup _ _ _).mpr hm)

/-- The filters of a survey go to its stations only: a band that is not a filter itself and no fallback resolves to a filter of the
station that reports it. -/
theorem C162_station {code b f : Str} (h : Resolves packaged (some code) (some b) f false) (hb : b ∉ packagedFilters) :
    ∃ survey ∈ [("W84".toList, "DECam_".toList), ("695".toList, "Mosaic3_".toList), ("I41".toList, "ZTF_".toList),
      ("Q55".toList, "SkyMapper_".toList), ("X05".toList, "LSST_".toList), ("T08".toList, "ATLAS_".toList), ("T05".toList, "ATLAS_".toList),
      ("M22".toList, "ATLAS_".toList), ("W68".toList, "ATLAS_".toList), ("V00".toList, "BASS_".toList), ("F51".toList, "PS1_".toList),
      ("F52".toList, "PS1_".toList)], survey.1 = code ∧ ∃ rest, f = survey.2 ++ rest := by
  rcases (C162_map code b f).mp h with ⟨h1, -⟩ | ⟨-, name, -, hm⟩
  · exact absurd h1 hb
  · have key : ∀ m ∈ bandMappings, ∃ survey ∈ [("W84".toList, "DECam_".toList), ("695".toList, "Mosaic3_".toList), ("I41".toList, "ZTF_".toList),
      ("Q55".toList, "SkyMapper_".toList), ("X05".toList, "LSST_".toList), ("T08".toList, "ATLAS_".toList), ("T05".toList, "ATLAS_".toList),
      ("M22".toList, "ATLAS_".toList), ("W68".toList, "ATLAS_".toList), ("V00".toList, "BASS_".toList), ("F51".toList, "PS1_".toList),
      ("F52".toList, "PS1_".toList)], survey.1 = m.1 ∧ survey.2.isPrefixOf m.2.2 = true := by decide +kernel
    obtain ⟨s, hs, e, hp⟩ := key _ hm
    obtain ⟨rest, hrest⟩ := List.isPrefixOf_iff_prefix.mp hp
    exact ⟨s, hs, e, rest, hrest.symm⟩

/-- Band `w` is Pan-STARRS' wide filter for the two Pan-STARRS stations and unknown for every other one. -/
theorem C162_wide (code f : Str) (u : Bool) :
    Resolves packaged (some code) (some "w".toList) f u ↔
      (code = "F51".toList ∨ code = "F52".toList) ∧ f = "PS1_w".toList ∧ u = false := by
  have hw : "w".toList ∉ packagedFilters := by decide +kernel
  have hname : ∀ name, Reported code "w".toList name ↔ name = "w".toList := by
    intro name
    rw [reported_iff]
    have : rewrite "w".toList = "w".toList := by decide
    rw [this, ite_self]
  cases u with
  | false =>
    rw [C162_map]
    simp only [hw, false_and, false_or, not_false_iff, true_and, hname, and_true]
    have key : ∀ m ∈ bandMappings, m.2.1 = "w".toList → (m.1 = "F51".toList ∨ m.1 = "F52".toList) ∧ m.2.2 = "PS1_w".toList := by
      decide +kernel
    constructor
    · rintro ⟨name, rfl, hm⟩
      exact key _ hm rfl
    · rintro ⟨rfl | rfl, rfl⟩
      · exact ⟨_, rfl, by decide +kernel⟩
      · exact ⟨_, rfl, by decide +kernel⟩
  | true =>
    constructor
    · intro h
      cases h with
      | fallback _ x _ _ _ hx _ =>
        exact absurd hx (by decide)
    · rintro ⟨-, -, h⟩
      cases h

/-- The capital letters U, R and I of the Johnson and Cousins systems are not resolved to the packaged Bessell filters but, as a fallback,
to those of SDSS, for stations that have no mapping of their own; B is not resolved. -/
theorem C162_johnson (code : Str) (h : ∀ m ∈ bandMappings, m.1 ≠ code) :
    Resolves packaged (some code) (some ['U']) "SDSS_u".toList true ∧ Resolves packaged (some code) (some ['R']) "SDSS_r".toList true ∧
    Resolves packaged (some code) (some ['I']) "SDSS_i".toList true ∧ Resolves packaged (some code) (some ['V']) "V".toList false ∧
    ∀ f u, ¬ Resolves packaged (some code) (some ['B']) f u := by
  have hno : ∀ name, packaged.mapping.lookup (code ++ ['|'] ++ name) = none := by
    intro name
    cases hl : packaged.mapping.lookup (code ++ ['|'] ++ name) with
    | none => rfl
    | some f => exact absurd rfl (h _ ((packaged_lookup _ _ _).mp hl))
  refine ⟨?_, ?_, ?_, ?_, ?_⟩
  · refine .fallback _ _ _ (by decide +kernel) ?_ (by decide) (by decide)
    intro c name hc _
    cases hc
    exact hno name
  · refine .fallback _ _ _ (by decide +kernel) ?_ (by decide) (by decide)
    intro c name hc _
    cases hc
    exact hno name
  · refine .fallback _ _ _ (by decide +kernel) ?_ (by decide) (by decide)
    intro c name hc _
    cases hc
    exact hno name
  · exact .known _ _ (by decide +kernel)
  · intro f u hr
    cases hr with
    | known _ _ hk => revert hk; decide +kernel
    | mapped _ _ name _ _ _ hl => rw [hno name] at hl; cases hl
    | fallback _ x _ _ _ hx _ => revert hx; decide

/-- Resolving again changes nothing, for any stations, and the filters pass the check for curves. -/
theorem C162_again {codes bands out : List (Option Str)} {allow : Bool} {mode : OnUnknown}
    (h : mapBands packaged codes bands allow mode = .ok out) (codes' : List (Option Str)) (hc : codes'.length = out.length) (allow' : Bool) :
    mapBands packaged codes' out allow' .skip = .ok out ∧
    ((∀ o ∈ out, o ≠ none) → mapBands packaged codes' out allow' .raise = .ok out ∧ assertCurves packaged out = .ok ()) := by
  have hcur : ∀ o ∈ out, ∀ f, o = some f → f ∈ packaged.curves := by
    rw [mapBands_eq] at h
    split at h
    · rename_i hcond
      cases h
      intro o ho f hf
      obtain ⟨r, hr, rfl⟩ := List.mem_map.mp ho
      have := hcond.2.2.2 r hr
      rw [hf] at this
      unfold noCurve at this
      simpa using this
    · cases h
  have hrow : ∀ (c o m : Option Str), o ∈ out → (o = none → m = none ∨ c = none) → resolveRow packaged c o m = (o, false) := by
    intro c o m ho hm
    cases o with
    | none =>
      have : keyOf c m = none := by
        rcases hm rfl with rfl | rfl
        · cases c <;> rfl
        · rfl
      unfold resolveRow
      rw [this]
      rfl
    | some f =>
      have := hcur _ ho f rfl
      unfold resolveRow
      simp [this]
  have hrows : rowsOf packaged codes' out = out.map fun o => (o, false) := by
    apply List.ext_getElem?
    intro i
    rw [List.getElem?_map]
    cases hi : out[i]? with
    | none =>
      rw [Option.map_none, List.getElem?_eq_none_iff, rowsOf_length packaged hc]
      exact List.getElem?_eq_none_iff.mp hi
    | some o =>
      have hlt : i < out.length := (List.getElem?_eq_some_iff.mp hi).1
      have hci : codes'[i]? = some codes'[i] := List.getElem?_eq_getElem (by omega)
      obtain ⟨m, hm1, hm2⟩ := normalize_at hci hi
      unfold rowsOf
      rw [List.getElem?_zipWith, hci, List.zip, List.getElem?_zipWith, hi, hm1]
      simp only [Option.map_some, Option.some.injEq]
      apply hrow _ _ _ (List.mem_of_getElem? hi)
      rintro rfl
      cases hcc : codes'[i] with
      | none => exact Or.inr rfl
      | some c' =>
        left
        rw [hm2 c' hcc]
        split <;> rfl
  have hans : ∀ r ∈ rowsOf packaged codes' out, answerOf allow' r = r.1 := by
    intro r hr
    rw [hrows] at hr
    obtain ⟨o, -, rfl⟩ := List.mem_map.mp hr
    unfold answerOf
    simp
  have hmap : (rowsOf packaged codes' out).map (answerOf allow') = out := by
    rw [List.map_congr_left hans, hrows, List.map_map]
    exact List.map_id _
  have hnc : ∀ r ∈ rowsOf packaged codes' out, noCurve packaged (answerOf allow' r) = false := by
    intro r hr
    rw [hans r hr]
    rw [hrows] at hr
    obtain ⟨o, ho, rfl⟩ := List.mem_map.mp hr
    cases o with
    | none => rfl
    | some f =>
      have := hcur _ ho f rfl
      unfold noCurve
      simpa using this
  refine ⟨?_, fun hall => ⟨?_, ?_⟩⟩
  · rw [mapBands_eq, if_pos ⟨hc, by decide, fun h => (by cases h), hnc⟩, hmap]
  · have hsome : ∀ r ∈ rowsOf packaged codes' out, answerOf allow' r ≠ none := by
      intro r hr
      rw [hans r hr]
      rw [hrows] at hr
      obtain ⟨o, ho, rfl⟩ := List.mem_map.mp hr
      exact hall o ho
    rw [mapBands_eq, if_pos ⟨hc, by decide, fun _ => hsome, hnc⟩, hmap]
  · unfold assertCurves
    rw [if_neg]
    intro hany
    obtain ⟨o, ho, hp⟩ := List.any_eq_true.mp hany
    cases o with
    | none => exact hall _ ho rfl
    | some f =>
      have := hcur _ ho f rfl
      simp only [decide_eq_true_eq] at hp
      exact hp this

example : Resolves packaged (some "W84".toList) (some "VR".toList) "DECam_VR".toList false :=
  (C162_map _ _ _).mpr (Or.inr ⟨by decide +kernel, _, (reported_iff _ _ _).mpr rfl, by decide +kernel⟩)

/-- `assert_filter_ids_have_curves` accepts exactly the lists all of whose entries are filters with a curve; an entry that is missing
makes it a ValueError like an unknown one. -/
theorem C162_assert (t : Tables) (ids : List (Option Str)) :
    (assertCurves t ids = .ok () ↔ ∀ i ∈ ids, ∃ f ∈ t.curves, i = some f) ∧
    (assertCurves t ids = .ok () ∨ assertCurves t ids = .error .valueError) := by
  unfold assertCurves
  split
  · rename_i h
    rw [List.any_eq_true] at h
    obtain ⟨i, hi, hb⟩ := h
    refine ⟨⟨fun e => (by cases e), fun hall => ?_⟩, Or.inr rfl⟩
    obtain ⟨f, hf, rfl⟩ := hall i hi
    simp [hf] at hb
  · rename_i h
    refine ⟨⟨fun _ i hi => ?_, fun _ => rfl⟩, Or.inl rfl⟩
    rw [List.any_eq_true] at h
    cases i with
    | none => exact absurd ⟨none, hi, rfl⟩ h
    | some f =>
      refine ⟨f, ?_, rfl⟩
      by_contra hf
      exact h ⟨some f, hi, by simp [hf]⟩

end Verif.Band.ResolveProps
