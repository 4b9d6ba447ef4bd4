import Verif.Horizons.Props
import Mathlib.Analysis.SpecialFunctions.Trigonometric.Basic

/-! # C139: ephemerides from JPL Horizons -/

namespace Verif.Horizons.EphProps

open Verif Sched Horizons Props

variable {O T N : Type}

/-- The row of the result for a row of an answer. -/
def rowFor (stamp : ℚ → T) (code : Str) (i : Nat) (a : EphAnswer N) : Eph T N :=
  ⟨orbitId i, a.name, a.lightMinutes / 1440, a.alpha, stamp a.jd, a.ra, a.dec, code, "ecliptic".toList⟩

theorem ephAll_ok (server : Str → O → List ℚ → Except PyErr (List (EphAnswer N))) (code : Str) (epochs : List ℚ) (l : List (O × Nat))
    (rows : List (EphTagged N)) : ephAll server code epochs l = .ok rows ↔
      ∃ answers : O → List (EphAnswer N), (∀ p ∈ l, server code p.1 epochs = .ok (answers p.1) ∧ (answers p.1).length = epochs.length) ∧
        rows = l.flatMap fun p => (answers p.1).map fun r => ⟨orbitId p.2, code, r⟩ := by
  induction l generalizing rows with
  | nil =>
    simp only [ephAll, Except.ok.injEq]
    exact ⟨fun h => ⟨fun _ => [], by simp, by simp [h]⟩, fun ⟨_, _, h⟩ => by simp [h]⟩
  | cons p l ih =>
    obtain ⟨o, i⟩ := p
    unfold ephAll
    constructor
    · intro h
      cases hs : server code o epochs with
      | error e => rw [hs] at h; simp at h
      | ok a =>
        rw [hs] at h
        simp only at h
        by_cases hl : a.length ≠ epochs.length
        · rw [if_pos hl] at h; simp at h
        · rw [if_neg hl] at h
          cases hm : ephAll server code epochs l with
          | error e => rw [hm] at h; simp at h
          | ok more =>
            rw [hm] at h
            simp only [Except.ok.injEq] at h
            obtain ⟨answers, h1, h2⟩ := (ih more).mp hm
            have same : ∀ p ∈ l, p.1 = o → answers p.1 = a := by
              intro p hp hpo
              have := (h1 p hp).1
              rw [hpo, hs] at this
              rw [hpo]
              exact (Except.ok.inj this).symm
            classical
            refine ⟨fun x => if x = o then a else answers x, ?_, ?_⟩
            · intro p hp
              rcases List.mem_cons.mp hp with rfl | hp
              · simp only [if_true]; exact ⟨hs, by simpa using hl⟩
              · by_cases hpo : p.1 = o
                · simp only [if_pos hpo]
                  have := h1 p hp
                  rw [same p hp hpo] at this
                  exact this
                · simp only [if_neg hpo]
                  exact h1 p hp
            · rw [← h, h2, List.flatMap_cons]
              simp only [if_true]
              congr 1
              refine List.flatMap_congr fun p hp => ?_
              by_cases hpo : p.1 = o
              · rw [if_pos hpo, same p hp hpo]
              · rw [if_neg hpo]
    · rintro ⟨answers, h1, h2⟩
      obtain ⟨ha, hl⟩ := h1 (o, i) (by simp)
      simp only at ha hl
      rw [ha]
      simp only
      rw [if_neg (by simpa using hl), (ih _).mpr ⟨answers, fun p hp => h1 p (by simp [hp]), rfl⟩, h2]
      simp

theorem ephAll_error (server : Str → O → List ℚ → Except PyErr (List (EphAnswer N))) (code : Str) (epochs : List ℚ) (l : List (O × Nat))
    (e : PyErr) (h : ephAll server code epochs l = .error e) :
    ∃ p ∈ l, server code p.1 epochs = .error e ∨ e = .valueError ∧ ∃ a, server code p.1 epochs = .ok a ∧ a.length ≠ epochs.length := by
  induction l with
  | nil => simp [ephAll] at h
  | cons p l ih =>
    obtain ⟨o, i⟩ := p
    unfold ephAll at h
    cases hs : server code o epochs with
    | error e' =>
      rw [hs] at h
      simp only [Except.error.injEq] at h
      exact ⟨(o, i), by simp, .inl (by rw [hs, h])⟩
    | ok a =>
      rw [hs] at h
      simp only at h
      by_cases hl : a.length ≠ epochs.length
      · rw [if_pos hl] at h
        simp only [Except.error.injEq] at h
        exact ⟨(o, i), by simp, .inr ⟨h.symm, a, hs, hl⟩⟩
      · rw [if_neg hl] at h
        cases hm : ephAll server code epochs l with
        | ok more => rw [hm] at h; simp at h
        | error e' =>
          rw [hm] at h
          simp only [Except.error.injEq] at h
          obtain ⟨p, hp, h⟩ := ih (by rw [hm, h])
          exact ⟨p, by simp [hp], h⟩

theorem ephCodes_ok (server : Str → O → List ℚ → Except PyErr (List (EphAnswer N))) (objects : List O) (epochsOf : Str → List ℚ)
    (codes : List Str) (hc : codes.Nodup) (rows : List (EphTagged N)) (h : ephCodes server objects epochsOf codes = .ok rows) :
    (codes ≠ [] → objects ≠ []) ∧ ∃ answers : Str → O → List (EphAnswer N),
      (∀ code ∈ codes, ∀ o ∈ objects, server code o (epochsOf code) = .ok (answers code o) ∧
        (answers code o).length = (epochsOf code).length) ∧
      rows.Perm (codes.flatMap fun code => objects.zipIdx.flatMap fun p => (answers code p.1).map fun r => ⟨orbitId p.2, code, r⟩) := by
  induction codes generalizing rows with
  | nil =>
    simp only [ephCodes, Except.ok.injEq] at h
    exact ⟨by simp, fun _ _ => [], by simp, by simp [← h]⟩
  | cons c rest ih =>
    obtain ⟨hcr, hrest⟩ := List.nodup_cons.mp hc
    unfold ephCodes at h
    cases h1 : ephOne server c objects (epochsOf c) with
    | error e => rw [h1] at h; simp at h
    | ok these =>
      rw [h1] at h
      simp only at h
      cases h2 : ephCodes server objects epochsOf rest with
      | error e => rw [h2] at h; simp at h
      | ok more =>
        rw [h2] at h
        simp only [Except.ok.injEq] at h
        obtain ⟨-, answers, g1, g2⟩ := ih hrest more h2
        unfold ephOne at h1
        cases h3 : ephAll server c (epochsOf c) objects.zipIdx with
        | error e => rw [h3] at h1; simp at h1
        | ok all =>
          rw [h3] at h1
          simp only at h1
          by_cases he : objects.isEmpty = true
          · rw [if_pos he] at h1; simp at h1
          · rw [if_neg he] at h1
            simp only [Except.ok.injEq] at h1
            obtain ⟨mine, k1, k2⟩ := (ephAll_ok server c (epochsOf c) objects.zipIdx all).mp h3
            refine ⟨fun _ => by simpa using he, fun code => if code = c then mine else answers code, ?_, ?_⟩
            · intro code hcode o ho
              by_cases hcc : code = c
              · subst hcc
                simp only [if_true]
                obtain ⟨i, hi⟩ := List.mem_iff_getElem?.mp ho
                exact k1 (o, i) (List.mem_zipIdx_iff_getElem?.mpr hi)
              · simp only [if_neg hcc]
                exact g1 code (by simpa [hcc] using hcode) o ho
            · rw [← h, List.flatMap_cons]
              simp only [if_true]
              refine List.Perm.append ?_ ?_
              · rw [← h1, k2]; exact sortBy_perm _ _
              · refine g2.trans ?_
                rw [List.flatMap_congr fun code hcode => ?_]
                have : code ≠ c := fun h => hcr (h ▸ hcode)
                simp only [if_neg this]

theorem ephCodes_error (server : Str → O → List ℚ → Except PyErr (List (EphAnswer N))) (objects : List O) (epochsOf : Str → List ℚ)
    (codes : List Str) (e : PyErr) (h : ephCodes server objects epochsOf codes = .error e) :
    objects = [] ∧ e = .valueError ∨ ∃ code ∈ codes, ∃ o ∈ objects, server code o (epochsOf code) = .error e ∨
      e = .valueError ∧ ∃ a, server code o (epochsOf code) = .ok a ∧ a.length ≠ (epochsOf code).length := by
  induction codes with
  | nil => simp [ephCodes] at h
  | cons c rest ih =>
    unfold ephCodes at h
    cases h1 : ephOne server c objects (epochsOf c) with
    | ok these =>
      rw [h1] at h
      simp only at h
      cases h2 : ephCodes server objects epochsOf rest with
      | ok more => rw [h2] at h; simp at h
      | error e' =>
        rw [h2] at h
        simp only [Except.error.injEq] at h
        rcases ih (by rw [h2, h]) with h | ⟨code, hc, h⟩
        · exact .inl h
        · exact .inr ⟨code, by simp [hc], h⟩
    | error e' =>
      rw [h1] at h
      simp only [Except.error.injEq] at h
      subst h
      unfold ephOne at h1
      cases h3 : ephAll server c (epochsOf c) objects.zipIdx with
      | error e'' =>
        rw [h3] at h1
        simp only [Except.error.injEq] at h1
        subst h1
        obtain ⟨⟨o, i⟩, hp, h⟩ := ephAll_error server c _ _ _ h3
        exact .inr ⟨c, by simp, o, List.mem_of_getElem? (List.mem_zipIdx_iff_getElem?.mp hp), h⟩
      | ok all =>
        rw [h3] at h1
        simp only at h1
        by_cases he : objects.isEmpty = true
        · rw [if_pos he] at h1
          simp only [Except.error.injEq] at h1
          exact .inl ⟨by simpa using he, h1.symm⟩
        · rw [if_neg he] at h1; simp at h1

/-- The Julian dates of the observers with a code, in the order of the table. -/
def epochsFor (jd : T → ℚ) (observers : List (Str × T)) (code : Str) : List ℚ :=
  (observers.filter fun p => decide (p.1 = code)).map fun p => jd p.2

theorem codes_mem (observers : List (Str × T)) (code : Str) :
    code ∈ sortBy id (uniq (observers.map Prod.fst)) ↔ code ∈ observers.map Prod.fst := by
  rw [(sortBy_perm id _).mem_iff, mem_uniq]

theorem codes_nodup (observers : List (Str × T)) : (sortBy id (uniq (observers.map Prod.fst))).Nodup :=
  ((sortBy_perm id _).nodup_iff).mpr (nodup_uniq _)

/-- A query that succeeds has one answer for every code among the observers and every object, to the dates of that code's observers,
with as many rows as dates. The result has exactly one row for each row of those answers and is sorted by id, date and code. -/
theorem C139_rows (server : Str → O → List ℚ → Except PyErr (List (EphAnswer N))) (jd : T → ℚ) (stamp : ℚ → T) (objects : List O)
    (observers : List (Str × T)) (rows : List (Eph T N)) (h : queryEph server jd stamp objects observers = .ok rows) :
    objects ≠ [] ∧ observers ≠ [] ∧ rows.length = objects.length * observers.length ∧
      ∃ (answers : Str → O → List (EphAnswer N)) (codes : List Str) (dated : List (ℚ × Eph T N)),
        codes.Nodup ∧ (∀ code, code ∈ codes ↔ code ∈ observers.map Prod.fst) ∧
        (∀ code ∈ codes, ∀ o ∈ objects, server code o (epochsFor jd observers code) = .ok (answers code o) ∧
          (answers code o).length = (epochsFor jd observers code).length) ∧
        rows = dated.map Prod.snd ∧
        dated.Perm (codes.flatMap fun code => objects.zipIdx.flatMap fun p => (answers code p.1).map fun a =>
          (a.jd, rowFor stamp code p.2 a)) ∧
        dated.Pairwise fun a b => toLex (a.2.id, toLex (a.1, a.2.origin)) ≤ toLex (b.2.id, toLex (b.1, b.2.origin)) := by
  unfold queryEph at h
  simp only at h
  cases hc : ephCodes server objects (epochsFor jd observers) (sortBy id (uniq (observers.map Prod.fst))) with
  | error e => unfold epochsFor at hc; rw [hc] at h; simp at h
  | ok tagged =>
    have hc' := hc
    unfold epochsFor at hc'
    rw [hc'] at h
    simp only at h
    by_cases he : (sortBy id (uniq (observers.map Prod.fst))).isEmpty = true
    · rw [if_pos he] at h; simp at h
    · rw [if_neg he] at h
      simp only [Except.ok.injEq] at h
      obtain ⟨h1, answers, h2, h3⟩ := ephCodes_ok server objects _ _ (codes_nodup observers) tagged hc
      have hcodes : sortBy id (uniq (observers.map Prod.fst)) ≠ [] := by simpa using he
      have hobs : observers ≠ [] := by
        rintro rfl
        exact hcodes rfl
      have hp : ((sortBy ephKey tagged).map fun r => (r.row.jd, (⟨r.id, r.row.name, r.row.lightMinutes / 1440, r.row.alpha,
          stamp r.row.jd, r.row.ra, r.row.dec, r.code, "ecliptic".toList⟩ : Eph T N))).Perm
          ((sortBy id (uniq (observers.map Prod.fst))).flatMap fun code => objects.zipIdx.flatMap fun p =>
            (answers code p.1).map fun a => (a.jd, rowFor stamp code p.2 a)) := by
        refine (((sortBy_perm ephKey tagged).trans h3).map _).trans ?_
        simp only [List.map_flatMap, List.map_map]
        exact List.Perm.refl _
      refine ⟨h1 hcodes, hobs, ?_, answers, _, _, codes_nodup observers, codes_mem observers, h2, ?_, hp, ?_⟩
      · rw [← h, List.length_map, ← List.length_map, hp.length_eq]
        have hgroups := (Catalog.Props.groups_all Prod.fst (sortBy id (uniq (observers.map Prod.fst))) (codes_nodup observers) observers
          (fun r hr => (codes_mem observers _).mpr (List.mem_map.mpr ⟨r, hr, rfl⟩))).length_eq
        rw [List.length_flatten, List.map_map] at hgroups
        rw [List.length_flatMap, ← hgroups, ← List.sum_map_mul_left]
        congr 1
        refine List.map_congr_left fun code hcode => ?_
        rw [List.length_flatMap]
        have : (objects.zipIdx.map fun p => ((answers code p.1).map fun a => (a.jd, rowFor stamp code p.2 a)).length) =
            objects.zipIdx.map fun _ => (epochsFor jd observers code).length := by
          refine List.map_congr_left fun p hp => ?_
          rw [List.length_map]
          exact (h2 code hcode p.1 (List.mem_of_getElem? (List.mem_zipIdx_iff_getElem?.mp hp))).2
        rw [this, List.map_const', List.sum_replicate, List.length_zipIdx]
        simp [epochsFor]
      · rw [← h, List.map_map]
        rfl
      · rw [List.pairwise_map]
        exact (sortBy_sorted ephKey tagged).imp fun h => h

/-- The query fails exactly when there are no observers or no objects, or an object cannot be had from an observatory or comes with
another number of rows than dates asked for; other than for the server's own exceptions the failure is a `ValueError`. -/
theorem C139_errors (server : Str → O → List ℚ → Except PyErr (List (EphAnswer N))) (jd : T → ℚ) (stamp : ℚ → T) (objects : List O)
    (observers : List (Str × T)) :
    ((∃ e, queryEph server jd stamp objects observers = .error e) ↔ objects = [] ∨ observers = [] ∨
      ∃ code ∈ observers.map Prod.fst, ∃ o ∈ objects, ∀ a, server code o (epochsFor jd observers code) = .ok a →
        a.length ≠ (epochsFor jd observers code).length) ∧
    ∀ e, queryEph server jd stamp objects observers = .error e → e = .valueError ∨
      ∃ code ∈ observers.map Prod.fst, ∃ o ∈ objects, server code o (epochsFor jd observers code) = .error e := by
  have key : ∀ e, queryEph server jd stamp objects observers = .error e →
      ((objects = [] ∨ observers = []) ∧ e = .valueError) ∨
      ∃ code ∈ observers.map Prod.fst, ∃ o ∈ objects, server code o (epochsFor jd observers code) = .error e ∨
        e = .valueError ∧ ∃ a, server code o (epochsFor jd observers code) = .ok a ∧ a.length ≠ (epochsFor jd observers code).length := by
    intro e h
    unfold queryEph at h
    simp only at h
    cases hc : ephCodes server objects (epochsFor jd observers) (sortBy id (uniq (observers.map Prod.fst))) with
    | error e' =>
      have hc' := hc
      unfold epochsFor at hc'
      rw [hc'] at h
      simp only [Except.error.injEq] at h
      subst h
      rcases ephCodes_error server objects _ _ _ hc with ⟨h1, h2⟩ | ⟨code, hcode, h⟩
      · exact .inl ⟨.inl h1, h2⟩
      · exact .inr ⟨code, (codes_mem observers code).mp hcode, h⟩
    | ok tagged =>
      have hc' := hc
      unfold epochsFor at hc'
      rw [hc'] at h
      simp only at h
      by_cases he : (sortBy id (uniq (observers.map Prod.fst))).isEmpty = true
      · rw [if_pos he] at h
        simp only [Except.error.injEq] at h
        refine .inl ⟨.inr ?_, h.symm⟩
        by_contra hne
        obtain ⟨p, hp⟩ := List.exists_mem_of_ne_nil observers hne
        have := (codes_mem observers p.1).mpr (List.mem_map.mpr ⟨p, hp, rfl⟩)
        rw [List.isEmpty_iff.mp he] at this
        simp at this
      · rw [if_neg he] at h; simp at h
  refine ⟨⟨fun ⟨e, h⟩ => ?_, fun h => ?_⟩, fun e h => ?_⟩
  · rcases key e h with ⟨h | h, -⟩ | ⟨code, hc, o, ho, h⟩
    · exact .inl h
    · exact .inr (.inl h)
    · refine .inr (.inr ⟨code, hc, o, ho, fun a ha => ?_⟩)
      rcases h with h | ⟨-, b, hb, hl⟩
      · rw [h] at ha; simp at ha
      · rw [hb] at ha
        rw [← Except.ok.inj ha]
        exact hl
  · cases hq : queryEph server jd stamp objects observers with
    | error e => exact ⟨e, rfl⟩
    | ok rows =>
      exfalso
      obtain ⟨h1, h2, -, answers, codes, -, -, hm, h3, -⟩ := C139_rows server jd stamp objects observers rows hq
      rcases h with h | h | ⟨code, hc, o, ho, h⟩
      · exact h1 h
      · exact h2 h
      · obtain ⟨a, b⟩ := h3 code ((hm code).mpr hc) o ho
        exact h _ a b
  · rcases key e h with ⟨-, h⟩ | ⟨code, hc, o, ho, h⟩
    · exact .inl h
    · rcases h with h | ⟨h, -⟩
      · exact .inr ⟨code, hc, o, ho, h⟩
      · exact .inl h

/-- For a server that answers every date asked for with one row, the rows are those of all pairs of an observer and an object. -/
theorem C139_pairs (server : Str → O → List ℚ → Except PyErr (List (EphAnswer N))) (jd : T → ℚ) (stamp : ℚ → T) (objects : List O)
    (ho : objects ≠ []) (observers : List (Str × T)) (hobs : observers ≠ []) (truth : Str → O → ℚ → EphAnswer N)
    (hs : ∀ code o l, server code o l = .ok (l.map (truth code o))) :
    ∃ rows, queryEph server jd stamp objects observers = .ok rows ∧
      rows.Perm (observers.flatMap fun obs => objects.zipIdx.map fun p => rowFor stamp obs.1 p.2 (truth obs.1 p.1 (jd obs.2))) := by
  cases hq : queryEph server jd stamp objects observers with
  | error e =>
    rcases (C139_errors server jd stamp objects observers).1.mp ⟨e, hq⟩ with h | h | ⟨code, -, o, -, h⟩
    · exact absurd h ho
    · exact absurd h hobs
    · exact absurd (by simp) (h _ (hs _ _ _))
  | ok rows =>
    refine ⟨rows, rfl, ?_⟩
    obtain ⟨-, -, -, answers, codes, dated, hn, hm, h3, h4, h5, -⟩ := C139_rows server jd stamp objects observers rows hq
    rw [h4]
    refine (h5.map _).trans ?_
    have hans : ∀ code ∈ codes, ∀ o ∈ objects, answers code o = (epochsFor jd observers code).map (truth code o) := by
      intro code hc o ho'
      have := (h3 code hc o ho').1
      rw [hs] at this
      exact (Except.ok.inj this).symm
    have hgroups := Catalog.Props.groups_all Prod.fst codes hn observers
      (fun r hr => (hm _).mpr (List.mem_map.mpr ⟨r, hr, rfl⟩))
    refine List.Perm.trans ?_ (hgroups.flatMap_right _)
    rw [List.map_flatMap, List.flatten_eq_flatMap, List.flatMap_map, List.flatMap_assoc]
    refine List.Perm.flatMap_left _ fun code hc => ?_
    have h1 : (objects.zipIdx.flatMap fun p => (answers code p.1).map fun a => (a.jd, rowFor stamp code p.2 a)).map Prod.snd =
        objects.zipIdx.flatMap fun p => (observers.filter fun r => decide (r.1 = code)).map fun obs =>
          rowFor stamp code p.2 (truth code p.1 (jd obs.2)) := by
      rw [List.map_flatMap]
      refine List.flatMap_congr fun p hp => ?_
      rw [hans code hc p.1 (List.mem_of_getElem? (List.mem_zipIdx_iff_getElem?.mp hp))]
      simp only [epochsFor, List.map_map]
      rfl
    rw [h1]
    refine (Props.swap_perm _ _ _).trans (List.Perm.of_eq ?_)
    refine List.flatMap_congr fun obs hobs' => ?_
    have : obs.1 = code := of_decide_eq_true (List.mem_filter.mp hobs').2
    simp only [id, this]

/-- The light time is in days: the minutes of the answer divided by 1440. Longitude and latitude are the right ascension and declination
of the answer and the origin is the observatory, but the frame is called ecliptic. -/
theorem C139_frame (server : Str → O → List ℚ → Except PyErr (List (EphAnswer N))) (jd : T → ℚ) (stamp : ℚ → T) (objects : List O)
    (observers : List (Str × T)) (rows : List (Eph T N)) (h : queryEph server jd stamp objects observers = .ok rows) :
    ∀ r ∈ rows, r.frame = "ecliptic".toList ∧ ∃ code ∈ observers.map Prod.fst, ∃ o ∈ objects, ∃ answer,
      server code o (epochsFor jd observers code) = .ok answer ∧ ∃ a ∈ answer,
        r.lon = a.ra ∧ r.lat = a.dec ∧ r.origin = code ∧ r.lightTime * 1440 = a.lightMinutes ∧ r.time = stamp a.jd := by
  intro r hr
  obtain ⟨-, -, -, answers, codes, dated, -, hm, h3, h4, h5, -⟩ := C139_rows server jd stamp objects observers rows h
  rw [h4] at hr
  obtain ⟨d, hd, rfl⟩ := List.mem_map.mp hr
  obtain ⟨code, hc, hd⟩ := List.mem_flatMap.mp (h5.mem_iff.mp hd)
  obtain ⟨p, hp, hd⟩ := List.mem_flatMap.mp hd
  obtain ⟨a, ha, rfl⟩ := List.mem_map.mp hd
  have ho := List.mem_of_getElem? (List.mem_zipIdx_iff_getElem?.mp hp)
  refine ⟨rfl, code, (hm code).mp hc, p.1, ho, answers code p.1, (h3 code hc p.1 ho).1, a, ha, rfl, rfl, rfl, ?_, rfl⟩
  show a.lightMinutes / 1440 * 1440 = _
  field_simp

/-- The direction of a longitude and a latitude. -/
noncomputable def direction (lon lat : ℝ) : ℝ × ℝ × ℝ :=
  (Real.cos lat * Real.cos lon, Real.cos lat * Real.sin lon, Real.sin lat)

/-- The equatorial direction of an ecliptic one. -/
noncomputable def toEquatorial (ε : ℝ) (v : ℝ × ℝ × ℝ) : ℝ × ℝ × ℝ :=
  (v.1, Real.cos ε * v.2.1 - Real.sin ε * v.2.2, Real.sin ε * v.2.1 + Real.cos ε * v.2.2)

/-- Not true that the direction of a row, read in the frame it names, is the direction of the object: right ascension and declination
read as ecliptic longitude and latitude give the true direction only for the two equinoxes. -/
theorem C139_direction_false (ε ra dec : ℝ) (hε : 0 < ε) (hε' : ε < Real.pi) :
    toEquatorial ε (direction ra dec) = direction ra dec ↔
      direction ra dec = (1, 0, 0) ∨ direction ra dec = (-1, 0, 0) := by
  have hs : 0 < Real.sin ε := Real.sin_pos_of_pos_of_lt_pi hε hε'
  have hone := Real.sin_sq_add_cos_sq ε
  have hnorm : (direction ra dec).1 ^ 2 + (direction ra dec).2.1 ^ 2 + (direction ra dec).2.2 ^ 2 = 1 := by
    unfold direction
    have h1 := Real.sin_sq_add_cos_sq ra
    have h2 := Real.sin_sq_add_cos_sq dec
    linear_combination (Real.cos dec) ^ 2 * h1 + h2
  generalize direction ra dec = v at hnorm ⊢
  obtain ⟨x, y, z⟩ := v
  simp only [toEquatorial, Prod.mk.injEq, true_and] at hnorm ⊢
  constructor
  · rintro ⟨h1, h2⟩
    -- (c-1) y = s z, s y = (1-c) z, so (s^2 + (1-c)^2) = 2(1-c) multiplies both to zero
    have hc : Real.cos ε ≠ 1 := by
      intro h
      rw [h] at hone
      have : Real.sin ε ^ 2 = 0 := by linarith
      exact absurd (pow_eq_zero_iff (by norm_num) |>.mp this) (ne_of_gt hs)
    have hy : (1 - Real.cos ε) * y = 0 := by
      have : 2 * ((1 - Real.cos ε) * y) = 0 := by linear_combination (-(1 - Real.cos ε)) * h1 + Real.sin ε * h2 - y * hone
      linarith
    have hz : (1 - Real.cos ε) * z = 0 := by
      have : 2 * ((1 - Real.cos ε) * z) = 0 := by linear_combination (-(1 - Real.cos ε)) * h2 - Real.sin ε * h1 - z * hone
      linarith
    have hne : 1 - Real.cos ε ≠ 0 := sub_ne_zero.mpr (Ne.symm hc)
    have hy0 : y = 0 := (mul_eq_zero.mp hy).resolve_left hne
    have hz0 : z = 0 := (mul_eq_zero.mp hz).resolve_left hne
    subst hy0; subst hz0
    have : (x - 1) * (x + 1) = 0 := by nlinarith
    rcases mul_eq_zero.mp this with h | h
    · left; exact ⟨by linarith, rfl, rfl⟩
    · right; exact ⟨by linarith, rfl, rfl⟩
  · rintro (⟨rfl, rfl, rfl⟩ | ⟨rfl, rfl, rfl⟩) <;> simp

/-- Two observatories, three dates and one object: three rows, by date. -/
theorem C139_case :
    let server : Str → Nat → List ℚ → Except PyErr (List (EphAnswer Nat)) := fun _ o l => .ok (l.map fun e => ⟨e, o, e, 0, 144, 0⟩)
    (match queryEph server (fun t : ℚ => t) (fun j => j) [4] [("I41".toList, 3), ("500".toList, 2), ("I41".toList, 1)] with
      | .ok l => decide (l.map (fun r => (r.object, r.time, r.origin, r.lightTime)) =
          [(4, 1, "I41".toList, 1 / 10), (4, 2, "500".toList, 1 / 10), (4, 3, "I41".toList, 1 / 10)])
      | .error _ => false) = true := by
  decide +kernel

end Verif.Horizons.EphProps
