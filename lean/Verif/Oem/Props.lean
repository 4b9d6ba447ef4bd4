import Verif.Oem.Spec
import Verif.Sched.Orbits
import Verif.Units.Props
import Verif.Tri.Props
import Mathlib.Data.Rat.Defs

/-! # OEM files: the properties -/

set_option linter.unusedSectionVars false

namespace Verif.Oem.Props

open Verif Sched Spec

theorem lookup_some {m : List (String × String)} {k v : String} (h : m.lookup k = some v) : (k, v) ∈ m := by
  induction m with
  | nil => cases h
  | cons e m ih =>
    obtain ⟨a, b⟩ := e
    rw [List.lookup_cons] at h
    by_cases hk : k == a
    · simp only [hk] at h
      obtain rfl : k = a := by simpa using hk
      cases h
      simp
    · simp only [hk] at h
      exact List.mem_cons_of_mem _ (ih h)

theorem look_ok {m : List (String × String)} {k v : String} (h : look m k = .ok v) : (k, v) ∈ m := by
  unfold look at h
  cases hl : m.lookup k with
  | none => rw [hl] at h; cases h
  | some w =>
    rw [hl] at h
    cases h
    exact lookup_some hl

theorem look_error {m : List (String × String)} {k : String} (h : k ∉ m.map Prod.fst) : look m k = .error .valueError := by
  unfold look
  cases hl : m.lookup k with
  | none => rfl
  | some w => exact absurd (List.mem_map_of_mem (f := Prod.fst) (lookup_some hl)) h

/-- Exactly the equatorial and ITRF93 frames are written, and each is read back. -/
theorem C66_frames (f : String) :
    (f ∈ ["equatorial", "itrf93"] → ∃ g, toOemFrame f = .ok g ∧ fromOemFrame g = .ok f) ∧
    (f ∉ ["equatorial", "itrf93"] → toOemFrame f = .error .valueError) ∧
    (f ∈ ["EME2000", "ITRF-93"] → ∃ g, fromOemFrame f = .ok g ∧ toOemFrame g = .ok f) ∧
    (f ∉ ["EME2000", "ITRF-93"] → fromOemFrame f = .error .valueError) := by
  refine ⟨?_, fun h => look_error h, ?_, fun h => look_error h⟩
  · intro h
    simp only [List.mem_cons, List.not_mem_nil, or_false] at h
    rcases h with rfl | rfl
    · exact ⟨"EME2000", rfl, rfl⟩
    · exact ⟨"ITRF-93", rfl, rfl⟩
  · intro h
    simp only [List.mem_cons, List.not_mem_nil, or_false] at h
    rcases h with rfl | rfl
    · exact ⟨"equatorial", rfl, rfl⟩
    · exact ⟨"itrf93", rfl, rfl⟩

def isOk : Except PyErr String → String → Bool
  | .ok a, b => a == b
  | .error _, _ => false

theorem isOk_iff {x : Except PyErr String} {b : String} : isOk x b = true ↔ x = .ok b := by
  cases x <;> simp [isOk]

theorem centers_round : ∀ p ∈ centerMap, isOk (fromOemCenter p.2) p.1 = true ∧ isOk (toOemCenter p.1) p.2 = true ∧
    p.2 ∈ centers ∧ p.1 ∈ origins := by
  decide +kernel

theorem centers_back : ∀ p ∈ centerUnmap, isOk (toOemCenter p.2) p.1 = true ∧ p.2 ∈ origins := by
  decide +kernel

/-- Exactly the 19 known origins are written, each under a CCSDS centre name, and each is read back; names are read
regardless of case. -/
theorem C66_centers (o : String) :
    (o ∈ origins → ∃ c, c ∈ centers ∧ toOemCenter o = .ok c ∧ fromOemCenter c = .ok o) ∧
    (o ∉ origins → toOemCenter o = .error .valueError) ∧
    (o.toUpper ∈ centers → ∃ a, a ∈ origins ∧ fromOemCenter o = .ok a ∧ toOemCenter a = .ok o.toUpper) ∧
    (o.toUpper ∉ centers → fromOemCenter o = .error .valueError) := by
  have h1 : centerMap.map Prod.fst = origins := rfl
  have h2 : centerUnmap.map Prod.fst = centers := rfl
  refine ⟨?_, fun h => look_error h, ?_, fun h => look_error h⟩
  · intro h
    rw [← h1] at h
    obtain ⟨p, hp, rfl⟩ := List.mem_map.mp h
    obtain ⟨ha, hb, hc, _⟩ := centers_round p hp
    exact ⟨p.2, hc, isOk_iff.mp hb, isOk_iff.mp ha⟩
  · intro h
    have hex : ∃ a, look centerUnmap o.toUpper = .ok a := by
      rw [← h2] at h
      unfold look
      cases hl : centerUnmap.lookup o.toUpper with
      | some v => exact ⟨v, rfl⟩
      | none =>
        rw [List.lookup_eq_none_iff] at hl
        obtain ⟨p, hp, he⟩ := List.mem_map.mp h
        have := hl p hp
        simp [he] at this
    obtain ⟨a, ha⟩ := hex
    obtain ⟨hb, hc⟩ := centers_back _ (look_ok ha)
    exact ⟨a, hc, ha, isOk_iff.mp hb⟩

theorem centers_spelled : ∀ o ∈ origins, isOk (toOemCenter o) (if o = "EARTH_MOON_BARYCENTER" then "EARTH BARYCENTER"
    else String.ofList (o.toList.map fun c => if c = '_' then ' ' else c)) = true := by
  decide +kernel

/-- Equatorial states are written as EME2000 and Earth-fixed ones as ITRF-93; an origin is written under its own name with blanks for
underscores, the barycentre of Earth and Moon as that of the Earth. -/
theorem C66_names : toOemFrame "equatorial" = .ok "EME2000" ∧ toOemFrame "itrf93" = .ok "ITRF-93" ∧
    toOemCenter "EARTH_MOON_BARYCENTER" = .ok "EARTH BARYCENTER" ∧
    ∀ o ∈ origins, o ≠ "EARTH_MOON_BARYCENTER" →
      toOemCenter o = .ok (String.ofList (o.toList.map fun c => if c = '_' then ' ' else c)) := by
  refine ⟨rfl, rfl, rfl, fun o ho hne => ?_⟩
  have h := isOk_iff.mp (centers_spelled o ho)
  rwa [if_neg hne] at h

section
variable {K T : Type} [Field K] [LinearOrder T]

theorem lower_matrix (m : Fin 6 → Fin 6 → K) (hm : ∀ i j, m i j = m j i) : matrixOf (lowerOf m) = m := by
  have key : ∀ i j : Fin 6, j ≤ i → (lowerOf m).getD (i.1 * (i.1 + 1) / 2 + j.1) 0 = m i j := by
    intro i j h
    unfold lowerOf
    rw [List.getD_eq_getElem?_getD, List.getElem?_map, Tri.Props.tril6 i.1 i.2 j.1 j.2 h]
    simp
  funext i j
  unfold matrixOf
  by_cases h : j ≤ i
  · rw [if_pos h, key i j h]
  · rw [if_neg h, key j i (le_of_lt (not_le.mp h)), hm]

theorem uniq_one {I : Type} [DecidableEq I] {l : List I} (h : (uniq l).length = 1) : ∃ a, l ≠ [] ∧ ∀ b ∈ l, b = a := by
  obtain ⟨a, ha⟩ := List.length_eq_one_iff.mp h
  refine ⟨a, ?_, ?_⟩
  · rintro rfl
    cases ha
  · intro b hb
    have := (mem_uniq l b).mpr hb
    rw [ha] at this
    simpa using this

theorem uniq_const {I : Type} [DecidableEq I] {l : List I} {a : I} (h0 : l ≠ []) (h : ∀ b ∈ l, b = a) :
    (uniq l).length = 1 := by
  have hn := nodup_uniq l
  have hall : ∀ b ∈ uniq l, b = a := fun b hb => h b ((mem_uniq l b).mp hb)
  cases hu : uniq l with
  | nil =>
    obtain ⟨x, l', rfl⟩ := List.exists_cons_of_ne_nil h0
    have := (mem_uniq (x :: l') x).mpr (by simp)
    rw [hu] at this
    cases this
  | cons x r =>
    cases r with
    | nil => rfl
    | cons y r =>
      rw [hu] at hall hn
      have h1 := hall x (by simp)
      have h2 := hall y (by simp)
      rw [h1, h2] at hn
      simp at hn

/-- Tables of no object, of several objects or with a missing object id are refused. -/
theorem C66_one_object (unit : Units.Consts K) (rotate : Row K T → Row K T) (rows : List (Row K T))
    (h : ¬ ∃ object, OneObject object rows) : toOem unit rotate rows = .error .assertionError := by
  unfold toOem
  by_cases h1 : (uniq (rows.map Row.object)).length = 1
  · rw [if_neg (by simpa using h1)]
    obtain ⟨a, h0, ha⟩ := uniq_one h1
    rw [if_pos]
    rw [List.any_eq_true]
    have h0' : rows ≠ [] := by simpa using h0
    obtain ⟨r, l, rfl⟩ := List.exists_cons_of_ne_nil h0'
    refine ⟨r, by simp, ?_⟩
    cases hr : r.object with
    | none => rfl
    | some o =>
      exfalso
      refine h ⟨o, by simp, ?_⟩
      intro s hs
      rw [ha s.object (List.mem_map_of_mem hs), ← hr]
      exact (ha r.object (by simp)).symm
  · rw [if_pos h1]

theorem one_object (object : String) (rows : List (Row K T)) (h : OneObject object rows) :
    (uniq (rows.map Row.object)).length = 1 ∧ (rows.any fun r => r.object.isNone) = false ∧
    ∃ first, rows.head? = some first ∧ first.object = some object := by
  obtain ⟨h0, h1⟩ := h
  refine ⟨uniq_const (a := some object) (by simpa using h0) ?_, ?_, ?_⟩
  · intro b hb
    obtain ⟨r, hr, rfl⟩ := List.mem_map.mp hb
    exact h1 r hr
  · rw [List.any_eq_false]
    intro r hr
    rw [h1 r hr]
    simp
  · obtain ⟨r, l, rfl⟩ := List.exists_cons_of_ne_nil h0
    exact ⟨r, rfl, h1 r (by simp)⟩

/-- What is read back for the rows written: all of them, in time order. -/
theorem write_read (unit : Units.Consts K) (h1 : unit.kmPerAu ≠ 0) (h2 : unit.secondsPerDay ≠ 0) (object : String)
    (rows : List (Row K T)) (h0 : rows ≠ []) (origin : String) (ho : origin ∈ origins) (horigin : ∀ r ∈ rows, r.origin = origin)
    (hobj : ∀ r ∈ rows, r.object = some object) (htimes : (rows.map Row.time).Nodup) (hsym : ∀ r ∈ rows, SymmetricCov r) :
    ∃ s, writeRows unit object "equatorial" rows = .ok s ∧
      fromOem unit [s] = .ok ((sortBy Row.time rows).map fun r => ("equatorial", r)) := by
  have hperm := sortBy_perm Row.time rows
  obtain ⟨c, hc, hto, hfrom⟩ := (C66_centers origin).1 ho
  have hsne : sortBy Row.time rows ≠ [] := by
    intro h
    rw [h] at hperm
    exact h0 (List.nil_perm.mp hperm)
  obtain ⟨first, rest, hs⟩ := List.exists_cons_of_ne_nil hsne
  have hmem : ∀ r, r ∈ sortBy Row.time rows ↔ r ∈ rows := fun r => hperm.mem_iff
  have hfirst : first.origin = origin := horigin first ((hmem first).mp (by rw [hs]; simp))
  refine ⟨⟨object, c, "EME2000", (sortBy Row.time rows).map fun r => (r.time, Units.stateToKm unit r.values),
      (sortBy Row.time rows).filterMap fun r => r.cov.map fun m => (r.time, "EME2000", lowerOf (Units.covToKm unit m))⟩,
    ?_, ?_⟩
  · unfold writeRows
    have : toOemFrame "equatorial" = .ok "EME2000" := rfl
    rw [this]
    simp only [hs, List.head?_cons]
    rw [hfirst, hto]
  · unfold fromOem
    have hdist : ∀ r ∈ sortBy Row.time rows, ∀ r' ∈ sortBy Row.time rows, r.time = r'.time → r = r' := by
      intro r hr r' hr' ht
      exact List.inj_on_of_nodup_map htimes ((hmem r).mp hr) ((hmem r').mp hr') ht
    have hread : ∀ r ∈ sortBy Row.time rows,
        readState unit ⟨object, c, "EME2000", (sortBy Row.time rows).map fun r => (r.time, Units.stateToKm unit r.values),
          (sortBy Row.time rows).filterMap fun r => r.cov.map fun m => (r.time, "EME2000", lowerOf (Units.covToKm unit m))⟩
          (r.time, Units.stateToKm unit r.values) = .ok ("equatorial", r) := by
      intro r hr
      have hcov : covFor unit ⟨object, c, "EME2000", (sortBy Row.time rows).map fun r => (r.time, Units.stateToKm unit r.values),
          (sortBy Row.time rows).filterMap fun r => r.cov.map fun m => (r.time, "EME2000", lowerOf (Units.covToKm unit m))⟩
          r.time = r.cov := by
        unfold covFor
        simp only
        cases hrc : r.cov with
        | none =>
          rw [List.find?_eq_none.mpr]
          · rfl
          · intro e he hcond
            rw [List.mem_reverse, List.mem_filterMap] at he
            obtain ⟨r', hr', he⟩ := he
            cases hm' : r'.cov with
            | none => rw [hm'] at he; cases he
            | some m' =>
              rw [hm'] at he
              cases he
              simp only [Bool.and_eq_true, decide_eq_true_eq] at hcond
              have := hdist r' hr' r hr hcond.1
              rw [this, hrc] at hm'
              cases hm'
        | some m =>
          have hin : (r.time, "EME2000", lowerOf (Units.covToKm unit m)) ∈ ((sortBy Row.time rows).filterMap fun r =>
              r.cov.map fun m => (r.time, "EME2000", lowerOf (Units.covToKm unit m))) :=
            List.mem_filterMap.mpr ⟨r, hr, by rw [hrc]; rfl⟩
          cases hf : (((sortBy Row.time rows).filterMap fun r =>
              r.cov.map fun m => (r.time, "EME2000", lowerOf (Units.covToKm unit m))).reverse.find? fun c =>
                decide (c.1 = r.time) && decide (c.2.1 = "EME2000")) with
          | none =>
            have := List.find?_eq_none.mp hf _ (List.mem_reverse.mpr hin)
            simp at this
          | some e =>
            have hcond := List.find?_some hf
            have he := List.mem_of_find?_eq_some hf
            rw [List.mem_reverse, List.mem_filterMap] at he
            obtain ⟨r', hr', he⟩ := he
            cases hm' : r'.cov with
            | none => rw [hm'] at he; cases he
            | some m' =>
              rw [hm'] at he
              cases he
              simp only [Bool.and_eq_true, decide_eq_true_eq] at hcond
              have hreq := hdist r' hr' r hr hcond.1
              rw [hreq, hrc] at hm'
              cases hm'
              simp only [Option.map_some]
              congr 1
              rw [lower_matrix, (Units.Props.C46_covariances unit h1 h2 m).1]
              intro i j
              unfold Units.covToKm
              rw [hsym r ((hmem r).mp hr) m hrc i j, mul_comm (Units.vecToKm unit i)]
      unfold readState
      have hff : fromOemFrame "EME2000" = .ok "equatorial" := rfl
      simp only [hff, hfrom, hcov, (Units.Props.C46_states unit h1 h2 r.values).1]
      obtain ⟨ro, rt, rv, rc, rg⟩ := r
      have e1 := hobj _ ((hmem _).mp hr)
      have e2 := horigin _ ((hmem _).mp hr)
      simp only at e1 e2
      rw [e1, e2]
    have hg : gather (readState unit ⟨object, c, "EME2000", (sortBy Row.time rows).map fun r => (r.time, Units.stateToKm unit r.values),
          (sortBy Row.time rows).filterMap fun r => r.cov.map fun m => (r.time, "EME2000", lowerOf (Units.covToKm unit m))⟩)
        ((sortBy Row.time rows).map fun r => (r.time, Units.stateToKm unit r.values)) =
        .ok ((sortBy Row.time rows).map fun r => ("equatorial", r)) := by
      have aux : ∀ (l : List (Row K T)) (work : T × (Fin 6 → K) → Except PyErr (String × Row K T)),
          (∀ r ∈ l, work (r.time, Units.stateToKm unit r.values) = .ok ("equatorial", r)) →
          gather work (l.map fun r => (r.time, Units.stateToKm unit r.values)) = .ok (l.map fun r => ("equatorial", r)) := by
        intro l work hw
        induction l with
        | nil => rfl
        | cons r l ih =>
          simp only [List.map_cons]
          unfold gather
          rw [hw r (by simp), ih fun r' hr' => hw r' (by simp [hr'])]
      exact aux _ _ hread
    simp only
    rw [hg]
    simp [fromOem]

/-- A table of one object, one supported origin, distinct times and symmetric covariances is read back, in time order, as
the table brought to the equatorial frame. -/
theorem C66_rows (unit : Units.Consts K) (h1 : unit.kmPerAu ≠ 0) (h2 : unit.secondsPerDay ≠ 0)
    (rotate : Row K T → Row K T)
    (hrot : ∀ r, (rotate r).object = r.object ∧ (rotate r).time = r.time ∧ (rotate r).origin = r.origin ∧
      (SymmetricCov r → SymmetricCov (rotate r)))
    (rows : List (Row K T)) (object : String) (hobj : OneObject object rows) (origin : String) (ho : origin ∈ origins)
    (horigin : ∀ r ∈ rows, r.origin = origin) (htimes : (rows.map Row.time).Nodup) (hsym : ∀ r ∈ rows, SymmetricCov r) :
    ∃ file, toOem unit rotate rows = .ok file ∧
      fromOem unit file = .ok ((sortBy Row.time (rows.map rotate)).map fun r => ("equatorial", r)) := by
  obtain ⟨a, b, first, hf, hfo⟩ := one_object object rows hobj
  have hall : ∀ (P : Row K T → Prop), (∀ r ∈ rows, P (rotate r)) → ∀ r ∈ rows.map rotate, P r := by
    intro P hP r hr
    obtain ⟨r', hr', rfl⟩ := List.mem_map.mp hr
    exact hP r' hr'
  obtain ⟨s, hw, hr⟩ := write_read unit h1 h2 object (rows.map rotate) (by simpa using hobj.1) origin ho
    (hall _ fun r hr => (hrot r).2.2.1.trans (horigin r hr)) (hall _ fun r hr => (hrot r).1.trans (hobj.2 r hr))
    (by
      have : (rows.map rotate).map Row.time = rows.map Row.time := by
        rw [List.map_map]
        exact List.map_congr_left fun r _ => (hrot r).2.1
      rw [this]
      exact htimes)
    (hall _ fun r hr => (hrot r).2.2.2 (hsym r hr))
  refine ⟨[s], ?_, hr⟩
  unfold toOem
  rw [if_neg (by simpa using a), if_neg (by simp [b]), hf]
  simp only [hfo, Option.getD_some]
  rw [hw]

/-- The propagating writer: the propagated rows are read back, provided they are as above; repeated times are refused. -/
theorem C66_propagated (unit : Units.Consts K) (h1 : unit.kmPerAu ≠ 0) (h2 : unit.secondsPerDay ≠ 0)
    (rotate : Row K T → Row K T)
    (hrot : ∀ r, (rotate r).object = r.object ∧ (rotate r).time = r.time ∧ (rotate r).origin = r.origin ∧
      (SymmetricCov r → SymmetricCov (rotate r)))
    (propagate : List (Row K T) → List T → Except PyErr (List (Row K T)))
    (rows states : List (Row K T)) (times : List T) (object : String) (hobj : OneObject object rows)
    (hp : propagate rows times = .ok states) (hobj' : OneObject object states) (origin : String) (ho : origin ∈ origins)
    (horigin : ∀ r ∈ states, r.origin = origin) (htimes : (states.map Row.time).Nodup) (hsym : ∀ r ∈ states, SymmetricCov r) :
    (¬ times.Nodup → toOemPropagated unit rotate propagate rows times = .error .assertionError) ∧
    (times.Nodup → ∃ file, toOemPropagated unit rotate propagate rows times = .ok file ∧
      fromOem unit file = .ok ((sortBy Row.time (states.map rotate)).map fun r => ("equatorial", r))) := by
  obtain ⟨a, b, first, hf, hfo⟩ := one_object object rows hobj
  have huniq : times.length = (uniq times).length ↔ times.Nodup := by
    have h1 := nodup_uniq times
    constructor
    · intro h
      have hsub : (uniq times).Subperm times := List.subperm_of_subset h1 fun x hx => (mem_uniq times x).mp hx
      exact (hsub.perm_of_length_le (by omega)).nodup_iff.mp h1
    · intro h
      have hsub : times.Subperm (uniq times) := List.subperm_of_subset h fun x hx => (mem_uniq times x).mpr hx
      have hsub' : (uniq times).Subperm times := List.subperm_of_subset h1 fun x hx => (mem_uniq times x).mp hx
      exact le_antisymm hsub.length_le hsub'.length_le
  unfold toOemPropagated
  rw [if_neg (by simpa using a), if_neg (by simp [b]), hf]
  simp only
  constructor
  · intro hd
    rw [if_pos (fun h => hd (huniq.mp h))]
  · intro hd
    rw [if_neg (by rw [huniq.mpr hd]; simp), hp]
    simp only
    have := C66_rows unit h1 h2 rotate hrot states object hobj' origin ho horigin htimes hsym
    obtain ⟨file, hw, hr⟩ := this
    obtain ⟨a', b', first', hf', hfo'⟩ := one_object object states hobj'
    unfold toOem at hw
    rw [if_neg (by simpa using a'), if_neg (by simp [b']), hf'] at hw
    simp only [hfo'] at hw
    rw [hfo]
    exact ⟨file, hw, hr⟩

/-- An origin without an OEM centre in the first row is refused. -/
theorem C66_origin_refused (unit : Units.Consts K) (rotate : Row K T → Row K T) (hrot : ∀ r, (rotate r).origin = r.origin)
    (rows : List (Row K T)) (object : String) (hobj : OneObject object rows) (h : ∀ r ∈ rows, r.origin ∉ origins) :
    toOem unit rotate rows = .error .valueError := by
  obtain ⟨a, b, first, hf, hfo⟩ := one_object object rows hobj
  unfold toOem
  rw [if_neg (by simpa using a), if_neg (by simp [b]), hf]
  simp only [hfo, Option.getD_some]
  have hperm := sortBy_perm Row.time (rows.map rotate)
  have hsne : sortBy Row.time (rows.map rotate) ≠ [] := by
    intro hn
    rw [hn] at hperm
    exact hobj.1 (by simpa using hperm)
  obtain ⟨first', rest, hs⟩ := List.exists_cons_of_ne_nil hsne
  have hin : first' ∈ rows.map rotate := hperm.mem_iff.mp (by rw [hs]; simp)
  obtain ⟨r, hr, rfl⟩ := List.mem_map.mp hin
  unfold writeRows
  have hff : toOemFrame "equatorial" = .ok "EME2000" := rfl
  rw [hff]
  simp only [hs, List.head?_cons]
  rw [(C66_centers (rotate r).origin).2.1 (by rw [hrot r]; exact h r hr)]

end

def auExample : Units.Consts ℚ := ⟨1495978707 / 10, 86400⟩

/-- A row without covariance. -/
def rowExample (t : Nat) (origin : String) (cov : Option (Fin 6 → Fin 6 → ℚ)) : Row ℚ Nat :=
  ⟨some "433", t, fun i => i.1, cov, origin⟩

/-- A column of the table written and read back. -/
def column {A : Type} (f : String × Row ℚ Nat → A) (rows : List (Row ℚ Nat)) : Option (List A) :=
  match toOem auExample id rows with
  | .error _ => none
  | .ok file =>
    match fromOem auExample file with
    | .error _ => none
    | .ok back => some (back.map f)

theorem back_some {A : Type} {f : String × Row ℚ Nat → A} {rows : List (Row ℚ Nat)} {l : List A}
    (h : column f rows = some l) :
    ∃ file back, toOem auExample id rows = .ok file ∧ fromOem auExample file = .ok back ∧ back.map f = l := by
  unfold column at h
  cases h1 : toOem auExample id rows with
  | error e => rw [h1] at h; cases h
  | ok file =>
    rw [h1] at h
    simp only at h
    cases h2 : fromOem auExample file with
    | error e => rw [h2] at h; cases h
    | ok back =>
      rw [h2] at h
      exact ⟨file, back, rfl, h2, Option.some.inj h⟩

/-- Rows with different origins are read back with the origin of the first. -/
theorem C66_origin_false :
    ¬ ∀ (rows : List (Row ℚ Nat)) (file : List (Segment ℚ Nat)) (back : List (String × Row ℚ Nat)),
      toOem auExample id rows = .ok file → fromOem auExample file = .ok back →
      back.map (fun r => r.2.origin) = (sortBy Row.time rows).map Row.origin := by
  intro h
  have h1 : ∃ file back, toOem auExample id [rowExample 1 "SUN" none, rowExample 2 "EARTH" none] = .ok file ∧
      fromOem auExample file = .ok back ∧ back.map (fun r => r.2.origin) = ["SUN", "SUN"] := by
    exact back_some (by decide +kernel)
  obtain ⟨file, back, ha, hb, hc⟩ := h1
  have := h _ file back ha hb
  rw [hc] at this
  revert this
  decide +kernel

/-- With a repeated time a row without covariance is read back with the covariance of another row. -/
theorem C66_covariance_false :
    ¬ ∀ (rows : List (Row ℚ Nat)) (file : List (Segment ℚ Nat)) (back : List (String × Row ℚ Nat)),
      toOem auExample id rows = .ok file → fromOem auExample file = .ok back →
      back.map (fun r => r.2.cov.isSome) = (sortBy Row.time rows).map (fun r => r.cov.isSome) := by
  intro h
  have h1 : ∃ file back, toOem auExample id [rowExample 1 "SUN" none, rowExample 1 "SUN" (some fun _ _ => 1)] = .ok file ∧
      fromOem auExample file = .ok back ∧ back.map (fun r => r.2.cov.isSome) = [true, true] := by
    exact back_some (by decide +kernel)
  obtain ⟨file, back, ha, hb, hc⟩ := h1
  have := h _ file back ha hb
  rw [hc] at this
  revert this
  decide +kernel

/-- Two rows meeting the hypotheses of `C66_rows`, one with a covariance. -/
example : OneObject "433" [rowExample 2 "EARTH" none, rowExample 1 "EARTH" (some fun _ _ => 1)] ∧
    auExample.kmPerAu ≠ 0 ∧ auExample.secondsPerDay ≠ 0 ∧ "EARTH" ∈ origins ∧
    ([rowExample 2 "EARTH" none, rowExample 1 "EARTH" (some fun _ _ => 1)].map Row.time).Nodup ∧
    ∀ r ∈ [rowExample 2 "EARTH" none, rowExample 1 "EARTH" (some fun _ _ => 1)], SymmetricCov r := by
  refine ⟨⟨by simp, by simp [rowExample]⟩, by decide +kernel, by decide +kernel, by decide +kernel, by decide +kernel, ?_⟩
  intro r hr m hm i j
  simp only [List.mem_cons, List.not_mem_nil, or_false] at hr
  rcases hr with rfl | rfl
  · cases hm
  · cases hm
    rfl

section reading
variable {K T : Type} [Field K] [LinearOrder T]

theorem gather_read {unit : Units.Consts K} {s : Segment K T} : ∀ {l : List (T × (Fin 6 → K))} {rows : List (String × Row K T)},
    gather (readState unit s) l = .ok rows →
    rows.map (fun r => (r.2.object, r.2.time, r.2.values, r.2.cov))
      = l.map fun st => (some s.object, st.1, Units.stateToAu unit st.2, covFor unit s st.1)
  | [], rows, h => by cases h; rfl
  | st :: l, rows, h => by
    unfold gather at h
    cases h1 : readState unit s st with
    | error e => rw [h1] at h; cases h
    | ok r =>
      rw [h1] at h
      simp only at h
      cases h2 : gather (readState unit s) l with
      | error e => rw [h2] at h; cases h
      | ok rest =>
        rw [h2] at h
        simp only at h
        cases h
        simp only [List.map_cons, gather_read h2]
        congr 1
        unfold readState at h1
        split at h1
        · cases h1
        · split at h1
          · cases h1
          · cases h1; rfl

/-- Every state of every segment becomes one row, in the order of the message, with the object of its segment. -/
theorem C66_segments {unit : Units.Consts K} : ∀ {segs : List (Segment K T)} {rows : List (String × Row K T)},
    fromOem unit segs = .ok rows →
    rows.map (fun r => (r.2.object, r.2.time, r.2.values, r.2.cov))
      = segs.flatMap fun s => s.states.map fun st => (some s.object, st.1, Units.stateToAu unit st.2, covFor unit s st.1)
  | [], rows, h => by cases h; rfl
  | s :: l, rows, h => by
    unfold fromOem at h
    cases h1 : gather (readState unit s) s.states with
    | error e => rw [h1] at h; cases h
    | ok a =>
      rw [h1] at h
      simp only at h
      cases h2 : fromOem unit l with
      | error e => rw [h2] at h; cases h
      | ok rest =>
        rw [h2] at h
        simp only at h
        cases h
        rw [List.map_append, gather_read h1, C66_segments h2, List.flatMap_cons]

/-- A covariance read for a state is one stored for its epoch in the frame of its segment. -/
theorem C66_covariance_source {unit : Units.Consts K} {s : Segment K T} {t : T} {m : Fin 6 → Fin 6 → K}
    (h : covFor unit s t = some m) :
    ∃ c ∈ s.covs, c.1 = t ∧ c.2.1 = s.frame ∧ m = Units.covToAu unit (matrixOf c.2.2) := by
  unfold covFor at h
  rw [Option.map_eq_some_iff] at h
  obtain ⟨c, hc, rfl⟩ := h
  have h1 := List.find?_some hc
  simp only [Bool.and_eq_true, decide_eq_true_eq] at h1
  exact ⟨c, List.mem_reverse.mp (List.mem_of_find?_eq_some hc), h1.1, h1.2, rfl⟩

/-- No covariance is read exactly when none is stored for the epoch in the frame of the segment. -/
theorem C66_covariance_absent (unit : Units.Consts K) (s : Segment K T) (t : T) :
    covFor unit s t = none ↔ ∀ c ∈ s.covs, c.1 = t → c.2.1 ≠ s.frame := by
  unfold covFor
  simp

end reading

/-- A message with two segments is read. -/
example : ((fromOem auExample [⟨"433", "EARTH", "EME2000", [(1, fun _ => 1)], []⟩,
    ⟨"433", "SUN", "ITRF-93", [(2, fun _ => 2), (3, fun _ => 3)], []⟩]).toOption.map List.length) = some 3 := by
  decide +kernel

end Verif.Oem.Props
