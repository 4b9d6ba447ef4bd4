import Verif.Moid.Model
import Verif.Porkchop.Props
import Verif.AbsMag.Rows
import Verif.Joins.Lemmas

/-! # C107: the table of minimum distances to perturbers -/

namespace Verif.Moid.Props

open Classical Verif Sched

variable {prop : Orbit → ℝ → V3} {min : Minimiser} {state : String → ℝ → Except PyErr Orbit}

/-- Specification: the row for an orbit and a perturber. -/
def IsRow (prop : Orbit → ℝ → V3) (min : Minimiser) (state : String → ℝ → Except PyErr Orbit) (o : Orbit) (b : String) (row : MoidRow) :
    Prop :=
  ∃ s m, state b o.t0 = .ok s ∧ calculateMoid prop min o s = .ok m ∧ row = ⟨o.id, b, m.1, m.2⟩

/-- Specification: no row, because the state of the perturber or the search raises. -/
def Fails (prop : Orbit → ℝ → V3) (min : Minimiser) (state : String → ℝ → Except PyErr Orbit) (o : Orbit) (b : String) (e : PyErr) :
    Prop :=
  state b o.t0 = .error e ∨ ∃ s, state b o.t0 = .ok s ∧ calculateMoid prop min o s = .error e

/-- Specification: orbits the function accepts. -/
def Accepted (orbits : List Orbit) (origins : List String) : Prop :=
  (orbits.map Orbit.id).Nodup ∧ origins ≠ [] ∧ ∀ a ∈ origins, ∀ b ∈ origins, a = b

theorem accepted_iff {orbits : List Orbit} {origins : List String} :
    Accepted orbits origins ↔ (uniq (orbits.map Orbit.id)).length = orbits.length ∧ (uniq origins).length = 1 := by
  unfold Accepted
  rw [Porkchop.Props.uniq_len_one]
  have := Joins.uniq_length_iff (orbits.map Orbit.id)
  rw [List.length_map] at this
  rw [this]

theorem zip_self {α : Type} (l : List α) : l.zip l = l.map fun a => (a, a) := by
  induction l with
  | nil => rfl
  | cons a l ih => simp [ih]

theorem gather_get {α β : Type} {work : α → Except PyErr β} {l : List α} {out : List β} (h : gather work l = .ok out) :
    out.length = l.length ∧ ∀ i (h1 : i < l.length) (h2 : i < out.length), work l[i] = .ok out[i] := by
  have := (AbsMag.gather_ok_iff work l out).mp h
  rw [List.forall₂_iff_get] at this
  exact ⟨this.1.symm, fun i h1 h2 => this.2 i h1 h2⟩

theorem worker_ok {chunk : List Orbit} {b : String} {cell : Orbit → String → MoidRow} (h : ∀ o ∈ chunk, IsRow prop min state o b (cell o b)) :
    worker prop min state chunk b = .ok (chunk.map fun o => cell o b) := by
  have hex : ∀ o : Orbit, ∃ s, o ∈ chunk → state b o.t0 = .ok s ∧ ∃ m, calculateMoid prop min o s = .ok m ∧ cell o b = ⟨o.id, b, m.1, m.2⟩ := by
    intro o
    by_cases ho : o ∈ chunk
    · obtain ⟨s, m, h1, h2, h3⟩ := h o ho
      exact ⟨s, fun _ => ⟨h1, m, h2, h3⟩⟩
    · exact ⟨o, fun h => absurd h ho⟩
  choose s hs using hex
  unfold worker
  rw [gather_ok (g := s) fun o ho => (hs o ho).1]
  simp only
  rw [gather_ok (g := fun p : Orbit × Orbit => cell p.1 b) ?_]
  · congr 1
    rw [List.zip_map_right, List.map_map, zip_self, List.map_map]
    rfl
  · rintro ⟨o, s'⟩ hp
    rw [List.zip_map_right, zip_self, List.map_map, List.mem_map] at hp
    obtain ⟨o', ho, he⟩ := hp
    simp only [Function.comp, Prod.map, id, Prod.mk.injEq] at he
    obtain ⟨rfl, rfl⟩ := he
    obtain ⟨-, m, h1, h2⟩ := hs o' ho
    simp only
    rw [h1]
    simp only
    rw [h2]

theorem worker_cases (chunk : List Orbit) (b : String) :
    (∃ rows, worker prop min state chunk b = .ok rows ∧ ∀ o ∈ chunk, ∃ row, IsRow prop min state o b row) ∨
    ∃ e, worker prop min state chunk b = .error e ∧ ∃ o ∈ chunk, Fails prop min state o b e := by
  by_cases h : ∀ o ∈ chunk, ∃ row, IsRow prop min state o b row
  · left
    have hex : ∀ o : Orbit, ∃ row, o ∈ chunk → IsRow prop min state o b row := by
      intro o
      by_cases ho : o ∈ chunk
      · obtain ⟨r, hr⟩ := h o ho
        exact ⟨r, fun _ => hr⟩
      · exact ⟨⟨"", "", none, 0⟩, fun h => absurd h ho⟩
    choose c hc using hex
    exact ⟨_, worker_ok (cell := fun o _ => c o) hc, h⟩
  · right
    push Not at h
    obtain ⟨o, ho, hno⟩ := h
    unfold worker
    cases hg : gather (fun o : Orbit => state b o.t0) chunk with
    | error e =>
      obtain ⟨o', ho', he⟩ := gather_error_of hg
      exact ⟨e, rfl, o', ho', .inl he⟩
    | ok states =>
      simp only
      obtain ⟨hl, hst⟩ := gather_get hg
      obtain ⟨i, hi, hio⟩ := List.getElem_of_mem ho
      have hi' : i < states.length := by rw [hl]; exact hi
      have hz : (o, states[i]) ∈ chunk.zip states := by
        rw [List.mem_iff_getElem]
        exact ⟨i, by simp [hi, hi'], by simp [hio]⟩
      have hs : state b o.t0 = .ok states[i] := by
        have := hst i hi hi'
        rw [hio] at this
        exact this
      have hex : ∃ e, (match calculateMoid prop min o states[i] with
          | .error e => (.error e : Except PyErr MoidRow)
          | .ok m => .ok ⟨o.id, b, m.1, m.2⟩) = .error e := by
        cases hm : calculateMoid prop min o states[i] with
        | error e => exact ⟨e, rfl⟩
        | ok m => exact absurd ⟨_, _, hs, hm, rfl⟩ (hno _)
      obtain ⟨e, he⟩ := gather_error (work := fun p : Orbit × Orbit => match calculateMoid prop min p.1 p.2 with
        | .error e => .error e
        | .ok m => .ok (⟨p.1.id, b, m.1, m.2⟩ : MoidRow)) hz hex
      refine ⟨e, he, ?_⟩
      obtain ⟨⟨o2, s2⟩, hp, hpe⟩ := gather_error_of he
      simp only at hpe
      obtain ⟨j, hj, hje⟩ := List.getElem_of_mem hp
      rw [List.length_zip] at hj
      have j1 : j < chunk.length := by omega
      have j2 : j < states.length := by omega
      rw [List.getElem_zip, Prod.mk.injEq] at hje
      refine ⟨o2, hje.1 ▸ List.getElem_mem j1, .inr ⟨s2, ?_, ?_⟩⟩
      · have := hst j j1 j2
        rw [hje.1, hje.2] at this
        exact this
      · cases hm : calculateMoid prop min o2 s2 with
        | error e2 => rw [hm] at hpe; simp only [Except.error.injEq] at hpe; rw [hpe]
        | ok m => rw [hm] at hpe; simp at hpe

theorem chunks_pos (orbits : List Orbit) {c : ℤ} (hc : 0 < c) :
    ∃ chunks, Chunk.iterateChunks orbits c = .ok chunks ∧ chunks.flatten = orbits ∧ (orbits ≠ [] → chunks ≠ []) := by
  unfold Chunk.iterateChunks
  rw [Chunk.range_pos hc]
  have hf : ((Chunk.rangeFrom 0 orbits.length c.toNat).map fun i => Chunk.slice orbits i c.toNat).flatten = orbits := by
    rw [Chunk.chunks_flatten orbits (by omega) 0, List.drop_zero]
  refine ⟨_, rfl, hf, fun h0 h1 => h0 ?_⟩
  rw [← hf, h1]
  rfl

theorem flatMap_chunks {α β : Type} (perturbers : List β) (chunks : List (List α)) (g : α → β → MoidRow) :
    ((perturbers.flatMap fun b => chunks.map fun c => (c, b)).map fun t => t.1.map fun o => g o t.2).flatten =
      perturbers.flatMap fun b => chunks.flatten.map fun o => g o b := by
  induction perturbers with
  | nil => rfl
  | cons b l ih =>
    rw [List.flatMap_cons, List.map_append, List.flatten_append, ih, List.flatMap_cons, List.map_flatten]
    congr 1
    rw [List.map_map]
    rfl

/-- C107. The table has one row for every perturber and orbit, with the id of the orbit, the code of the perturber, and the distance and
time of `calculate_moid` for the orbit and the orbit of the perturber at the epoch of the orbit. Without workers the rows are in the
order of the perturbers given and, for each, of the orbits; with workers they can be in another order. -/
theorem C107_rows {pick : Nat → Nat} {orbits : List Orbit} {origins perturbers : List String} {c n : ℤ} {cell : Orbit → String → MoidRow}
    (ha : Accepted orbits origins) (hc : 0 < c) (h : ∀ o ∈ orbits, ∀ b ∈ perturbers, IsRow prop min state o b (cell o b)) :
    ∃ rows, calculatePerturberMoids prop min state pick orbits origins perturbers c (some n) = .ok rows ∧
      rows.Perm (perturbers.flatMap fun b => orbits.map fun o => cell o b) ∧
      (n ≤ 1 → rows = perturbers.flatMap fun b => orbits.map fun o => cell o b) := by
  obtain ⟨h1, h2⟩ := accepted_iff.mp ha
  unfold calculatePerturberMoids
  rw [if_neg (not_not.mpr h1), if_neg (not_not.mpr h2)]
  by_cases hp : perturbers = []
  · rw [if_pos hp, hp]
    exact ⟨[], rfl, List.Perm.refl _, fun _ => rfl⟩
  rw [if_neg hp]
  obtain ⟨chunks, k1, k2, -⟩ := chunks_pos orbits hc
  rw [k1]
  simp only
  have hw : ∀ t ∈ perturbers.flatMap fun b => chunks.map fun c => (c, b),
      worker prop min state t.1 t.2 = .ok (t.1.map fun o => cell o t.2) := by
    intro t ht
    rw [List.mem_flatMap] at ht
    obtain ⟨b, hb, ht⟩ := ht
    rw [List.mem_map] at ht
    obtain ⟨ch, hch, rfl⟩ := ht
    refine worker_ok fun o ho => h o ?_ b hb
    rw [← k2]
    exact List.mem_flatten.mpr ⟨ch, hch, ho⟩
  have hfl := flatMap_chunks perturbers chunks cell
  rw [k2] at hfl
  by_cases hn : n > 1
  · rw [if_pos hn, runTasks_ok _ _ hw]
    refine ⟨_, rfl, ?_, fun hn' => absurd hn (not_lt.mpr hn')⟩
    rw [← hfl]
    exact ((runAll_perm _ pick _).map _).flatten
  · rw [if_neg hn, gather_ok hw]
    refine ⟨_, rfl, ?_, fun _ => hfl⟩
    rw [hfl]

/-- C107. Each orbit and perturber occurs once, if no perturber is given twice. -/
theorem C107_once {pick : Nat → Nat} {orbits : List Orbit} {origins perturbers : List String} {c n : ℤ} {cell : Orbit → String → MoidRow}
    {rows : List MoidRow} (ha : Accepted orbits origins) (hc : 0 < c) (hb : perturbers.Nodup)
    (h : ∀ o ∈ orbits, ∀ b ∈ perturbers, IsRow prop min state o b (cell o b))
    (hr : calculatePerturberMoids prop min state pick orbits origins perturbers c (some n) = .ok rows) :
    (rows.map fun r => (r.id, r.perturber)).Nodup ∧
    ∀ i b, (i, b) ∈ rows.map (fun r => (r.id, r.perturber)) ↔ i ∈ orbits.map Orbit.id ∧ b ∈ perturbers := by
  obtain ⟨rows', h1, h2, -⟩ := C107_rows (pick := pick) (n := n) ha hc h
  rw [hr, Except.ok.injEq] at h1
  subst h1
  have hk : (rows.map fun r => (r.id, r.perturber)).Perm (perturbers.flatMap fun b => (orbits.map Orbit.id).map fun i => (i, b)) := by
    refine (h2.map _).trans ?_
    rw [List.map_flatMap]
    refine List.Perm.of_eq ?_
    refine List.flatMap_congr ?_
    intro b hb
    rw [List.map_map, List.map_map]
    refine List.map_congr_left ?_
    intro o ho
    obtain ⟨s, m, -, -, h3⟩ := h o ho b hb
    simp [h3]
  constructor
  · rw [hk.nodup_iff, List.nodup_flatMap]
    refine ⟨fun b _ => ha.1.map fun i j hij => (Prod.mk.inj hij).1, hb.imp ?_⟩
    intro a b hab
    rw [Function.onFun, List.disjoint_left]
    rintro ⟨i, x⟩ h1 h2
    rw [List.mem_map] at h1 h2
    obtain ⟨i1, -, e1⟩ := h1
    obtain ⟨i2, -, e2⟩ := h2
    exact hab ((Prod.mk.inj e1).2.trans (Prod.mk.inj e2).2.symm)
  · intro i b
    rw [hk.mem_iff, List.mem_flatMap]
    constructor
    · rintro ⟨b', hb', h⟩
      rw [List.mem_map] at h
      obtain ⟨i', hi', e⟩ := h
      obtain ⟨rfl, rfl⟩ := Prod.mk.inj e
      exact ⟨hi', hb'⟩
    · rintro ⟨hi, hb'⟩
      exact ⟨b, hb', List.mem_map.mpr ⟨i, hi, rfl⟩⟩

/-- C107. There is no partial table: if the distance fails for one orbit and perturber the call raises, and what it raises is what some
orbit and perturber raise. -/
theorem C107_failure {pick : Nat → Nat} {orbits : List Orbit} {origins perturbers : List String} {c n : ℤ}
    (ha : Accepted orbits origins) (hc : 0 < c) {o : Orbit} {b : String} (ho : o ∈ orbits) (hb : b ∈ perturbers)
    (h : ¬ ∃ row, IsRow prop min state o b row) :
    ∃ e, calculatePerturberMoids prop min state pick orbits origins perturbers c (some n) = .error e ∧
      ∃ o' ∈ orbits, ∃ b' ∈ perturbers, Fails prop min state o' b' e := by
  obtain ⟨h1, h2⟩ := accepted_iff.mp ha
  unfold calculatePerturberMoids
  rw [if_neg (not_not.mpr h1), if_neg (not_not.mpr h2), if_neg (List.ne_nil_of_mem hb)]
  obtain ⟨chunks, k1, k2, -⟩ := chunks_pos orbits hc
  rw [k1]
  simp only
  have hmem : ∀ ch ∈ chunks, ∀ x ∈ ch, x ∈ orbits := by
    intro ch hch x hx
    rw [← k2]
    exact List.mem_flatten.mpr ⟨ch, hch, hx⟩
  rw [← k2] at ho
  obtain ⟨ch, hch, hoc⟩ := List.mem_flatten.mp ho
  have ht : (ch, b) ∈ perturbers.flatMap fun b => chunks.map fun c => (c, b) :=
    List.mem_flatMap.mpr ⟨b, hb, List.mem_map.mpr ⟨ch, hch, rfl⟩⟩
  have hfail : ∃ e, worker prop min state ch b = .error e := by
    rcases worker_cases (prop := prop) (min := min) (state := state) ch b with ⟨rows, -, hr⟩ | ⟨e, he, -⟩
    · exact absurd (hr o hoc) h
    · exact ⟨e, he⟩
  have back : ∀ t ∈ perturbers.flatMap fun b => chunks.map fun c => (c, b), ∀ e, worker prop min state t.1 t.2 = .error e →
      ∃ o' ∈ orbits, ∃ b' ∈ perturbers, Fails prop min state o' b' e := by
    intro t ht e he
    rw [List.mem_flatMap] at ht
    obtain ⟨b', hb', ht⟩ := ht
    rw [List.mem_map] at ht
    obtain ⟨ch', hch', rfl⟩ := ht
    rcases worker_cases (prop := prop) (min := min) (state := state) ch' b' with ⟨rows, hr, -⟩ | ⟨e', he', o', ho', hf⟩
    · rw [hr] at he; cases he
    · simp only at he
      rw [he', Except.error.injEq] at he
      subst he
      exact ⟨o', hmem _ hch' _ ho', b', hb', hf⟩
  by_cases hn : n > 1
  · rw [if_pos hn]
    obtain ⟨e, he⟩ := runTasks_error (work := fun t : List Orbit × String => worker prop min state t.1 t.2) (atLeast n.toNat) pick ht hfail
    rw [he]
    obtain ⟨t, ht', hte⟩ := gather_error_of he
    exact ⟨e, rfl, back t ((runAll_perm _ pick _).mem_iff.mp ht') e hte⟩
  · rw [if_neg hn]
    obtain ⟨e, he⟩ := gather_error (work := fun t : List Orbit × String => worker prop min state t.1 t.2) ht hfail
    rw [he]
    obtain ⟨t, ht', hte⟩ := gather_error_of he
    exact ⟨e, rfl, back t ht' e hte⟩

/-- C107. AssertionError for repeated orbit ids, for no orbits and for orbits of several origins; TypeError if the number of processes
is `None`; ValueError for a chunk size of zero. A negative chunk size is accepted, and the result is empty. -/
theorem C107_errors (prop : Orbit → ℝ → V3) (min : Minimiser) (state : String → ℝ → Except PyErr Orbit) (pick : Nat → Nat)
    (orbits : List Orbit) (origins perturbers : List String) (c : ℤ) (n : Option ℤ) :
    (¬ Accepted orbits origins → calculatePerturberMoids prop min state pick orbits origins perturbers c n = .error .assertionError) ∧
    (Accepted orbits origins → orbits ≠ [] → perturbers ≠ [] → 0 < c →
      calculatePerturberMoids prop min state pick orbits origins perturbers c none = .error .typeError) ∧
    (Accepted orbits origins → perturbers ≠ [] →
      calculatePerturberMoids prop min state pick orbits origins perturbers 0 n = .error .valueError) ∧
    (Accepted orbits origins → c < 0 → calculatePerturberMoids prop min state pick orbits origins perturbers c n = .ok []) := by
  refine ⟨fun h => ?_, fun ha ho hp hc => ?_, fun ha hp => ?_, fun ha hc => ?_⟩
  · rw [accepted_iff] at h
    unfold calculatePerturberMoids
    by_cases h1 : (uniq (orbits.map Orbit.id)).length = orbits.length
    · rw [if_neg (not_not.mpr h1), if_pos (fun h2 => h ⟨h1, h2⟩)]
    · rw [if_pos h1]
  · obtain ⟨h1, h2⟩ := accepted_iff.mp ha
    unfold calculatePerturberMoids
    rw [if_neg (not_not.mpr h1), if_neg (not_not.mpr h2), if_neg hp]
    obtain ⟨chunks, k1, -, k3⟩ := chunks_pos orbits hc
    rw [k1]
    simp only
    rw [if_neg]
    intro h0
    obtain ⟨b, l, rfl⟩ := List.exists_cons_of_ne_nil hp
    obtain ⟨ch, l', hl'⟩ := List.exists_cons_of_ne_nil (k3 ho)
    rw [hl'] at h0
    simp at h0
  · obtain ⟨h1, h2⟩ := accepted_iff.mp ha
    unfold calculatePerturberMoids
    rw [if_neg (not_not.mpr h1), if_neg (not_not.mpr h2), if_neg hp]
    have : Chunk.iterateChunks orbits 0 = .error .valueError := rfl
    rw [this]
  · obtain ⟨h1, h2⟩ := accepted_iff.mp ha
    unfold calculatePerturberMoids
    rw [if_neg (not_not.mpr h1), if_neg (not_not.mpr h2)]
    split_ifs with hp
    · rfl
    · have : Chunk.iterateChunks orbits c = .ok [] := by
        unfold Chunk.iterateChunks Chunk.range
        rw [if_neg (by omega), if_pos hc]
        rfl
      rw [this]
      have ht : (perturbers.flatMap fun b => ([] : List (List Orbit)).map fun c => (c, b)) = [] := by simp
      simp only [ht]
      cases n with
      | none => rfl
      | some n =>
        simp only
        split_ifs
        · rfl
        · rfl

/-- Two orbits and two perturbers: four rows, whatever the order the workers finish in. -/
example (s : Orbit) (pick : Nat → Nat) (m : Option ℝ × ℝ) (min : Minimiser) (o1 o2 : Orbit) (h1 : o1.id = "a") (h2 : o2.id = "b")
    (hm : ∀ o, calculateMoid prop min o s = .ok m) :
    ∃ rows, calculatePerturberMoids prop min (fun _ _ => .ok s) pick [o1, o2] ["SUN", "SUN"] ["EARTH", "JUPITER_BARYCENTER"] 1 (some 4) =
      .ok rows ∧ rows.length = 4 := by
  obtain ⟨rows, r1, r2, -⟩ := C107_rows (prop := prop) (min := min) (state := fun _ _ => .ok s) (pick := pick) (orbits := [o1, o2])
    (origins := ["SUN", "SUN"]) (perturbers := ["EARTH", "JUPITER_BARYCENTER"]) (c := 1) (n := 4)
    (cell := fun o b => ⟨o.id, b, m.1, m.2⟩) ⟨by simp [h1, h2], by simp, by simp⟩ one_pos
    (fun o _ b _ => ⟨s, m, rfl, hm o, rfl⟩)
  exact ⟨rows, r1, by rw [r2.length_eq]; rfl⟩

end Verif.Moid.Props
