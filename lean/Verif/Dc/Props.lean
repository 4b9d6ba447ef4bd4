import Verif.Dc.Model
import Verif.Sched.Lemmas
import Verif.Sched.Orbits
import Verif.Chunk.Lemmas
import Verif.Catalog.Props

/-! # C129 and C130: many orbits at once -/

namespace Verif.Dc.Props

open Verif Verif.Sched Verif.Dc

variable {I N K O S F G : Type} [DecidableEq I] [DecidableEq N] [LinearOrder K]

/-! ## Specification -/

/-- One fit per row of the orbit table, in order; the results appended. -/
def reference (fit : List (Orbit I O) → List (Obs N K S) → Except PyErr (List F × List G)) (t : Tables I N K O S) :
    List I → Except PyErr (List F × List G)
  | [] => .ok ([], [])
  | i :: ids =>
    match fit (input t i).1 (input t i).2, reference fit t ids with
    | .ok r, .ok rs => .ok (r.1 ++ rs.1, r.2 ++ rs.2)
    | .ok _, .error e => .error e
    | .error e, _ => .error e

/-- The ids restrict nothing, or restrict what workers see and what is seen without workers alike. -/
def Uniform (a : Args I N K O S) : Prop :=
  (a.obsIds = none ∨ (a.members.isRef = false ∧ a.observations.isRef = false)) ∧
  (a.orbitIds = none ∨ a.members.isRef = false ∨ a.orbits.isRef = true)

/-! ## Lemmas -/

theorem gather_append {α β : Type} (w : α → Except PyErr β) (l l' : List α) :
    gather w (l ++ l') = match gather w l with
      | .error e => .error e
      | .ok a => match gather w l' with
        | .error e => .error e
        | .ok b => .ok (a ++ b) := by
  induction l with
  | nil =>
    simp only [List.nil_append, gather]
    cases gather w l' <;> rfl
  | cons x l ih =>
    simp only [List.cons_append, gather, ih]
    cases w x with
    | error e => rfl
    | ok y =>
      cases gather w l with
      | error e => rfl
      | ok a => cases gather w l' <;> rfl

theorem worker_nil (fit : List (Orbit I O) → List (Obs N K S) → Except PyErr (List F × List G)) (t : Tables I N K O S) :
    worker fit t [] = .ok ([], []) := rfl

theorem worker_append (fit : List (Orbit I O) → List (Obs N K S) → Except PyErr (List F × List G)) (t : Tables I N K O S)
    (l l' : List I) :
    worker fit t (l ++ l') = match worker fit t l, worker fit t l' with
      | .ok a, .ok b => .ok (a.1 ++ b.1, a.2 ++ b.2)
      | .ok _, .error e => .error e
      | .error e, _ => .error e := by
  unfold worker
  rw [gather_append]
  cases gather (fun i => fit (input t i).1 (input t i).2) l with
  | error e => rfl
  | ok a =>
    cases gather (fun i => fit (input t i).1 (input t i).2) l' with
    | error e => rfl
    | ok b => simp [List.flatMap_append]

theorem worker_reference (fit : List (Orbit I O) → List (Obs N K S) → Except PyErr (List F × List G))
    (t : Tables I N K O S) (ids : List I) : worker fit t ids = reference fit t ids := by
  induction ids with
  | nil => rfl
  | cons i ids ih =>
    rw [show i :: ids = [i] ++ ids from rfl, worker_append, ih]
    simp only [List.singleton_append, reference]
    unfold worker
    simp only [gather]
    cases fit (input t i).1 (input t i).2 with
    | error e => rfl
    | ok r =>
      simp only [List.flatMap_cons, List.flatMap_nil, List.append_nil]

theorem gather_chunks (fit : List (Orbit I O) → List (Obs N K S) → Except PyErr (List F × List G))
    (t : Tables I N K O S) (tasks : List (List I)) :
    (match gather (worker fit t) tasks with
      | .error e => .error e
      | .ok parts => .ok (parts.flatMap Prod.fst, parts.flatMap Prod.snd)) = reference fit t tasks.flatten := by
  rw [← worker_reference]
  induction tasks with
  | nil => rfl
  | cons a l ih =>
    rw [List.flatten_cons, worker_append, ← ih]
    simp only [gather]
    cases worker fit t a with
    | error e => rfl
    | ok r =>
      cases gather (worker fit t) l with
      | error e => rfl
      | ok b => simp

omit [DecidableEq I] in
theorem chunks_pos {l : List I} {chunk : Int} (hc : 0 < chunk) :
    ∃ tasks, Chunk.iterateChunks l chunk = .ok tasks ∧ tasks.flatten = l := by
  unfold Chunk.iterateChunks
  rw [Chunk.range_pos hc]
  refine ⟨_, rfl, ?_⟩
  have := Chunk.chunks_flatten l (c := chunk.toNat) (by omega) 0
  rwa [List.drop_zero] at this

omit [DecidableEq I] in
theorem mem_of_chunks {l : List I} {chunk : Int} {tasks : List (List I)} (h : Chunk.iterateChunks l chunk = .ok tasks)
    {t : List I} (ht : t ∈ tasks) {i : I} (hi : i ∈ t) : i ∈ l := by
  unfold Chunk.iterateChunks at h
  cases hr : Chunk.range l.length chunk with
  | error e => rw [hr] at h; cases h
  | ok is =>
    rw [hr] at h
    cases h
    obtain ⟨k, _, rfl⟩ := List.mem_map.mp ht
    unfold Chunk.slice at hi
    exact List.mem_of_mem_take (List.mem_of_mem_drop hi)

/-- The result of a task that succeeds. -/
def outOf {α β : Type} (d : β) (w : α → Except PyErr β) (a : α) : β :=
  match w a with
  | .ok b => b
  | .error _ => d

theorem gather_inv {α β : Type} (d : β) {w : α → Except PyErr β} {l : List α} {out : List β} (h : gather w l = .ok out) :
    (∀ a ∈ l, w a = .ok (outOf d w a)) ∧ out = l.map (outOf d w) := by
  have hall : ∀ a ∈ l, w a = .ok (outOf d w a) := by
    intro a ha
    unfold outOf
    cases hw : w a with
    | ok b => rfl
    | error e =>
      obtain ⟨e', he'⟩ := gather_error ha ⟨e, hw⟩
      rw [he'] at h
      cases h
  refine ⟨hall, ?_⟩
  rw [gather_ok hall] at h
  cases h
  rfl

/-! ## C129 -/

/-- Without workers: one fit for every row of the orbit table, in its order, on the restricted tables, whatever the size of the
chunks; nothing at all if there are no orbits or no members. -/
theorem C129_serial (full : Nat → Bool) (pick : Nat → Nat)
    (fit : List (Orbit I O) → List (Obs N K S) → Except PyErr (List F × List G)) (a : Args I N K O S) (chunk : Int)
    (hc : 0 < chunk) :
    correct false full pick fit a chunk =
      if a.masked.members = [] then .ok ([], []) else reference fit a.masked (a.masked.orbits.map Orbit.id) := by
  unfold correct
  simp only
  by_cases h1 : a.masked.orbits = []
  · rw [if_pos (Or.inl h1), h1]
    simp [reference]
  · by_cases h2 : a.masked.members = []
    · rw [if_pos (Or.inr h2), if_pos h2]
    · rw [if_neg (by tauto), if_neg h2]
      obtain ⟨tasks, ht, hf⟩ := chunks_pos (l := a.masked.orbits.map Orbit.id) hc
      rw [ht]
      simp only [Bool.false_eq_true, if_false]
      rw [← hf]
      exact gather_chunks fit a.masked tasks

/-- What the fit of an orbit gets: all rows of the table with the id, and of the observations exactly those that are members, each
as often as it is in the table of observations and not as often as it is a member, in order of time and observatory. -/
theorem C129_input (t : Tables I N K O S) (i : I) :
    (∀ o, o ∈ (input t i).1 ↔ o ∈ t.orbits ∧ o.id = i) ∧
    (∀ s, s ∈ (input t i).2 ↔ s ∈ t.observations ∧ ∃ m ∈ t.members, m.orbit = i ∧ m.obs = s.id) ∧
    ((input t i).2.map Obs.key).Pairwise (· ≤ ·) ∧
    (t.observations.Nodup → (input t i).2.Nodup) := by
  unfold input
  simp only
  refine ⟨fun o => by simp, fun s => ?_, ?_, fun hn => ?_⟩
  · rw [(sortBy_perm _ _).mem_iff, List.mem_filter, decide_eq_true_eq, List.mem_map]
    simp only [List.mem_filter, decide_eq_true_eq, and_assoc]
  · rw [List.pairwise_map]
    exact sortBy_sorted _ _
  · exact (sortBy_perm _ _).nodup_iff.mpr (hn.filter _)

/-- Ids given together with tables, not references, have no effect: nothing is restricted. -/
theorem C129_ids_ignored (useRay : Bool) (full : Nat → Bool) (pick : Nat → Nat)
    (fit : List (Orbit I O) → List (Obs N K S) → Except PyErr (List F × List G)) (a : Args I N K O S) (chunk : Int)
    (h1 : a.orbits.isRef = false) (h2 : a.members.isRef = false) (h3 : a.observations.isRef = false)
    (oi : Option (List I)) (si : Option (List N)) :
    correct useRay full pick fit { a with orbitIds := oi, obsIds := si } chunk = correct useRay full pick fit a chunk := by
  have hm : ∀ (oi : Option (List I)) (si : Option (List N)),
      ({ a with orbitIds := oi, obsIds := si } : Args I N K O S).masked = a.stored := by
    intro oi si
    unfold Args.masked Args.stored restrict
    cases oi <;> cases si <;> simp [h1, h2, h3]
  have h := hm a.orbitIds a.obsIds
  have ha : a.masked = a.stored := h
  unfold correct
  rw [hm oi si, ha]
  rfl

omit [LinearOrder K] in
/-- With references they restrict what is fitted without workers. -/
theorem C129_ids_restrict (a : Args I N K O S) (h1 : a.orbits.isRef = true) (h2 : a.members.isRef = true)
    (h3 : a.observations.isRef = true) (oi : List I) (si : List N) (ho : a.orbitIds = some oi) (hs : a.obsIds = some si) :
    (∀ o, o ∈ a.masked.orbits ↔ o ∈ a.orbits.rows ∧ o.id ∈ oi) ∧
    (∀ m, m ∈ a.masked.members ↔ m ∈ a.members.rows ∧ m.orbit ∈ oi ∧ m.obs ∈ si) ∧
    (∀ s, s ∈ a.masked.observations ↔ s ∈ a.observations.rows ∧ s.id ∈ si) := by
  unfold Args.masked restrict
  simp only [ho, hs, h1, h2, h3, if_true, List.mem_filter, decide_eq_true_eq]
  exact ⟨fun _ => trivial, fun m => by tauto, fun _ => trivial⟩

theorem input_stored (a : Args I N K O S) (hu : Uniform a) (i : I) (hi : i ∈ a.masked.orbits.map Orbit.id) :
    input a.stored i = input a.masked i := by
  obtain ⟨h1, h2⟩ := hu
  have hobs : a.masked.observations = a.stored.observations := by
    unfold Args.masked Args.stored restrict
    rcases h1 with h | ⟨_, h⟩
    · simp [h]
    · cases a.obsIds <;> simp [h]
  have hmem0 : (restrict a.members Member.obs a.obsIds) = a.members := by
    unfold restrict
    rcases h1 with h | ⟨h, _⟩
    · simp [h]
    · cases a.obsIds <;> simp [h]
  have horb : (a.stored.orbits.filter fun o => decide (o.id = i)) = a.masked.orbits.filter fun o => decide (o.id = i) := by
    unfold Args.masked Args.stored restrict
    unfold Args.masked restrict at hi
    cases ho : a.orbitIds with
    | none => simp
    | some l =>
      cases hr : a.orbits.isRef with
      | false => simp
      | true =>
        simp only [ho, hr, if_true, List.mem_map, List.mem_filter, decide_eq_true_eq] at hi
        obtain ⟨o, ⟨_, hl⟩, rfl⟩ := hi
        simp only [if_true, List.filter_filter]
        apply List.filter_congr
        intro x _
        by_cases hx : x.id = o.id
        · simp [hx, hl]
        · simp [hx]
  have hmem : (a.stored.members.filter fun m => decide (m.orbit = i)) =
      a.masked.members.filter fun m => decide (m.orbit = i) := by
    unfold Args.masked Args.stored
    simp only
    rw [hmem0]
    unfold restrict
    unfold Args.masked restrict at hi
    cases ho : a.orbitIds with
    | none => simp
    | some l =>
      rcases h2 with h | h | h
      · rw [ho] at h; cases h
      · simp [h]
      · simp only [ho, h, if_true, List.mem_map, List.mem_filter, decide_eq_true_eq] at hi
        obtain ⟨o, ⟨_, hl⟩, rfl⟩ := hi
        cases hr : a.members.isRef with
        | false => simp
        | true =>
          simp only [if_true, List.filter_filter]
          apply List.filter_congr
          intro x _
          by_cases hx : x.orbit = o.id
          · simp [hx, hl]
          · simp [hx]
  unfold input
  rw [horb, hmem, hobs]

theorem worker_congr (fit : List (Orbit I O) → List (Obs N K S) → Except PyErr (List F × List G))
    (t t' : Tables I N K O S) (ids : List I) (h : ∀ i ∈ ids, input t i = input t' i) : worker fit t ids = worker fit t' ids := by
  rw [worker_reference, worker_reference]
  induction ids with
  | nil => rfl
  | cons i ids ih =>
    unfold reference
    rw [h i List.mem_cons_self, ih fun j hj => h j (List.mem_cons_of_mem _ hj)]

theorem flatMap_perm {α β : Type} {l l' : List α} (h : l.Perm l') (f : α → List β) : (l.flatMap f).Perm (l'.flatMap f) :=
  h.flatMap_right f

/-- With workers: if the ids restrict nothing or both ways alike, the rows are the same for every order of completion, up to
their order, and the call fails exactly when it fails without workers. -/
theorem C129_parallel (full full' : Nat → Bool) (pick pick' : Nat → Nat)
    (fit : List (Orbit I O) → List (Obs N K S) → Except PyErr (List F × List G)) (a : Args I N K O S) (chunk : Int)
    (hu : Uniform a) :
    (∀ f g, correct false full' pick' fit a chunk = .ok (f, g) →
      ∃ f' g', correct true full pick fit a chunk = .ok (f', g') ∧ f'.Perm f ∧ g'.Perm g) ∧
    ((∃ e, correct false full' pick' fit a chunk = .error e) ↔ ∃ e, correct true full pick fit a chunk = .error e) := by
  have hok : ∀ f g, correct false full' pick' fit a chunk = .ok (f, g) →
      ∃ f' g', correct true full pick fit a chunk = .ok (f', g') ∧ f'.Perm f ∧ g'.Perm g := by
    intro f g h
    unfold correct at h ⊢
    simp only at h ⊢
    split at h
    · next hc =>
      cases h
      rw [if_pos hc]
      exact ⟨[], [], rfl, List.Perm.refl _, List.Perm.refl _⟩
    · next hc =>
      rw [if_neg hc]
      cases ht : Chunk.iterateChunks (a.masked.orbits.map Orbit.id) chunk with
      | error e => rw [ht] at h; cases h
      | ok tasks =>
        rw [ht] at h
        simp only [Bool.false_eq_true, if_false, if_true] at h ⊢
        have hw : ∀ t ∈ tasks, worker fit a.stored t = worker fit a.masked t := by
          intro t htm
          apply worker_congr
          intro i hi
          refine input_stored a hu i ?_
          exact mem_of_chunks ht htm hi
        cases hg : gather (worker fit a.masked) tasks with
        | error e => rw [hg] at h; cases h
        | ok parts =>
          rw [hg] at h
          cases h
          obtain ⟨hall, hparts⟩ := gather_inv ([], []) hg
          have hall' : ∀ t ∈ tasks, worker fit a.stored t = .ok (outOf ([], []) (worker fit a.masked) t) := by
            intro t htm
            rw [hw t htm]
            exact hall t htm
          rw [runTasks_ok full pick hall']
          refine ⟨_, _, rfl, ?_, ?_⟩
          · rw [hparts]; exact flatMap_perm ((runAll_perm full pick tasks).map _) _
          · rw [hparts]; exact flatMap_perm ((runAll_perm full pick tasks).map _) _
  refine ⟨hok, ?_⟩
  constructor
  · rintro ⟨e, h⟩
    unfold correct at h ⊢
    simp only at h ⊢
    split at h
    · cases h
    · next hc =>
      rw [if_neg hc]
      cases ht : Chunk.iterateChunks (a.masked.orbits.map Orbit.id) chunk with
      | error e => exact ⟨e, rfl⟩
      | ok tasks =>
        rw [ht] at h
        simp only [Bool.false_eq_true, if_false, if_true] at h ⊢
        cases hg : gather (worker fit a.masked) tasks with
        | ok parts => rw [hg] at h; cases h
        | error e' =>
          obtain ⟨t, htm, he''⟩ := gather_error_of hg
          have hws : worker fit a.stored t = .error e' := by
            rw [← he'']
            apply worker_congr
            intro i hi
            exact input_stored a hu i (mem_of_chunks ht htm hi)
          obtain ⟨e3, he3⟩ := runTasks_error full pick htm ⟨e', hws⟩
          rw [he3]
          exact ⟨_, rfl⟩
  · rintro ⟨e, h⟩
    cases hs : correct false full' pick' fit a chunk with
    | error e' => exact ⟨e', rfl⟩
    | ok r =>
      obtain ⟨f', g', h', _⟩ := hok r.1 r.2 hs
      rw [h'] at h
      cases h

theorem serial_any (full full' : Nat → Bool) (pick pick' : Nat → Nat)
    (fit : List (Orbit I O) → List (Obs N K S) → Except PyErr (List F × List G)) (a : Args I N K O S) (chunk : Int) :
    correct false full pick fit a chunk = correct false full' pick' fit a chunk := rfl

/-- Otherwise they can differ: with observation ids and references the restriction is lost in the workers. Here the fit counts its
observations. -/
theorem C129_parallel_differs :
    let fit : List (Orbit Nat Unit) → List (Obs Nat Nat Unit) → Except PyErr (List Nat × List Nat) :=
      fun _ l => .ok ([l.length], l.map Obs.id)
    let a : Args Nat Nat Nat Unit Unit := ⟨⟨[⟨1, ()⟩], true⟩, ⟨[⟨1, 10⟩, ⟨1, 11⟩], true⟩,
      ⟨[⟨10, 0, ()⟩, ⟨11, 1, ()⟩], true⟩, none, some [10]⟩
    (∀ full pick, correct false full pick fit a 1 = .ok ([1], [10])) ∧
      correct true (atLeast 2) (fun _ => 0) fit a 1 = .ok ([2], [10, 11]) := by
  refine ⟨fun full pick => ?_, by decide +kernel⟩
  rw [serial_any full (fun _ => true) pick (fun _ => 0)]
  decide +kernel

/-- So can orbit ids, if the members are a reference and the orbits are not: without workers the other orbits are fitted to no
observations, with workers to all of theirs. -/
theorem C129_mixed_differs :
    let fit : List (Orbit Nat Unit) → List (Obs Nat Nat Unit) → Except PyErr (List Nat × List Nat) :=
      fun _ l => .ok ([l.length], l.map Obs.id)
    let a : Args Nat Nat Nat Unit Unit := ⟨⟨[⟨1, ()⟩, ⟨2, ()⟩], false⟩, ⟨[⟨1, 10⟩, ⟨2, 11⟩], true⟩,
      ⟨[⟨10, 0, ()⟩, ⟨11, 1, ()⟩], false⟩, some [1], none⟩
    (∀ full pick, correct false full pick fit a 1 = .ok ([1, 0], [10])) ∧
      correct true (atLeast 2) (fun _ => 0) fit a 1 = .ok ([1, 1], [10, 11]) := by
  refine ⟨fun full pick => ?_, by decide +kernel⟩
  rw [serial_any full (fun _ => true) pick (fun _ => 0)]
  decide +kernel

/-- An orbit id that occurs twice is fitted twice, each time with both rows. -/
theorem C129_repeated_id :
    let fit : List (Orbit Nat Unit) → List (Obs Nat Nat Unit) → Except PyErr (List Nat × List Nat) :=
      fun o _ => .ok ([o.length], [])
    correct false (fun _ => true) (fun _ => 0) fit
      ⟨⟨[⟨1, ()⟩, ⟨1, ()⟩], false⟩, ⟨[⟨1, 10⟩], false⟩, ⟨[⟨10, 0, ()⟩], false⟩, none, none⟩ 10 = .ok ([2, 2], []) := by
  decide +kernel

/-- A chunk size of zero is refused (`ValueError`), a negative one gives empty tables without any fit. -/
theorem C129_chunk (useRay : Bool) (full : Nat → Bool) (pick : Nat → Nat)
    (fit : List (Orbit I O) → List (Obs N K S) → Except PyErr (List F × List G)) (a : Args I N K O S)
    (h1 : a.masked.orbits ≠ []) (h2 : a.masked.members ≠ []) :
    correct useRay full pick fit a 0 = .error .valueError ∧
      ∀ c < 0, correct useRay full pick fit a c = .ok ([], []) := by
  have hne : ¬ (a.masked.orbits = [] ∨ a.masked.members = []) := by tauto
  constructor
  · unfold correct
    simp only
    rw [if_neg hne]
    simp [Chunk.iterateChunks, Chunk.range]
  · intro c hc
    unfold correct
    simp only
    rw [if_neg hne]
    have : Chunk.iterateChunks (a.masked.orbits.map Orbit.id) c = .ok [] := by
      unfold Chunk.iterateChunks Chunk.range
      rw [if_neg (by omega), if_pos hc]
      rfl
    rw [this]
    cases useRay <;> rfl

/-- Two orbits that share an observation, with the observations out of order. -/
theorem C129_case :
    let fit : List (Orbit Nat Unit) → List (Obs Nat Nat Unit) → Except PyErr (List Nat × List Nat) :=
      fun o l => .ok (o.map Orbit.id, l.map Obs.id)
    correct false (fun _ => true) (fun _ => 0) fit
      ⟨⟨[⟨2, ()⟩, ⟨1, ()⟩], false⟩, ⟨[⟨1, 10⟩, ⟨2, 11⟩, ⟨2, 10⟩, ⟨2, 10⟩], false⟩, ⟨[⟨11, 5, ()⟩, ⟨10, 3, ()⟩], false⟩, none, none⟩ 1 =
      .ok ([2, 1], [10, 11, 10]) := by
  decide +kernel

/-! ## C130 -/

section

variable {J T L : Type} [LinearOrder J] [LinearOrder T]

/-- How often a member is found among the observations, at least once. -/
def copies (times : List (N × T)) (m : Member J N) : Nat :=
  max 1 (times.filter fun t => decide (t.1 = m.obs)).length

omit [LinearOrder J] [LinearOrder T] in
theorem joined_members (members : List (Member J N)) (times : List (N × T)) :
    (joined members times).map Prod.fst = members.flatMap fun m => List.replicate (copies times m) m := by
  unfold joined
  rw [List.map_flatMap]
  congr 1
  funext m
  unfold copies
  cases h : times.filter fun t => decide (t.1 = m.obs) with
  | nil => rfl
  | cons a l =>
    simp only [List.map_map, List.length_cons]
    rw [show max 1 (l.length + 1) = (a :: l).length by simp]
    refine List.eq_replicate_iff.mpr ⟨by simp, fun b hb => ?_⟩
    obtain ⟨_, _, rfl⟩ := List.mem_map.mp hb
    rfl

/-- Whatever order the join comes in: every member is returned as often as its observation is in the table of observations, and
once if it is not there. -/
theorem C130_members (members : List (Member J N)) (times : List (N × T)) (j : List (Member J N × Option T))
    (hj : j.Perm (joined members times)) :
    (sortedMembers j).Perm (members.flatMap fun m => List.replicate (copies times m) m) := by
  unfold sortedMembers
  rw [← joined_members]
  exact ((sortBy_perm _ _).trans hj).map _

/-- With distinct observation ids no member is lost and none is repeated. -/
theorem C130_same_members (members : List (Member J N)) (times : List (N × T)) (hn : (times.map Prod.fst).Nodup)
    (j : List (Member J N × Option T)) (hj : j.Perm (joined members times)) : (sortedMembers j).Perm members := by
  refine (C130_members members times j hj).trans ?_
  have : ∀ m : Member J N, copies times m = 1 := by
    intro m
    unfold copies
    have h : (times.filter fun t => decide (t.1 = m.obs)).length ≤ 1 := by
      have h1 : ((times.map Prod.fst).filter fun n => decide (n = m.obs)).length ≤ 1 := by
        have := List.nodup_iff_count_le_one.mp hn m.obs
        rwa [List.count_eq_length_filter, show (fun x => x == m.obs) = fun n => decide (n = m.obs) from rfl] at this
      rw [List.filter_map, List.length_map] at h1
      exact h1
    omega
  simp only [this, List.replicate_one]
  rw [List.flatMap_singleton']

/-- The members come in the order of the linkages and, within one, of the times of their observations; those without observation
come last. -/
theorem C130_order (members : List (Member J N)) (times : List (N × T))
    (j : List (Member J N × Option T)) (hj : j.Perm (joined members times)) :
    (sortedMembers j).Pairwise fun a b =>
      a.orbit < b.orbit ∨ a.orbit = b.orbit ∧ ((∀ t, (b.obs, t) ∉ times) ∨
        ∃ s t, (a.obs, s) ∈ times ∧ (b.obs, t) ∈ times ∧ s ≤ t) := by
  have hval : ∀ r ∈ j, (r.2 = none ∧ ∀ t, (r.1.obs, t) ∉ times) ∨ ∃ t, r.2 = some t ∧ (r.1.obs, t) ∈ times := by
    intro r hr
    have hr := hj.mem_iff.mp hr
    unfold joined at hr
    obtain ⟨m, _, hm⟩ := List.mem_flatMap.mp hr
    cases h : times.filter fun t => decide (t.1 = m.obs) with
    | nil =>
      rw [h] at hm
      simp only [List.mem_singleton] at hm
      subst hm
      left
      refine ⟨rfl, fun t ht => ?_⟩
      have : (m.obs, t) ∈ times.filter fun t => decide (t.1 = m.obs) :=
        List.mem_filter.mpr ⟨ht, decide_eq_true rfl⟩
      rw [h] at this
      cases this
    | cons a l =>
      rw [h] at hm
      simp only at hm
      rw [← h] at hm
      obtain ⟨t, ht, rfl⟩ := List.mem_map.mp hm
      obtain ⟨ht1, ht2⟩ := List.mem_filter.mp ht
      rw [decide_eq_true_eq] at ht2
      right
      exact ⟨t.2, rfl, by rw [show (m, some t.2).1.obs = t.1 from ht2.symm]; exact ht1⟩
  unfold sortedMembers
  rw [List.pairwise_map]
  refine List.Pairwise.imp_of_mem ?_ (sortBy_sorted joinKey j)
  intro a b ha hb hab
  have ha := hval a ((sortBy_perm _ _).mem_iff.mp ha)
  have hb := hval b ((sortBy_perm _ _).mem_iff.mp hb)
  unfold joinKey at hab
  rw [Prod.Lex.toLex_le_toLex] at hab
  rcases hab with h | ⟨h1, h2⟩
  · exact Or.inl h
  · refine Or.inr ⟨h1, ?_⟩
    rcases hb with ⟨_, hb⟩ | ⟨t, hb, hb'⟩
    · exact Or.inl hb
    · rcases ha with ⟨ha, _⟩ | ⟨s, ha, ha'⟩
      · rw [ha, hb] at h2
        simp at h2
      · rw [ha, hb] at h2
        exact Or.inr ⟨s, t, ha', hb', by simpa using h2⟩

/-- If no two members of a linkage have the same observation time the result does not depend on the order of the join. -/
theorem C130_unique (members : List (Member J N)) (times : List (N × T)) (j j' : List (Member J N × Option T))
    (hj : j.Perm (joined members times)) (hj' : j'.Perm (joined members times))
    (hd : ∀ a ∈ joined members times, ∀ b ∈ joined members times, a.1.orbit = b.1.orbit → a.2 = b.2 → a = b) :
    sortedMembers j = sortedMembers j' := by
  unfold sortedMembers
  rw [sortBy_congr joinKey (hj.trans hj'.symm) ?_]
  intro a ha b hb hk
  unfold joinKey at hk
  have hk := toLex_inj.mp hk
  have h1 : a.1.orbit = b.1.orbit := (Prod.mk.inj hk).1
  have h2 := (Prod.mk.inj hk).2
  refine hd a (hj.mem_iff.mp ha) b (hj.mem_iff.mp hb) h1 ?_
  obtain ⟨_, x⟩ := a
  obtain ⟨_, y⟩ := b
  cases x <;> cases y <;> simp_all

/-- The linkages are the same ones, in order of their ids, those with one id in the order given. -/
theorem C130_linkages (id : L → J) (l : List L) :
    (sortedLinkages id l).Perm l ∧ ((sortedLinkages id l).map id).Pairwise (· ≤ ·) ∧
      ∀ i, (sortedLinkages id l).filter (fun x => decide (id x = i)) = l.filter fun x => decide (id x = i) := by
  refine ⟨sortBy_perm _ _, ?_, fun i => ?_⟩
  · rw [List.pairwise_map]
    exact sortBy_sorted _ _
  · apply Catalog.Props.sortBy_filter_key
    intro a _ b _ h1 h2
    rw [decide_eq_true_eq] at h1 h2
    rw [h1, h2]

/-- An observation that is listed twice doubles its member. -/
theorem C130_repeated : sortedMembers (joined [(⟨1, 10⟩ : Member Nat Nat)] [(10, 5), (10, 6)]) = [⟨1, 10⟩, ⟨1, 10⟩] := by
  decide +kernel

/-- Two linkages with their members out of order, one member without observation. -/
theorem C130_case : sortedMembers (joined [⟨2, 10⟩, ⟨1, 12⟩, ⟨1, 11⟩, ⟨1, 10⟩] [(10, 5), (11, 3)]) =
    [(⟨1, 11⟩ : Member Nat Nat), ⟨1, 10⟩, ⟨1, 12⟩, ⟨2, 10⟩] := by
  decide +kernel

end

end Verif.Dc.Props
