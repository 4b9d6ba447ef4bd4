import Verif.Sbdb.Spec
import Verif.Sched.Lemmas
import Mathlib.Data.List.Induction
import Mathlib.Tactic.Linarith
import Mathlib.Algebra.BigOperators.Ring.Finset

/-! # SBDB queries: the properties -/

namespace Verif.Sbdb.Props

open Verif Sched Spec

/-! ## Covariances -/

/-- The entry last assigned to a place. -/
def source (l : List ((Fin 6 × Fin 6) × (Fin 6 × Fin 6))) (i j : Fin 6) : Option (Fin 6 × Fin 6) :=
  (l.reverse.find? fun e => decide ((i, j) = e.1)).map Prod.snd

theorem foldl_source {K : Type} (m : Fin 6 → Fin 6 → K) (l : List ((Fin 6 × Fin 6) × (Fin 6 × Fin 6)))
    (a : Fin 6 → Fin 6 → K) (i j : Fin 6) :
    l.foldl (fun (a : Fin 6 → Fin 6 → K) e => fun i j => if (i, j) = e.1 then m e.2.1 e.2.2 else a i j) a i j =
      match source l i j with
      | some s => m s.1 s.2
      | none => a i j := by
  induction l using List.reverseRecOn with
  | nil => rfl
  | append_singleton l e ih =>
    rw [List.foldl_append]
    simp only [List.foldl_cons, List.foldl_nil]
    unfold source at ih ⊢
    rw [List.reverse_append, List.reverse_singleton, List.singleton_append, List.find?_cons]
    by_cases h : (i, j) = e.1
    · simp [h]
    · simp only [h, if_false, decide_false]
      exact ih

theorem convert_source : ∀ i j : Fin 6, source assignments i j = some (position i, position j) ∨
    source assignments i j = some (position j, position i) := by
  decide +kernel

theorem source_comm : ∀ i j : Fin 6, source assignments i j = source assignments j i := by
  decide +kernel

/-- A symmetric matrix is reordered from SBDB's order to the cometary one. -/
theorem C63_permuted {K : Type} [Zero K] (m : Fin 6 → Fin 6 → K) (hm : ∀ i j, m i j = m j i) (i j : Fin 6) :
    convert m i j = m (position i) (position j) := by
  unfold convert
  rw [foldl_source]
  rcases convert_source i j with h | h
  · rw [h]
  · rw [h]
    exact hm _ _

/-- Without symmetry it is not: only one triangle of the result is read from the matching entries. -/
theorem C63_asymmetric_false :
    ¬ ∀ (m : Fin 6 → Fin 6 → ℚ) (i j : Fin 6), convert m i j = m (position i) (position j) := by
  intro h
  have := h (fun i j => if i = 1 ∧ j = 0 then 1 else 0) 0 1
  revert this
  decide +kernel

/-- The result is symmetric whatever is given. -/
theorem C63_symmetric {K : Type} [Zero K] (m : Fin 6 → Fin 6 → K) (i j : Fin 6) : convert m i j = convert m j i := by
  unfold convert
  rw [foldl_source, foldl_source, source_comm]

/-- Variances of linear combinations are kept: the quadratic form of the result is that of the input with the components
moved to their places. In particular a positive semidefinite matrix stays so. -/
theorem C63_quadratic (m : Fin 6 → Fin 6 → ℚ) (hm : ∀ i j, m i j = m j i) (x : Fin 6 → ℚ) :
    (∑ i, ∑ j, x (position i) * convert m i j * x (position j)) = ∑ i, ∑ j, x i * m i j * x j := by
  have hinj : Function.Bijective position := by decide
  have h1 : ∀ i j, x (position i) * convert m i j * x (position j) =
      (fun a b => x a * m a b * x b) (position i) (position j) := by
    intro i j
    rw [C63_permuted m hm]
  simp only [h1]
  rw [← Function.Bijective.sum_comp hinj fun a => ∑ b, x a * m a b * x b]
  apply Finset.sum_congr rfl
  intro i _
  exact Function.Bijective.sum_comp hinj fun b => x (position i) * m (position i) b * x b

/-- A symmetric matrix with 36 recognisable entries. -/
example : (∀ i j : Fin 6, (fun (i j : Fin 6) => ((10 * min i.1 j.1 + max i.1 j.1 : ℕ) : ℚ)) i j =
      (fun (i j : Fin 6) => ((10 * min i.1 j.1 + max i.1 j.1 : ℕ) : ℚ)) j i) ∧
    convert (fun (i j : Fin 6) => ((10 * min i.1 j.1 + max i.1 j.1 : ℕ) : ℚ)) 2 5 = 25 := by
  constructor
  · intro i j
    simp only [min_comm i.1, max_comm i.1]
  · decide +kernel

/-! ## Retries -/

section
variable {P : Type}

theorem transient_iff (s : Option Nat) : transient s = true ↔ Retry (.http s : Answer P) := by
  cases s with
  | none => simp [transient, Retry]
  | some s => simp [transient, Retry, or_comm]

theorem attempts_spec (answer : Nat → Answer P) (fuel k : Nat) (slept : ℚ) :
    k ≤ (attempts answer fuel k slept).requests ∧ (attempts answer fuel k slept).requests ≤ k + fuel ∧
    (∀ i, k ≤ i → i + 1 < (attempts answer fuel k slept).requests → Retry (answer i)) ∧
    (∀ p, (attempts answer fuel k slept).result = .ok p → k < (attempts answer fuel k slept).requests ∧
      answer ((attempts answer fuel k slept).requests - 1) = .payload p) ∧
    ((attempts answer fuel k slept).result = .error .exhausted →
      (attempts answer fuel k slept).requests = k + fuel ∧ ∀ i, k ≤ i → i < k + fuel → Retry (answer i)) ∧
    (∀ s, (attempts answer fuel k slept).result = .error (.http s) → k < (attempts answer fuel k slept).requests ∧
      answer ((attempts answer fuel k slept).requests - 1) = .http s ∧ ¬ Retry (.http s : Answer P)) ∧
    ((attempts answer fuel k slept).result = .error .other → k < (attempts answer fuel k slept).requests ∧
      answer ((attempts answer fuel k slept).requests - 1) = .other) ∧
    (attempts answer fuel k slept).result ≠ .error .badArgument ∧
    (attempts answer fuel k slept).slept ≤ slept + 8 * ((attempts answer fuel k slept).requests - k : ℕ) := by
  induction fuel generalizing k slept with
  | zero =>
    unfold attempts
    refine ⟨le_refl _, le_refl _, ?_, ?_, ?_, ?_, ?_, ?_, ?_⟩
    · intro i h1 h2; simp only at h2; omega
    · intro p h; cases h
    · intro _; exact ⟨rfl, fun i h1 h2 => by omega⟩
    · intro s h; cases h
    · intro h; cases h
    · simp
    · simp
  | succ fuel ih =>
    have hb : ∀ n, backoff n ≤ 8 := fun n => min_le_left _ _
    have hretry : Retry (answer k) → attempts answer (fuel + 1) k slept =
        attempts answer fuel (k + 1) (slept + backoff k) := by
      intro h
      conv_lhs => unfold attempts
      cases ha : answer k with
      | payload p => rw [ha] at h; exact h.elim
      | timeout => rfl
      | connection => rfl
      | http s =>
        rw [ha] at h
        simp only
        rw [if_pos ((transient_iff s).mpr h)]
      | other => rw [ha] at h; exact h.elim
    by_cases hR : Retry (answer k)
    · rw [hretry hR]
      obtain ⟨h1, h2, h3, h4, h5, h6, h7, h8, h9⟩ := ih (k + 1) (slept + backoff k)
      generalize attempts answer fuel (k + 1) (slept + backoff k) = f at *
      refine ⟨by omega, by omega, ?_, ?_, ?_, ?_, ?_, h8, ?_⟩
      · intro i hi1 hi2
        rcases Nat.lt_or_ge k i with h | h
        · exact h3 i h hi2
        · obtain rfl : i = k := by omega
          exact hR
      · intro p hp
        obtain ⟨ha, hb⟩ := h4 p hp
        exact ⟨by omega, hb⟩
      · intro he
        obtain ⟨ha, hb⟩ := h5 he
        refine ⟨by omega, ?_⟩
        intro i hi1 hi2
        rcases Nat.lt_or_ge k i with h | h
        · exact hb i h (by omega)
        · obtain rfl : i = k := by omega
          exact hR
      · intro s hs
        obtain ⟨ha, hb⟩ := h6 s hs
        exact ⟨by omega, hb⟩
      · intro ho
        obtain ⟨ha, hb⟩ := h7 ho
        exact ⟨by omega, hb⟩
      · have hk := hb k
        have hsub : (f.requests - k : ℕ) = (f.requests - (k + 1) : ℕ) + 1 := by omega
        rw [hsub]
        push_cast
        linarith
    · unfold attempts
      cases ha : answer k with
      | payload p =>
        simp only
        refine ⟨by omega, by omega, ?_, ?_, ?_, ?_, ?_, ?_, ?_⟩
        · intro i h1 h2; omega
        · intro p' h
          cases h
          exact ⟨by omega, by simpa using ha⟩
        · intro h; cases h
        · intro s h; cases h
        · intro h; cases h
        · simp
        · have : (0 : ℚ) ≤ ((k + 1 - k : ℕ) : ℚ) := Nat.cast_nonneg _
          linarith
      | timeout => rw [ha] at hR; exact absurd trivial hR
      | connection => rw [ha] at hR; exact absurd trivial hR
      | http s =>
        rw [ha] at hR
        have : transient s = false := by
          by_contra hc
          exact hR ((transient_iff s).mp (by simpa using hc))
        simp only [this, Bool.false_eq_true, if_false]
        refine ⟨by omega, by omega, ?_, ?_, ?_, ?_, ?_, ?_, ?_⟩
        · intro i h1 h2; omega
        · intro p' h; cases h
        · intro h; cases h
        · intro s' h
          cases h
          exact ⟨by omega, by simpa using ha, hR⟩
        · intro h; cases h
        · simp
        · have : (0 : ℚ) ≤ ((k + 1 - k : ℕ) : ℚ) := Nat.cast_nonneg _
          linarith
      | other =>
        simp only
        refine ⟨by omega, by omega, ?_, ?_, ?_, ?_, ?_, ?_, ?_⟩
        · intro i h1 h2; omega
        · intro p' h; cases h
        · intro h; cases h
        · intro s h; cases h
        · intro _
          exact ⟨by omega, by simpa using ha⟩
        · simp
        · have : (0 : ℚ) ≤ ((k + 1 - k : ℕ) : ℚ) := Nat.cast_nonneg _
          linarith

/-- At most `max_attempts` requests are sent; all but the last had a transient failure; the payload returned is that of the
last request; giving up means that all attempts failed transiently; other failures are raised at once. -/
theorem C64_attempts (timeout : ℚ) (ht : 0 < timeout) (maxAttempts : Nat) (hm : 0 < maxAttempts) (answer : Nat → Answer P)
    (f : Fetch P) (h : getJson false timeout maxAttempts answer = f) :
    1 ≤ f.requests ∧ f.requests ≤ maxAttempts ∧ (∀ i, i + 1 < f.requests → Retry (answer i)) ∧
    (∀ p, f.result = .ok p ↔ answer (f.requests - 1) = .payload p) ∧
    (f.result = .error .exhausted ↔ ∀ i < maxAttempts, Retry (answer i)) ∧
    (∀ s, f.result = .error (.http s) → answer (f.requests - 1) = .http s ∧ ¬ Retry (.http s : Answer P)) ∧
    (f.result = .error .other → answer (f.requests - 1) = .other) ∧ f.slept ≤ 8 * f.requests := by
  unfold getJson at h
  simp only [Bool.false_eq_true, if_false] at h
  rw [if_neg (by linarith), if_neg (by omega), Int.toNat_natCast] at h
  obtain ⟨h1, h2, h3, h4, h5, h6, h7, h8, h9⟩ := attempts_spec answer maxAttempts 0 0
  rw [h] at h1 h2 h3 h4 h5 h6 h7 h8 h9
  have hpos : 1 ≤ f.requests := by
    cases hr : f.result with
    | ok p => have := h4 p hr; omega
    | error e =>
      cases e with
      | badArgument => exact absurd hr h8
      | exhausted => have := (h5 hr).1; omega
      | http s => have := (h6 s hr).1; omega
      | other => have := (h7 hr).1; omega
  refine ⟨hpos, by omega, fun i hi => h3 i (by omega) hi, ?_, ?_, ?_, ?_, ?_⟩
  · intro p
    constructor
    · intro hp; exact (h4 p hp).2
    · intro ha
      cases hr : f.result with
      | ok p' =>
        have := (h4 p' hr).2
        rw [ha] at this
        cases this
        rfl
      | error e =>
        exfalso
        cases e with
        | badArgument => exact h8 hr
        | exhausted =>
          have := h5 hr
          have := this.2 (f.requests - 1) (by omega) (by omega)
          rw [ha] at this
          exact this
        | http s => have := (h6 s hr).2.1; rw [ha] at this; cases this
        | other => have := (h7 hr).2; rw [ha] at this; cases this
  · constructor
    · intro he i hi
      exact (h5 he).2 i (by omega) (by omega)
    · intro hall
      cases hr : f.result with
      | ok p =>
        exfalso
        obtain ⟨ha, hb⟩ := h4 p hr
        have := hall (f.requests - 1) (by omega)
        rw [hb] at this
        exact this
      | error e =>
        cases e with
        | badArgument => exact absurd hr h8
        | exhausted => rfl
        | http s =>
          exfalso
          obtain ⟨ha, hb, hc⟩ := h6 s hr
          have := hall (f.requests - 1) (by omega)
          rw [hb] at this
          exact hc this
        | other =>
          exfalso
          obtain ⟨ha, hb⟩ := h7 hr
          have := hall (f.requests - 1) (by omega)
          rw [hb] at this
          exact this
  · intro s hs; exact (h6 s hs).2
  · intro ho; exact (h7 ho).2
  · simpa using h9

/-- Without an id, with a non-positive timeout or no attempts nothing is sent. -/
theorem C64_arguments (blank : Bool) (timeout : ℚ) (maxAttempts : Int) (answer : Nat → Answer P)
    (h : blank = true ∨ timeout ≤ 0 ∨ maxAttempts ≤ 0) :
    (getJson blank timeout maxAttempts answer).result = .error .badArgument ∧
    (getJson blank timeout maxAttempts answer).requests = 0 := by
  unfold getJson
  by_cases h1 : blank = true
  · simp [h1]
  · by_cases h2 : timeout ≤ 0
    · simp [h1, h2]
    · have h3 : maxAttempts ≤ 0 := (h.resolve_left h1).resolve_left h2
      simp [h1, h2, h3]

/-- Two timeouts and throttling, then an answer: four requests. -/
example : (getJson false 60 5 fun n => if n < 2 then .timeout else if n = 2 then .http (some 429) else .payload n :
      Fetch Nat).requests = 4 ∧
    (getJson false 60 5 fun n => if n < 2 then .timeout else if n = 2 then .http (some 404) else .payload n :
      Fetch Nat).result = .error (.http (some 404)) := by
  constructor <;> rfl

end

/-! ## Concurrency -/

section
variable {I P X R : Type}

theorem collect_ok (fetch : Nat → Except PyErr P) (g : Nat → P) (done : List Nat) (results : List (Option P))
    (h : ∀ i ∈ done, fetch i = .ok (g i)) :
    ∃ out, collect fetch done results = .ok out ∧ out.length = results.length ∧
      ∀ i, i < results.length → out[i]? = if i ∈ done then some (some (g i)) else results[i]? := by
  induction done generalizing results with
  | nil => exact ⟨results, rfl, rfl, fun i _ => by simp⟩
  | cons a done ih =>
    unfold collect
    rw [h a (by simp)]
    simp only
    obtain ⟨out, h1, h2, h3⟩ := ih (setAt results a (g a)) fun i hi => h i (by simp [hi])
    refine ⟨out, h1, by rw [h2]; simp [setAt], ?_⟩
    intro i hi
    rw [h3 i (by simpa [setAt] using hi)]
    by_cases hd : i ∈ done
    · simp [hd]
    · rw [if_neg hd]
      unfold setAt
      by_cases hia : a = i
      · subst hia
        rw [List.getElem?_set_self hi, if_pos (by simp)]
      · rw [List.getElem?_set_ne hia, if_neg (by simp [hd, Ne.symm hia])]

theorem unwrap_ok (l : List P) : unwrap (l.map some) = .ok l := by
  induction l with
  | nil => rfl
  | cons a l ih =>
    rw [List.map_cons]
    unfold unwrap
    rw [ih]

/-- The payloads come in the order of the ids for every completion order. -/
theorem payloads_ok (pick : Nat → Nat) (fetch : I → Except PyErr P) (g : I → P) (maxConcurrent : Int)
    (hc : 0 < maxConcurrent) (ids : List I) (h : ∀ i ∈ ids, fetch i = .ok (g i)) :
    getPayloads pick fetch maxConcurrent ids = .ok (ids.map g) := by
  unfold getPayloads
  rw [if_neg (by omega)]
  cases hids : ids with
  | nil => rfl
  | cons a0 rest =>
    rw [← hids]
    rw [if_neg (by simp [hids])]
    simp only
    have hperm := runAll_perm never pick (List.range ids.length)
    generalize (runAll never pick (List.range ids.length)).done = done at hperm
    have hin : ∀ i, i ∈ done ↔ i < ids.length := fun i => by rw [hperm.mem_iff, List.mem_range]
    obtain ⟨out, h1, h2, h3⟩ := collect_ok
      (requestAt fetch ids)
      (fun i => g (ids[i]?.getD a0)) done (List.replicate ids.length none) (by
        intro i hi
        have hlt := (hin i).mp hi
        simp only [requestAt, List.getElem?_eq_getElem hlt, Option.getD_some]
        exact h _ (List.getElem_mem hlt))
    rw [h1]
    simp only
    have : out = (ids.map g).map some := by
      apply List.ext_getElem?
      intro i
      rcases Nat.lt_or_ge i ids.length with hlt | hge
      · rw [h3 i (by simpa using hlt), if_pos ((hin i).mpr hlt)]
        simp [List.getElem?_eq_getElem hlt]
      · rw [List.getElem?_eq_none (by rw [h2]; simpa using hge), List.getElem?_eq_none (by simpa using hge)]
    rw [this, unwrap_ok]

theorem toRows_ok (parse : X → Except PyErr R) (g : X → R) (n : Nat) (l : List (Payload X)) (hf : ∀ p ∈ l, p.found = true)
    (h : ∀ p ∈ l, parse p.body = .ok (g p.body)) :
    toRows parse n l = .ok ((List.range' n l.length).zipWith (fun k p => ((OrbitId.number k : OrbitId I), g p.body)) l) := by
  induction l generalizing n with
  | nil => rfl
  | cons p l ih =>
    unfold toRows
    rw [hf p (by simp), h p (by simp), ih (n + 1) (fun q hq => hf q (by simp [hq])) fun q hq => h q (by simp [hq])]
    simp [List.range'_succ]

theorem setIds_ok (ids : List I) (l : List (Payload X)) (g : X → R) (hlen : ids.length = l.length) (n : Nat) :
    setIds ids ((List.range' n l.length).zipWith (fun k p => ((OrbitId.number k : OrbitId I), g p.body)) l) =
      ids.zipWith (fun i p => ((OrbitId.input i : OrbitId I), g p.body)) l := by
  unfold setIds
  induction ids generalizing n l with
  | nil => simp
  | cons i ids ih =>
    cases l with
    | nil => cases hlen
    | cons p l =>
      simp only [List.length_cons, List.range'_succ, List.zipWith_cons_cons, List.zip_cons_cons, List.map_cons]
      congr 1
      exact ih l (by simpa using hlen) (n + 1)

theorem zipWith_map_self {A B C : Type} (f : A → B → C) (g : A → B) (l : List A) :
    l.zipWith f (l.map g) = l.map fun a => f a (g a) := by
  induction l with
  | nil => rfl
  | cons a l ih => simp [ih]

/-- When all requests succeed and all payloads describe objects, there is one row per id in the order asked for, under
every completion order, numbered or under the ids asked for. -/
theorem C64_order (pick : Nat → Nat) (fetch : I → Except PyErr (Payload X)) (payload : I → Payload X)
    (parse : X → Except PyErr R) (g : X → R) (maxConcurrent : Int) (hc : 0 < maxConcurrent) (allowMissing fromInput : Bool)
    (ids : List I) (hfetch : ∀ i ∈ ids, fetch i = .ok (payload i)) (hfound : ∀ i ∈ ids, (payload i).found = true)
    (hparse : ∀ i ∈ ids, parse (payload i).body = .ok (g (payload i).body)) :
    query pick fetch parse maxConcurrent allowMissing fromInput ids = .ok (if fromInput then
        ids.map fun i => (.input i, g (payload i).body)
      else (List.range ids.length).zipWith (fun k i => (OrbitId.number k, g (payload i).body)) ids) := by
  have hmap : ∀ p ∈ ids.map payload, p.found = true ∧ parse p.body = .ok (g p.body) := by
    intro p hp
    obtain ⟨i, hi, rfl⟩ := List.mem_map.mp hp
    exact ⟨hfound i hi, hparse i hi⟩
  have hzip : ids.zip (ids.map payload) = ids.map fun i => (i, payload i) := zipWith_map_self Prod.mk payload ids
  have hkept : (ids.zip (ids.map payload)).filter (fun p => p.2.found) = ids.map fun i => (i, payload i) := by
    rw [hzip, List.filter_eq_self]
    intro p hp
    obtain ⟨i, hi, rfl⟩ := List.mem_map.mp hp
    exact hfound i hi
  have hrows : toRows parse 0 (ids.map payload) =
      .ok ((List.range' 0 ids.length).zipWith (fun k p => ((OrbitId.number k : OrbitId I), g p.body)) (ids.map payload)) := by
    have := toRows_ok (I := I) parse g 0 (ids.map payload) (fun p hp => (hmap p hp).1) fun p hp => (hmap p hp).2
    rw [List.length_map] at this
    exact this
  have hset : setIds ids ((List.range' 0 ids.length).zipWith (fun k p => ((OrbitId.number k : OrbitId I), g p.body))
      (ids.map payload)) = ids.map fun i => (.input i, g (payload i).body) := by
    have := setIds_ok ids (ids.map payload) g (by simp) 0
    rw [List.length_map] at this
    rw [this, zipWith_map_self]
  have hnum : (List.range' 0 ids.length).zipWith (fun k p => ((OrbitId.number k : OrbitId I), g p.body)) (ids.map payload) =
      (List.range ids.length).zipWith (fun k i => (OrbitId.number k, g (payload i).body)) ids := by
    rw [List.zipWith_map_right, List.range_eq_range']
  unfold query
  rw [payloads_ok pick fetch payload maxConcurrent hc ids hfetch]
  simp only
  cases allowMissing with
  | false =>
    simp only [Bool.false_eq_true, if_false]
    rw [hrows]
    simp only
    rw [hset, hnum]
  | true =>
    simp only [if_true]
    rw [hkept]
    cases hids : ids with
    | nil => cases fromInput <;> simp
    | cons a rest =>
      rw [← hids, if_neg (by simp [hids])]
      have e1 : (ids.map fun i => (i, payload i)).map Prod.snd = ids.map payload := by simp [Function.comp_def]
      have e2 : (ids.map fun i => (i, payload i)).map Prod.fst = ids := by simp [Function.comp_def]
      rw [e1, e2, hrows]
      simp only
      rw [hset, hnum]

/-- With `allow_missing` exactly the unknown ids are dropped; the others keep their order. -/
theorem C64_missing (pick : Nat → Nat) (fetch : I → Except PyErr (Payload X)) (payload : I → Payload X)
    (parse : X → Except PyErr R) (g : X → R) (maxConcurrent : Int) (hc : 0 < maxConcurrent)
    (ids : List I) (hfetch : ∀ i ∈ ids, fetch i = .ok (payload i))
    (hparse : ∀ i ∈ ids, (payload i).found = true → parse (payload i).body = .ok (g (payload i).body)) :
    query pick fetch parse maxConcurrent true true ids =
      .ok ((ids.filter fun i => (payload i).found).map fun i => (.input i, g (payload i).body)) := by
  have hzip : ids.zip (ids.map payload) = ids.map fun i => (i, payload i) := zipWith_map_self Prod.mk payload ids
  have hkept : (ids.zip (ids.map payload)).filter (fun p => p.2.found) =
      (ids.filter fun i => (payload i).found).map fun i => (i, payload i) := by
    rw [hzip, List.filter_map]
    rfl
  unfold query
  rw [payloads_ok pick fetch payload maxConcurrent hc ids hfetch]
  simp only [if_true]
  rw [hkept]
  have hall : ∀ i ∈ ids.filter (fun i => (payload i).found), (payload i).found = true ∧
      parse (payload i).body = .ok (g (payload i).body) := by
    intro i hi
    rw [List.mem_filter] at hi
    exact ⟨hi.2, hparse i hi.1 hi.2⟩
  generalize (ids.filter fun i => (payload i).found) = kept at hall
  cases hk : kept with
  | nil => simp
  | cons a rest =>
    rw [← hk, if_neg (by simp [hk])]
    have e1 : (kept.map fun i => (i, payload i)).map Prod.snd = kept.map payload := by simp [Function.comp_def]
    have e2 : (kept.map fun i => (i, payload i)).map Prod.fst = kept := by simp [Function.comp_def]
    rw [e1, e2, toRows_ok (I := I) parse g 0 (kept.map payload)
      (fun p hp => by obtain ⟨i, hi, rfl⟩ := List.mem_map.mp hp; exact (hall i hi).1)
      fun p hp => by obtain ⟨i, hi, rfl⟩ := List.mem_map.mp hp; exact (hall i hi).2]
    simp only
    rw [setIds_ok kept (kept.map payload) g (by simp) 0, zipWith_map_self]

/-- Without `allow_missing` an unknown id raises NotFoundError if all before it are fine. -/
theorem C64_unknown (pick : Nat → Nat) (fetch : I → Except PyErr (Payload X)) (payload : I → Payload X)
    (parse : X → Except PyErr R) (maxConcurrent : Int) (hc : 0 < maxConcurrent) (fromInput : Bool)
    (before after : List I) (i : I) (hfetch : ∀ j ∈ before ++ i :: after, fetch j = .ok (payload j))
    (hbefore : ∀ j ∈ before, (payload j).found = true ∧ ∃ r, parse (payload j).body = .ok r)
    (hi : (payload i).found = false) :
    query pick fetch parse maxConcurrent false fromInput (before ++ i :: after) = .error .notFound := by
  unfold query
  rw [payloads_ok pick fetch payload maxConcurrent hc _ hfetch]
  simp only [Bool.false_eq_true, if_false]
  have key : ∀ n, (toRows parse n ((before ++ i :: after).map payload) : Except PyErr (List (OrbitId I × R))) =
      .error .notFound := by
    clear hfetch
    induction before with
    | nil =>
      intro n
      simp only [List.nil_append, List.map_cons]
      unfold toRows
      rw [hi]
      rfl
    | cons j before ih =>
      intro n
      obtain ⟨hf, r, hr⟩ := hbefore j (by simp)
      simp only [List.cons_append, List.map_cons]
      unfold toRows
      rw [hf, hr, ih (fun k hk => hbefore k (by simp [hk])) (n + 1)]
      rfl
  rw [key 0]

/-- A non-positive number of concurrent requests is refused. -/
theorem C64_concurrency (pick : Nat → Nat) (fetch : I → Except PyErr (Payload X)) (parse : X → Except PyErr R)
    (maxConcurrent : Int) (hc : maxConcurrent ≤ 0) (allowMissing fromInput : Bool) (ids : List I) :
    query pick fetch parse maxConcurrent allowMissing fromInput ids = .error .valueError := by
  unfold query getPayloads
  rw [if_pos hc]

/-- A failing request makes the query fail, under every completion order, with the error of one of the requests. -/
theorem C64_failure (pick : Nat → Nat) (fetch : I → Except PyErr (Payload X)) (parse : X → Except PyErr R)
    (maxConcurrent : Int) (hc : 0 < maxConcurrent) (allowMissing fromInput : Bool) (ids : List I) (i : I) (hi : i ∈ ids)
    (he : ∃ e, fetch i = .error e) :
    ∃ e j, j ∈ ids ∧ fetch j = .error e ∧ query pick fetch parse maxConcurrent allowMissing fromInput ids = .error e := by
  have key : ∀ (f : Nat → Except PyErr (Payload X)) (done : List Nat) (results : List (Option (Payload X))) (k : Nat),
      k ∈ done → (∃ e, f k = .error e) → ∃ e, ∃ k' ∈ done, f k' = .error e ∧ collect f done results = .error e := by
    intro f done
    induction done with
    | nil => intro results k hk; cases hk
    | cons a done ih =>
      intro results k hk hke
      unfold collect
      cases ha : f a with
      | error e => exact ⟨e, a, by simp, ha, rfl⟩
      | ok p =>
        simp only
        rcases List.mem_cons.mp hk with rfl | hk
        · obtain ⟨e, hke⟩ := hke
          rw [ha] at hke
          cases hke
        · obtain ⟨e, k', hk', h1, h2⟩ := ih (setAt results a p) k hk hke
          exact ⟨e, k', by simp [hk'], h1, h2⟩
  have hperm := runAll_perm never pick (List.range ids.length)
  obtain ⟨k, hk, hik⟩ := List.getElem_of_mem hi
  obtain ⟨e, k', hk', h1, h2⟩ := key (requestAt fetch ids)
    (runAll never pick (List.range ids.length)).done (List.replicate ids.length none) k
    (hperm.mem_iff.mpr (List.mem_range.mpr hk)) (by
      obtain ⟨e, he⟩ := he
      refine ⟨e, ?_⟩
      simp only [requestAt, List.getElem?_eq_getElem hk, hik]
      exact he)
  have hlt : k' < ids.length := List.mem_range.mp (hperm.mem_iff.mp hk')
  simp only [requestAt, List.getElem?_eq_getElem hlt] at h1
  refine ⟨e, ids[k'], List.getElem_mem hlt, h1, ?_⟩
  unfold query getPayloads
  rw [if_neg (by omega), if_neg (by
    cases hids : ids with
    | nil => rw [hids] at hi; cases hi
    | cons a l => simp)]
  simp only
  rw [h2]

end

/-- Three ids, the second unknown, answers arriving in reverse. -/
example : (∀ i ∈ [7, 8, 9], (fun i => (.ok ⟨decide (i ≠ 8), i⟩ : Except PyErr (Payload Nat))) i = .ok ⟨decide (i ≠ 8), i⟩) ∧
    (match query (fun _ => 2) (fun i => (.ok ⟨decide (i ≠ 8), i⟩ : Except PyErr (Payload Nat))) (fun x => (.ok (10 * x) : Except PyErr Nat))
        3 true true [7, 8, 9] with
      | .ok rows => rows
      | .error _ => []) = [(.input 7, 70), (.input 9, 90)] := by
  refine ⟨fun _ _ => rfl, ?_⟩
  decide +kernel

/-! ## Physical parameters -/

/-- H is taken from the entry "H" when it reports a non-zero number; when it reports zero or no number, whatever "H_mag"
reports is used instead. -/
theorem C65_value (l : List (Par Name)) (p : Par Name) (hp : byName l .H = some p) :
    (∀ v, p.value = some v → v ≠ 0 → (physPar l).1 = some v) ∧
    (p.value = some 0 ∨ p.value = none → ∀ q, byName l .Hmag = some q → (physPar l).1 = q.value) ∧
    (p.value = some 0 ∨ p.value = none → byName l .Hmag = none → (physPar l).1 = none) := by
  unfold physPar pyOr
  refine ⟨fun v hv h0 => by simp [hp, hv, h0], ?_, ?_⟩
  · rintro (hv | hv) q hq <;> simp [hp, hv, hq]
  · rintro (hv | hv) hq <;> simp [hp, hv, hq]

/-- Without "H" the entry "H_mag" is reported unaltered, zero included. -/
theorem C65_fallback (l : List (Par Name)) (hp : byName l .H = none) (p : Par Name) (hm : byName l .Hmag = some p) :
    (physPar l).1 = p.value ∧ (physPar l).2.1 = p.sigma := by
  unfold physPar pyOr
  simp [hp, hm]

/-- The slope parameter is reported unaltered, zero included. -/
theorem C65_slope (l : List (Par Name)) (p : Par Name) (hp : byName l .G = some p) :
    (physPar l).2.2 = (p.value, p.sigma) := by
  unfold physPar
  simp [hp]

/-- The uncertainty of H: a non-zero one of "H" is kept, otherwise it is that of "H_mag", whatever the values are. -/
theorem C65_sigma (l : List (Par Name)) (p : Par Name) (hp : byName l .H = some p) :
    (∀ s, p.sigma = some s → s ≠ 0 → (physPar l).2.1 = some s) ∧
    (p.sigma = some 0 ∨ p.sigma = none → ∀ q, byName l .Hmag = some q → (physPar l).2.1 = q.sigma) ∧
    (p.sigma = some 0 ∨ p.sigma = none → byName l .Hmag = none → (physPar l).2.1 = none) := by
  unfold physPar pyOr
  refine ⟨fun v hv h0 => by simp [hp, hv, h0], ?_, ?_⟩
  · rintro (hv | hv) q hq <;> simp [hp, hv, hq]
  · rintro (hv | hv) hq <;> simp [hp, hv, hq]

/-- Nothing is made up: without an entry there is no value. -/
theorem C65_absent (l : List (Par Name)) :
    ((∀ p ∈ l, p.name ≠ .H ∧ p.name ≠ .Hmag) → (physPar l).1 = none ∧ (physPar l).2.1 = none) ∧
    ((∀ p ∈ l, p.name ≠ .G) → (physPar l).2.2 = (none, none)) := by
  have hno : ∀ n : Name, (∀ p ∈ l, p.name ≠ n) → byName l n = none := by
    intro n h
    unfold byName
    rw [List.find?_eq_none]
    intro q hq
    simpa using h q (List.mem_reverse.mp hq)
  constructor
  · intro h
    unfold physPar pyOr
    simp [hno .H fun p hp => (h p hp).1, hno .Hmag fun p hp => (h p hp).2]
  · intro h
    unfold physPar
    simp [hno .G h]

/-- The entry found under a name is the last one with that name. -/
theorem C65_last (before after : List (Par Name)) (p : Par Name) (h : ∀ q ∈ after, q.name ≠ p.name) :
    byName (before ++ p :: after) p.name = some p := by
  unfold byName
  rw [List.reverse_append, List.reverse_cons, List.append_assoc, List.find?_append]
  have : (after.reverse.find? fun q => decide (q.name = p.name)) = none := by
    rw [List.find?_eq_none]
    intro q hq
    simpa using h q (List.mem_reverse.mp hq)
  rw [this]
  simp

/-- An absolute magnitude of exactly zero is lost. -/
theorem C65_zero_false :
    ¬ ∀ (l : List (Par Name)) (p : Par Name) (v : ℚ), byName l .H = some p → p.value = some v → (physPar l).1 = some v := by
  intro h
  have := h [⟨.H, some 0, none⟩] ⟨.H, some 0, none⟩ 0 rfl rfl
  revert this
  decide +kernel

/-- Value and uncertainty may come from different entries. -/
theorem C65_sigma_false :
    ¬ ∀ (l : List (Par Name)) (p : Par Name) (v : ℚ), byName l .H = some p → p.value = some v → v ≠ 0 →
      (physPar l).2.1 = p.sigma := by
  intro h
  have := h [⟨.H, some 20, none⟩, ⟨.Hmag, some 21, some 1⟩] ⟨.H, some 20, none⟩ 20 (by rfl) rfl (by norm_num)
  revert this
  decide +kernel

/-- A payload with both entries. -/
example : physPar [⟨.G, some 0, none⟩, ⟨.Hmag, some 21, some 1⟩, ⟨.H, some 20, some 2⟩] =
    (some 20, some 2, some 0, none) := by
  decide +kernel

end Verif.Sbdb.Props
