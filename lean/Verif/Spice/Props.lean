import Verif.Spice.Caches
import Mathlib.Tactic.Linarith

/-!
# Property theorems for SPICE states and their caches (C22, C23, C24, C77)

In all statements the process starts with empty caches (`clear_spkez_cache` and its siblings, or a fresh interpreter),
its cache sizes are arbitrary, and the history is any list of calls.
-/

set_option linter.unusedSectionVars false

namespace Verif.Spice.Props

open Verif Time Spec

variable {Kernel S P : Type} [DecidableEq Kernel] [StateSpace S]

/-- **C22.** While the kernels stay the same, `get_perturber_state` answers from SPICE as if there were no cache, after
any history of queries of all three kinds and cache clearings; `hsp`: no two of the epochs asked for in this call are a
multiple of 2^64 ns apart (see `C178_states_false`). -/
theorem C22_transparent (W : World Kernel S P) (hA : Antisymmetric W) (ssb : String → Int → Bool) (p : Proc Kernel S)
    (hi : p.initialised = true) (hb : p.spkCache = []) (h : List (Op Kernel S)) (hq : ∀ op ∈ h, Quiet op) (t : Int)
    (ts : TS) (f : String) (o : Int) (hsp : ∀ ks, ts.key W.env = .ok ks → Spread ks) :
    match ts.key W.env with
    | .ok ks => match bodyValues W p.loaded t f o ks with
      | some v => (getPerturberState W (run W ssb p h) t ts f o).1 =
          .ok ⟨ts, v, if ts.rows = [] then "unspecified" else f, o⟩
      | none => ∃ e, (getPerturberState W (run W ssb p h) t ts f o).1 = .error e
    | .error _ => ∃ e, (getPerturberState W (run W ssb p h) t ts f o).1 = .error e := by
  have hs : SoundSpk W (kernelsFor W p) p.spkCache := by rw [hb]; exact soundSpk_nil _ _
  have hk := keeps_run hA ssb h hs hq
  have := (getPerturberState_spec hA hk.sound t ts f o).2.2.2.2.2 hsp
  rw [hk.1, kernelsFor_of_initialised W p hi] at this
  exact this

/-- **C22, row by row.** A successful answer has one state per requested time, in the order of the request, each the
state SPICE gives at that time alone; so equal times get equal states. -/
theorem C22_rows (W : World Kernel S P) (hA : Antisymmetric W) (ssb : String → Int → Bool) (p : Proc Kernel S)
    (hi : p.initialised = true) (hb : p.spkCache = []) (h : List (Op Kernel S)) (hq : ∀ op ∈ h, Quiet op) (t : Int)
    (ts : TS) (f : String) (o : Int) (hsp : ∀ ks, ts.key W.env = .ok ks → Spread ks) (c : Coords S)
    (hok : (getPerturberState W (run W ssb p h) t ts f o).1 = .ok c) :
    ∃ ks, ts.key W.env = .ok ks ∧ ks.length = ts.rows.length ∧ c.vals.length = ks.length ∧ c.time = ts ∧ c.origin = o ∧
      ∀ (i : Nat) (k : Int), ks[i]? = some k →
        ∃ fs, frameName f = some fs ∧ c.vals[i]? = W.spk p.loaded t k fs o ∧ (c.vals[i]?).isSome := by
  have hc := C22_transparent W hA ssb p hi hb h hq t ts f o hsp
  cases hk : ts.key W.env with
  | error e => rw [hk] at hc; obtain ⟨e, he⟩ := hc; rw [he] at hok; cases hok
  | ok ks =>
    rw [hk] at hc
    simp only at hc
    cases hv : bodyValues W p.loaded t f o ks with
    | none => rw [hv] at hc; obtain ⟨e, he⟩ := hc; rw [he] at hok; cases hok
    | some v =>
      rw [hv] at hc
      simp only at hc
      rw [hc] at hok
      have hcv : c = ⟨ts, v, if ts.rows = [] then "unspecified" else f, o⟩ := by cases hok; rfl
      subst hcv
      unfold bodyValues at hv
      cases hf : frameName f with
      | none => rw [hf] at hv; cases hv
      | some fs =>
        rw [hf, Option.bind_some] at hv
        have hlen := allSome_length hv
        have hget := allSome_get hv
        refine ⟨ks, rfl, key_length hk, by simpa using hlen.symm, rfl, rfl, fun i k hik => ⟨fs, rfl, ?_⟩⟩
        have h1 : (ks.map fun k => W.spk p.loaded t k fs o)[i]? = (v.map some)[i]? := by rw [hget]
        rw [List.getElem?_map, List.getElem?_map, hik] at h1
        simp only [Option.map_some] at h1
        cases hvi : v[i]? with
        | none => rw [hvi] at h1; cases h1
        | some s =>
          rw [hvi] at h1
          simp only [Option.map_some, Option.some.injEq] at h1
          exact ⟨h1.symm, rfl⟩

/-- The first query of a new process loads the default kernels, each once, after those the user has registered. -/
theorem C22_first_use (W : World Kernel S P) (hA : Antisymmetric W) (p : Proc Kernel S)
    (hi : p.initialised = false) (hl : p.loaded = []) (hr : p.registered = []) (hb : p.spkCache = [])
    (hn : W.defaultKernels.Nodup) (t : Int) (ts : TS) (f : String) (o : Int)
    (hsp : ∀ ks, ts.key W.env = .ok ks → Spread ks) :
    match ts.key W.env with
    | .ok ks => match bodyValues W W.defaultKernels t f o ks with
      | some v => (getPerturberState W p t ts f o).1 = .ok ⟨ts, v, if ts.rows = [] then "unspecified" else f, o⟩
      | none => ∃ e, (getPerturberState W p t ts f o).1 = .error e
    | .error _ => ∃ e, (getPerturberState W p t ts f o).1 = .error e := by
  have hload : kernelsFor W p = W.defaultKernels := by
    unfold kernelsFor setup
    rw [hi]
    simp only [Bool.false_and, Bool.false_eq_true, if_false, Option.getD_none]
    have : ∀ (ks : List Kernel) (q : Proc Kernel S), ks.Nodup → (∀ k ∈ ks, k ∉ q.registered) →
        (ks.foldl register q).loaded = q.loaded ++ ks := by
      intro ks
      induction ks with
      | nil => intro q _ _; simp
      | cons k ks ih =>
        intro q hnd hnin
        have h1 : register q k = { q with loaded := q.loaded ++ [k], registered := k :: q.registered } := by
          unfold register; rw [if_neg (hnin k (by simp))]
        rw [List.foldl_cons, h1, ih _ (List.nodup_cons.mp hnd).2]
        · simp
        · intro k' hk' hc
          rcases List.mem_cons.mp hc with rfl | hc
          · exact (List.nodup_cons.mp hnd).1 hk'
          · exact hnin k' (List.mem_cons_of_mem _ hk') hc
    rw [this _ _ hn (by rw [hr]; simp), hl, List.nil_append]
  have hs : SoundSpk W (kernelsFor W p) p.spkCache := by rw [hb]; exact soundSpk_nil _ _
  have := (getPerturberState_spec hA hs t ts f o).2.2.2.2.2 hsp
  rw [hload] at this
  exact this

/-- **C23, what holds.** After any calls at all, including registrations, a cleared state cache followed by queries
only makes `get_perturber_state` answer from the kernels loaded at that moment. Missing from the full claim: the clearing. -/
theorem C23_after_clear (W : World Kernel S P) (hA : Antisymmetric W) (ssb : String → Int → Bool)
    (p : Proc Kernel S) (h₁ h₂ : List (Op Kernel S)) (hq : ∀ op ∈ h₂, Quiet op)
    (hi : (run W ssb p h₁).initialised = true) (t : Int) (ts : TS) (f : String) (o : Int)
    (hsp : ∀ ks, ts.key W.env = .ok ks → Spread ks) :
    match ts.key W.env with
    | .ok ks => match bodyValues W (run W ssb p h₁).loaded t f o ks with
      | some v => (getPerturberState W (run W ssb p (h₁ ++ .clearSpk :: h₂)) t ts f o).1 =
          .ok ⟨ts, v, if ts.rows = [] then "unspecified" else f, o⟩
      | none => ∃ e, (getPerturberState W (run W ssb p (h₁ ++ .clearSpk :: h₂)) t ts f o).1 = .error e
    | .error _ => ∃ e, (getPerturberState W (run W ssb p (h₁ ++ .clearSpk :: h₂)) t ts f o).1 = .error e := by
  have hrun : run W ssb p (h₁ ++ .clearSpk :: h₂) = run W ssb { run W ssb p h₁ with spkCache := [] } h₂ := by
    unfold run
    rw [List.foldl_append, List.foldl_cons]
    rfl
  rw [hrun]
  exact C22_transparent W hA ssb { run W ssb p h₁ with spkCache := [] } hi rfl h₂ hq t ts f o hsp

/-- Registering a kernel does change what SPICE is asked with: the newly loaded kernel comes last, and only once. -/
theorem C23_registration_loads (p : Proc Kernel S) (k : Kernel) :
    (k ∉ p.registered → (register p k).loaded = p.loaded ++ [k] ∧ k ∈ (register p k).registered) ∧
    (k ∈ p.registered → register p k = p) ∧
    (k ∉ p.registered → unregister p k = p) ∧
    (k ∈ p.registered → (unregister p k).loaded = p.loaded.erase k) := by
  refine ⟨fun h => ?_, fun h => ?_, fun h => ?_, fun h => ?_⟩
  · unfold register; rw [if_neg h]; exact ⟨rfl, by simp⟩
  · unfold register; rw [if_pos h]
  · unfold unregister; rw [if_neg h]
  · unfold unregister; rw [if_pos h]

/-! ### A small world for the negative results -/

/-- Time tables for the examples: no leap seconds, TDB equal to TT. -/
def exEnv : Env := ⟨fun _ => 0, fun _ => 0, fun _ => 0, fun _ _ r => r⟩

/-- States are integers; the state of `a` seen from `b` is `(a - b)` times the number of loaded kernels. -/
def exW : World Nat Int Int :=
  { env := exEnv
    spk := fun K a _ _ b => some ((a - b) * K.length)
    topo := fun _ px _ _ => px
    fixed := id
    parallax := fun c => if c = "X05" then some (some 7) else if c = "C51" then some none else none
    obsCodes := fun c => c = "X05" || c = "C51"
    originCode := fun c => if c = "SUN" then some 10 else if c = "SOLAR_SYSTEM_BARYCENTER" then some 0 else none
    defaultKernels := [1, 2]
    digest := fun ks => ks.foldl (fun a k => a * 1000003 + k) 0
    earth := 399 }

/-- A new process with the default sizes. -/
def exP : Proc Nat Int := ⟨[], [], false, 200000, 256, 2048, true, [], [], []⟩

/-- The cached pairs. -/
def exSsb : String → Int → Bool := fun a b => (a = "SUN" && b = 0) || (a = "SOLAR_SYSTEM_BARYCENTER" && b = 10)

/-- One epoch, TDB. -/
def exT : TS := ⟨"tdb", [⟨60000, 0⟩]⟩

theorem exW_antisymmetric : Antisymmetric exW := by
  intro K a t f b
  simp only [exW, Option.map_some, Option.some.injEq]
  rw [← neg_mul, neg_sub]

/-- **C23 is false.** A query, a registration, and the same query: the second answer is still that of the old kernels,
although the kernels loaded now give another state. -/
theorem C23_false : ∃ (W : World Nat Int Int) (p : Proc Nat Int) (k : Nat) (t o : Int) (ts : TS),
    Antisymmetric W ∧ Blank p ∧
    let q := run W exSsb p [.perturber t ts "ecliptic" o, .register k]
    (getPerturberState W q t ts "ecliptic" o).1 = .ok ⟨ts, [798], "ecliptic", o⟩ ∧
      bodyValues W q.loaded t "ecliptic" o [5184000000000000000] = some [1197] ∧
      ts.key W.env = .ok [5184000000000000000] :=
  ⟨exW, exP, 3, 399, 0, exT, exW_antisymmetric, ⟨rfl, rfl, rfl⟩, by decide +kernel⟩

/-- **C24, what holds.** While the kernels stay the same, no two of the epoch lists used collide in their 64-bit
digest and no two of their epochs are a multiple of 2^64 ns apart, `get_mpc_observer_state` returns the states, frame and origin of a fresh computation after any history; the time
column it returns denotes the same instants. It refuses exactly what a fresh computation refuses. Missing from the full
claim: the time column itself (see `C24_time_column_false`). -/
theorem C24_values (W : World Kernel S P) (hA : Antisymmetric W) (D : List Int → Prop) (hD : NoCollision W D)
    (ssb : String → Int → Bool) (p : Proc Kernel S) (hi : p.initialised = true) (hb : Blank p) (h : List (Op Kernel S))
    (hq : ∀ op ∈ h, Quiet op ∧ Uses W D op) (code : String) (ts : TS) (f : String) (o : Int)
    (hU : ∀ ks, ts.key W.env = .ok ks → D ks) :
    match ts.key W.env with
    | .ok ks => match siteValues W p.loaded code f o ks with
      | some v => ∃ c, (getMpcObserverState W (run W ssb p h) code ts f o).1 = .ok c ∧ c.vals = v ∧
          (ts.rows ≠ [] ∨ code ≠ "500" → c.frame = f) ∧ c.origin = o ∧ c.time.key W.env = .ok ks
      | none => ∃ e, (getMpcObserverState W (run W ssb p h) code ts f o).1 = .error e
    | .error _ => ∃ e, (getMpcObserverState W (run W ssb p h) code ts f o).1 = .error e := by
  obtain ⟨hs, hk⟩ := run_sound hA hD ssb h (blank_sound W D hb) hq
  have := (getMpcObserverState_spec hA hD hs code ts f o hU).2.2
  rw [hk, kernelsFor_of_initialised W p hi] at this
  exact this

/-- **C24 is false for the time column.** The same site and instant asked first in UTC and then in TDB: the second
answer carries the UTC time column of the first caller. -/
theorem C24_time_column_false : ∃ (W : World Nat Int Int) (p : Proc Nat Int) (a b : TS),
    Antisymmetric W ∧ Blank p ∧ a.key W.env = b.key W.env ∧
    (getMpcObserverState W p "X05" b "ecliptic" 10).1 = .ok ⟨b, [785], "ecliptic", 10⟩ ∧
    (getMpcObserverState W (run W exSsb p [.observer "X05" a "ecliptic" 10]) "X05" b "ecliptic" 10).1 =
      .ok ⟨a, [785], "ecliptic", 10⟩ ∧ a ≠ b :=
  ⟨exW, exP, ⟨"utc", [⟨60000, 0⟩]⟩, ⟨"tdb", [⟨60000, 32184000000⟩]⟩, exW_antisymmetric, ⟨rfl, rfl, rfl⟩, by decide +kernel⟩

/-- **C77.** `cartesian_to_origin` adds to every row the state of that row's own origin, at that row's own time, seen
from the new origin: in any mixture and order of origins, after any history of calls, with the caches on or off. It
fails exactly when some row's origin has no state. -/
theorem C77_translation (W : World Kernel S P) (hA : Antisymmetric W) (D : List Int → Prop) (hD : NoCollision W D)
    (ssb : String → Int → Bool) (p : Proc Kernel S) (hi : p.initialised = true) (hb : Blank p) (h : List (Op Kernel S))
    (hq : ∀ op ∈ h, Quiet op ∧ Uses W D op) (codes : List String) (ts : TS) (vals : List S) (f : String) (o : Int)
    (hU : Uses (Kernel := Kernel) W D (.translate codes ts vals f o)) :
    match ts.key W.env with
    | .ok ks => match allSome (List.zipWith (originValue W p.loaded f o) codes ks) with
      | some v => (cartesianToOrigin W ssb (run W ssb p h) codes ts vals f o).1 =
          .ok ⟨ts, List.zipWith (· + ·) vals v, f, o⟩
      | none => ∃ e, (cartesianToOrigin W ssb (run W ssb p h) codes ts vals f o).1 = .error e
    | .error _ => ∃ e, (cartesianToOrigin W ssb (run W ssb p h) codes ts vals f o).1 = .error e := by
  obtain ⟨hs, hk⟩ := run_sound hA hD ssb h (blank_sound W D hb) hq
  have := (cartesianToOrigin_spec hA hD ssb hs codes ts vals f o hU).2.2
  rw [hk, kernelsFor_of_initialised W p hi] at this
  exact this

/- The hypotheses are met by the small world; three rows of two bodies and a site, one of them served by the cache. -/
example : Blank exP ∧ NoCollision exW (fun ks => ∃ k, ks = [k] ∧ |k| < 2 ^ 63) := by
  refine ⟨⟨rfl, rfl, rfl⟩, ?_, ?_⟩
  · rintro a ⟨k, rfl, _⟩ x hx y hy _
    rw [List.mem_singleton.mp hx, List.mem_singleton.mp hy]
  · rintro a b ⟨k, rfl, hk⟩ ⟨l, rfl, hl⟩ hs
    have h1 : int64 k = int64 l := by
      simp only [sig, Prod.mk.injEq] at hs
      simpa using hs.2.1
    rw [abs_lt] at hk hl
    have : k = l := by unfold int64 at h1; omega
    rw [this]
example : (cartesianToOrigin exW exSsb (run exW exSsb exP [.setup none false, .translate ["SUN"] exT [0] "ecliptic" 0])
    ["X05", "SUN", "SOLAR_SYSTEM_BARYCENTER"] ⟨"tdb", [⟨60000, 1⟩, ⟨60000, 0⟩, ⟨60000, 0⟩]⟩ [1, 2, 3] "ecliptic" 0).1 =
    .ok ⟨⟨"tdb", [⟨60000, 1⟩, ⟨60000, 0⟩, ⟨60000, 0⟩]⟩, [806, 22, 3], "ecliptic", 0⟩ := by decide +kernel
/- The reverse pair is served with the sign changed; duplicates share one lookup; a clear forgets. -/
example : (getPerturberState exW (run exW exSsb exP [.perturber 10 exT "ecliptic" 0]) 0
    ⟨"tdb", [⟨60000, 0⟩, ⟨59999, 5⟩, ⟨60000, 0⟩]⟩ "ecliptic" 10).1 =
    .ok ⟨⟨"tdb", [⟨60000, 0⟩, ⟨59999, 5⟩, ⟨60000, 0⟩]⟩, [-20, -20, -20], "ecliptic", 10⟩ := by decide +kernel
example : ∃ p : Proc Nat Int, p.initialised = true ∧ Blank p ∧ (run exW exSsb p [.perturber 10 exT "ecliptic" 0]).spkCache ≠ [] :=
  ⟨{ exP with initialised := true, loaded := [1, 2] }, rfl, ⟨rfl, rfl, rfl⟩, by decide +kernel⟩

/-! ### 64-bit keys (C178) -/

/-- Epochs less than 2^64 ns (584.5 years) apart never share a key. -/
theorem C178_spread (ks : List Int) (h : ∀ a ∈ ks, ∀ b ∈ ks, |a - b| < 2 ^ 64) : Spread ks := by
  intro a ha b hb hab
  have := abs_lt.mp (h a ha b hb)
  unfold int64 at hab
  omega

/-- Lists of epochs all of which lie in one period of 2^64 ns, with a digest that separates them, do not collide. -/
theorem C178_no_collision (W : World Kernel S P) (D : List Int → Prop) (lo : Int)
    (hD : ∀ a, D a → ∀ x ∈ a, lo ≤ x ∧ x < lo + 2 ^ 64)
    (hd : ∀ a b, D a → D b → W.digest (a.map int64) = W.digest (b.map int64) → a.map int64 = b.map int64) :
    NoCollision W D := by
  have inj : ∀ x y, (lo ≤ x ∧ x < lo + 2 ^ 64) → (lo ≤ y ∧ y < lo + 2 ^ 64) → int64 x = int64 y → x = y := by
    intro x y hx hy h; unfold int64 at h; omega
  refine ⟨fun a ha x hx y hy h => inj x y (hD a ha x hx) (hD a ha y hy) h, fun a b ha hb h => ?_⟩
  have hm := hd a b ha hb (by simp only [sig, Prod.mk.injEq] at h; exact h.2.2.2)
  have ha' := hD a ha
  have hb' := hD b hb
  clear hD hd ha hb h
  induction a generalizing b with
  | nil => cases b with
    | nil => rfl
    | cons => simp at hm
  | cons x a ih =>
    cases b with
    | nil => simp at hm
    | cons y b =>
      rw [List.map_cons, List.map_cons, List.cons.injEq] at hm
      rw [inj x y (ha' x (by simp)) (hb' y (by simp)) hm.1,
        ih b hm.2 (fun z hz => ha' z (by simp [hz])) fun z hz => hb' z (by simp [hz])]

/-- A world in which states depend on time: the state of `a` seen from `b` is `(a - b)` times the day number. -/
def exW64 : World Nat Int Int := { exW with spk := fun _ a t _ b => some ((a - b) * (t / 86400000000000)) }

theorem exW64_antisymmetric : Antisymmetric exW64 := by
  intro K a t f b
  simp only [exW64, Option.map_some, Option.some.injEq]
  rw [← neg_mul, neg_sub]

/-- 1600-01-01 and the instant 2^64 ns later, in July 2184. -/
def exT64 : TS := ⟨"tdb", [⟨-94553, 0⟩, ⟨118950, 84873709551616⟩]⟩

/-- **C178, states.** One call of `get_perturber_state` with two epochs 2^64 ns apart gives both rows the state of the
first; asked separately they get different states. -/
theorem C178_states_false : ∃ (W : World Nat Int Int) (p : Proc Nat Int) (a b : Row), Antisymmetric W ∧ Blank p ∧
    (getPerturberState W p 399 ⟨"tdb", [a, b]⟩ "ecliptic" 398).1 = .ok ⟨⟨"tdb", [a, b]⟩, [-94553, -94553], "ecliptic", 398⟩ ∧
    (getPerturberState W p 399 ⟨"tdb", [a]⟩ "ecliptic" 398).1 = .ok ⟨⟨"tdb", [a]⟩, [-94553], "ecliptic", 398⟩ ∧
    (getPerturberState W p 399 ⟨"tdb", [b]⟩ "ecliptic" 398).1 = .ok ⟨⟨"tdb", [b]⟩, [118950], "ecliptic", 398⟩ :=
  ⟨exW64, exP, ⟨-94553, 0⟩, ⟨118950, 84873709551616⟩, exW64_antisymmetric, ⟨rfl, rfl, rfl⟩, by decide +kernel⟩

/-- The same world with another digest. -/
def exWd (digest : List Int → Int) : World Nat Int Int := { exW64 with digest := digest }

theorem put_nil {K V : Type} [DecidableEq K] (k : K) (v : V) : Lru.put [] k v 256 = [(k, v)] := by
  simp [Lru.put, Lru.setItem, Lru.moveToEnd, Lru.evict]

theorem get_single {K V : Type} [DecidableEq K] (k : K) (v : V) : Lru.get [(k, v)] k 256 = (some v, [(k, v)]) := by
  simp [Lru.get, Lru.find, Lru.moveToEnd]

/-- **C178, observers.** Whatever the digest, `get_mpc_observer_state` for an epoch 2^64 ns after one asked for before
returns the earlier answer, its time column included. -/
theorem C178_observer_false (digest : List Int → Int) : ∃ (W : World Nat Int Int) (p : Proc Nat Int) (a b : Row),
    W.digest = digest ∧ Antisymmetric W ∧ Blank p ∧
    (getMpcObserverState W p "X05" ⟨"tdb", [b]⟩ "ecliptic" 398).1 = .ok ⟨⟨"tdb", [b]⟩, [118957], "ecliptic", 398⟩ ∧
    (getMpcObserverState W (run W exSsb p [.observer "X05" ⟨"tdb", [a]⟩ "ecliptic" 398]) "X05" ⟨"tdb", [b]⟩ "ecliptic" 398).1
      = .ok ⟨⟨"tdb", [a]⟩, [-94546], "ecliptic", 398⟩ := by
  refine ⟨exWd digest, exP, ⟨-94553, 0⟩, ⟨118950, 84873709551616⟩, rfl, exW64_antisymmetric, ⟨rfl, rfl, rfl⟩, rfl, ?_⟩
  have hw : wrap64 (Row.key ⟨118950, 84873709551616⟩) = wrap64 (Row.key ⟨-94553, 0⟩) := by decide +kernel
  have hs : sigKey (exWd digest) "X05" "ecliptic" 398 [Row.key ⟨118950, 84873709551616⟩] =
      sigKey (exWd digest) "X05" "ecliptic" 398 [Row.key ⟨-94553, 0⟩] := by
    unfold sigKey; simp only [List.map_cons, List.map_nil, hw]
  generalize hq : run (exWd digest) exSsb exP [.observer "X05" ⟨"tdb", [⟨-94553, 0⟩]⟩ "ecliptic" 398] = q
  have hc : q.obsCache = Lru.put [] (sigKey (exWd digest) "X05" "ecliptic" 398 [Row.key ⟨-94553, 0⟩])
      ⟨⟨"tdb", [⟨-94553, 0⟩]⟩, [-94546], "ecliptic", 398⟩ 256 ∧ q.obsSize = 256 := by
    rw [← hq]; exact ⟨rfl, rfl⟩
  rw [put_nil] at hc
  have hk : TS.key (exWd digest).env ⟨"tdb", [⟨118950, 84873709551616⟩]⟩ = .ok [Row.key ⟨118950, 84873709551616⟩] := rfl
  have hpar : (exWd digest).parallax "X05" = some (some 7) := rfl
  have hfr : frameSpice "ecliptic" = some "ECLIPJ2000" := rfl
  unfold getMpcObserverState
  simp only [hfr, hpar, hk, hs, hc.1, hc.2, get_single]

end Verif.Spice.Props
