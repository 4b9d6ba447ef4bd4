import Verif.Lru.Model
import Verif.Time.Int64
import Mathlib.Algebra.Group.Defs
import Mathlib.Data.List.Sort

/-!
# SPICE states and their three caches

Models `src/adam_core/utils/spice.py` (kernel registration, `get_perturber_state` and its state cache),
`src/adam_core/observers/state.py` (`get_mpc_observer_state`, `get_observer_state` and the observer cache) and
`cartesian_to_origin` of `src/adam_core/coordinates/transform.py` with its translation cache.

What is outside: the CSPICE library (`spkez`, `pxform`), a function of the loaded kernels in load order, and the
blake2b digest. The state of a process is explicit, so that histories of calls can be quantified over.
-/

namespace Verif.Spice

open Verif Time

/-- A six-component state vector lives in an additive group; floating-point rounding is not modelled. -/
class abbrev StateSpace (S : Type) := AddCommGroup S

/-- The outside world. Times are TDB instants in nanoseconds. The float `et` that the code passes to SPICE is a function
of that instant.
`spk kernels target instant frame observer` is `spkez` followed by the change of units (spice.py:217-225), `none` when
SPICE raises.
`topo kernels p frame instant` is the rotated offset of a site with parallax data `p` from the geocentre, position and
velocity (state.py:188-213), `fixed p` the same in the rotating frame (state.py:139-143).
`parallax` is the observatory table: no entry, an entry with NaN, or data. -/
structure World (Kernel S P : Type) where
  env : Env
  spk : List Kernel → Int → Int → String → Int → Option S
  topo : List Kernel → P → String → Int → S
  fixed : P → S
  parallax : String → Option (Option P)
  obsCodes : String → Bool
  originCode : String → Option Int
  defaultKernels : List Kernel
  digest : List Int → Int
  earth : Int

/-- `_SpkezCacheKey`. spice.py:37-43. -/
structure SpkKey where
  target : Int
  observer : Int
  frame : String
  days : Int
  nanos : Int
deriving DecidableEq

/-- `_ObserverStateCacheKey`, state.py:26-34, and `_TranslationCacheKey`, transform.py:37-45: `name` is the site or the
input origin. -/
structure SigKey where
  name : String
  frame : String
  origin : Int
  n : Nat
  first : Int
  last : Int
  digest : Int
deriving DecidableEq

/-- The columns of a `CartesianCoordinates` table that matter here; `origin` is the one origin of all rows.
Used for spice.py:131-243. -/
structure Coords (S : Type) where
  time : TS
  vals : List S
  frame : String
  origin : Int
deriving DecidableEq

/-- One process: kernels in load order, the registered set, the initialisation mark and the three caches with their
sizes (environment variables read at import). Used for spice.py:257-268. -/
structure Proc (Kernel S : Type) where
  loaded : List Kernel
  registered : List Kernel
  initialised : Bool
  spkSize : Int
  obsSize : Int
  transSize : Int
  transEnabled : Bool
  spkCache : Lru.Cache SpkKey S
  obsCache : Lru.Cache SigKey (Coords S)
  transCache : Lru.Cache SigKey (List S)

variable {Kernel S P : Type} [DecidableEq Kernel] [StateSpace S]

/-- `register_spice_kernel`. spice.py:257-268. -/
def register (p : Proc Kernel S) (k : Kernel) : Proc Kernel S :=
  if k ∈ p.registered then p else { p with loaded := p.loaded ++ [k], registered := k :: p.registered }

/-- `unregister_spice_kernel`. spice.py:271-282. -/
def unregister (p : Proc Kernel S) (k : Kernel) : Proc Kernel S :=
  if k ∈ p.registered then { p with loaded := p.loaded.erase k, registered := p.registered.erase k } else p

/-- `setup_SPICE(kernels, force)`. spice.py:90-128. -/
def setup (W : World Kernel S P) (p : Proc Kernel S) (kernels : Option (List Kernel)) (force : Bool) : Proc Kernel S :=
  if p.initialised && !force then p
  else { (kernels.getD W.defaultKernels).foldl register p with initialised := true }

/-- The SPICE name of a frame, `none` for an unknown one. spice.py:156-165, state.py:84-93. -/
def frameSpice (frame : String) : Option String :=
  if frame = "ecliptic" then some "ECLIPJ2000"
  else if frame = "equatorial" then some "J2000"
  else if frame = "itrf93" then some "ITRF93"
  else none

/-- `np.unique(keys, return_index=True, return_inverse=True)`: sorted distinct keys, first positions, inverse.
Used for spice.py:131-243. -/
def npUnique (keys : List Int) : List Int × List Nat × List Nat :=
  let u := (keys.eraseDups.insertionSort (· ≤ ·))
  (u, u.map fun k => keys.idxOf k, keys.map fun k => u.idxOf k)

/-- The body of the loop over distinct epochs: cache, reverse pair, SPICE. spice.py:189-229. -/
def fetch (W : World Kernel S P) (loaded : List Kernel) (size : Int) (target observer : Int) (frame : String) (r : Row)
    (c : Lru.Cache SpkKey S) : Except PyErr S × Lru.Cache SpkKey S :=
  let key : SpkKey := ⟨target, observer, frame, r.days, r.nanos⟩
  let rev : SpkKey := ⟨observer, target, frame, r.days, r.nanos⟩
  match Lru.get c key size with
  | (some s, c1) => (.ok s, c1)
  | (none, c1) =>
    match Lru.get c1 rev size with
    | (some s, c2) => (.ok (-s), Lru.put c2 key (-s) size)
    | (none, c2) =>
      match W.spk loaded target r.key frame observer with
      | none => (.error .runtimeError, c2)
      | some s => (.ok s, Lru.put (Lru.put c2 key s size) rev (-s) size)

/-- The loop over distinct epochs. spice.py:188-229. -/
def fetchAll (W : World Kernel S P) (loaded : List Kernel) (size : Int) (target observer : Int) (frame : String) :
    List Row → Lru.Cache SpkKey S → Except PyErr (List S) × Lru.Cache SpkKey S
  | [], c => (.ok [], c)
  | r :: rs, c =>
    match fetch W loaded size target observer frame r c with
    | (.error e, c1) => (.error e, c1)
    | (.ok s, c1) =>
      match fetchAll W loaded size target observer frame rs c1 with
      | (.error e, c2) => (.error e, c2)
      | (.ok ss, c2) => (.ok (s :: ss), c2)

/-- All entries present, or an IndexError. Used for spice.py:131-243. -/
def gather {α : Type} (l : List α) : List Nat → Except PyErr (List α)
  | [] => .ok []
  | i :: is => match l[i]?, gather l is with
    | some a, .ok as => .ok (a :: as)
    | none, _ => .error .indexError
    | _, .error e => .error e

/-- `get_perturber_state`. spice.py:131-243. Epochs are grouped by their 64-bit keys. With no epochs the returned table is the empty one, whose frame attribute
is the default. -/
def getPerturberState (W : World Kernel S P) (p : Proc Kernel S) (target : Int) (times : TS) (frame : String)
    (origin : Int) : Except PyErr (Coords S) × Proc Kernel S :=
  match frameSpice frame with
  | none => (.error .valueError, p)
  | some fs =>
    let p := setup W p none false
    if times.rows.length = 0 then (.ok ⟨times, [], "unspecified", origin⟩, p)
    else match times.rescale W.env "tdb" with
      | .error e => (.error e, p)
      | .ok tdb =>
        let (_, rep, inv) := npUnique (tdb.rows.map Row.key64)
        match gather tdb.rows rep with
        | .error e => (.error e, p)
        | .ok reps =>
          match fetchAll W p.loaded p.spkSize target origin fs reps p.spkCache with
          | (.error e, c) => (.error e, { p with spkCache := c })
          | (.ok states, c) =>
            match gather states inv with
            | .error e => (.error e, { p with spkCache := c })
            | .ok vals => (.ok ⟨times, vals, frame, origin⟩, { p with spkCache := c })

/-- The cache key of a list of TDB instants: `signature` of their 64-bit keys without its fourth entry, and
`cache_digest` of those keys. time.py:88-131, state.py:119-128, transform.py:1567-1576. -/
def sigKey (W : World Kernel S P) (name frame : String) (origin : Int) (instants : List Int) : SigKey :=
  let keys := instants.map wrap64
  ⟨name, frame, origin, keys.length, keys.head?.getD 0, keys.getLast?.getD 0, if keys = [] then 0 else W.digest keys⟩

/-- `get_mpc_observer_state`. state.py:65-246. -/
def getMpcObserverState (W : World Kernel S P) (p : Proc Kernel S) (code : String) (times : TS) (frame : String)
    (origin : Int) : Except PyErr (Coords S) × Proc Kernel S :=
  match frameSpice frame with
  | none => (.error .valueError, p)
  | some fs =>
    match W.parallax code with
    | none => (.error .valueError, p)
    | some none => (.error .valueError, p)
    | some (some px) =>
      match times.key W.env with
      | .error e => (.error e, p)
      | .ok keys =>
        let ck := sigKey W code frame origin keys
        match Lru.get p.obsCache ck p.obsSize with
        | (some cached, c) => (.ok cached, { p with obsCache := c })
        | (none, c) =>
          let p := { p with obsCache := c }
          if frame = "itrf93" then
            let r := List.replicate times.rows.length (W.fixed px)
            if origin = W.earth then
              let out : Coords S := ⟨times, r, frame, origin⟩
              (.ok out, { p with obsCache := Lru.put p.obsCache ck out p.obsSize })
            else match getPerturberState W p W.earth times "itrf93" origin with
              | (.error e, p) => (.error e, p)
              | (.ok st, p) =>
                let out : Coords S := ⟨times, List.zipWith (· + ·) r st.vals, frame, origin⟩
                (.ok out, { p with obsCache := Lru.put p.obsCache ck out p.obsSize })
          else match getPerturberState W p W.earth times frame origin with
            | (.error e, p) => (.error e, p)
            | (.ok st, p) =>
              if code = "500" then (.ok st, p)
              else
                let offs := keys.map fun k => W.topo p.loaded px fs k
                let out : Coords S := ⟨times, List.zipWith (· + ·) st.vals offs, frame, origin⟩
                (.ok out, { p with obsCache := Lru.put p.obsCache ck out p.obsSize })

/-- `vectors[mask] = vals`: the entries of `vals` go to the rows where the mask holds, in order. A length mismatch is
refused by numpy. Used for transform.py:1555-1610. -/
def scatter {α : Type} : List Bool → List α → List α → Except PyErr (List α)
  | [], out, [] => .ok out
  | [], _, _ :: _ => .error .valueError
  | _ :: _, [], _ => .error .indexError
  | false :: ms, o :: os, vs => match scatter ms os vs with
    | .error e => .error e
    | .ok r => .ok (o :: r)
  | true :: _, _ :: _, [] => .error .valueError
  | true :: ms, _ :: os, v :: vs => match scatter ms os vs with
    | .error e => .error e
    | .ok r => .ok (v :: r)

/-- `times.apply_mask(mask)`. Used for transform.py:1555-1610. -/
def applyMask {α : Type} (l : List α) (mask : List Bool) : List α := ((l.zip mask).filter (·.2)).map (·.1)

/-- The vectors of the rows of one input origin: translation cache for the pair SUN / SOLAR_SYSTEM_BARYCENTER, SPICE for
other bodies, observer state for observatory codes. transform.py:1557-1608. `sunSsb` says whether the pair is cached
(`_TRANSLATION_CACHE_ALLOWED`, transform.py:59-62). -/
def originVectors (W : World Kernel S P) (sunSsb : String → Int → Bool) (p : Proc Kernel S) (originIn : String)
    (times : TS) (frame : String) (origin : Int) : Except PyErr (List S) × Proc Kernel S :=
  match W.originCode originIn with
  | some body =>
    if p.transEnabled && sunSsb originIn origin then
      match times.key W.env with
      | .error e => (.error e, p)
      | .ok keys =>
        let ck := sigKey W originIn frame origin keys
        match Lru.get p.transCache ck p.transSize with
        | (some v, c) => (.ok v, { p with transCache := c })
        | (none, c) =>
          let p := { p with transCache := c }
          match getPerturberState W p body times frame origin with
          | (.error e, p) => (.error e, p)
          | (.ok st, p) => (.ok st.vals, { p with transCache := Lru.put p.transCache ck st.vals p.transSize })
    else
      match getPerturberState W p body times frame origin with
      | (.error e, p) => (.error e, p)
      | (.ok st, p) => (.ok st.vals, p)
  | none =>
    if W.obsCodes originIn then
      match getMpcObserverState W (setup W p none false) originIn times frame origin with
      | (.error e, p) => (.error e, p)
      | (.ok st, p) => (.ok st.vals, p)
    else (.error .valueError, p)

/-- The loop over distinct input origins. transform.py:1555-1610. -/
def originLoop (W : World Kernel S P) (sunSsb : String → Int → Bool) (codes : List String) (times : TS) (frame : String)
    (origin : Int) : List String → List S → Proc Kernel S → Except PyErr (List S) × Proc Kernel S
  | [], vectors, p => (.ok vectors, p)
  | o :: os, vectors, p =>
    let mask := codes.map fun c => decide (c = o)
    match originVectors W sunSsb p o ⟨times.scale, applyMask times.rows mask⟩ frame origin with
    | (.error e, p) => (.error e, p)
    | (.ok v, p) =>
      match scatter mask vectors v with
      | .error e => (.error e, p)
      | .ok vectors => originLoop W sunSsb codes times frame origin os vectors p

/-- `cartesian_to_origin`. transform.py:1525-1613. `np.empty` is filled with zeros here; `translate` adds the vectors
row by row (cartesian.py:344-390; its NaN masking is not modelled). -/
def cartesianToOrigin (W : World Kernel S P) (sunSsb : String → Int → Bool) (p : Proc Kernel S) (codes : List String)
    (times : TS) (vals : List S) (frame : String) (origin : Int) : Except PyErr (Coords S) × Proc Kernel S :=
  match originLoop W sunSsb codes times frame origin codes.eraseDups (vals.map fun _ => 0) p with
  | (.error e, p) => (.error e, p)
  | (.ok vectors, p) => (.ok ⟨times, List.zipWith (· + ·) vals vectors, frame, origin⟩, p)

/-- A call made on the process. Used for spice.py:58-64. -/
inductive Op (Kernel S : Type) where
  | register (k : Kernel)
  | unregister (k : Kernel)
  | setup (kernels : Option (List Kernel)) (force : Bool)
  | clearSpk
  | clearObs
  | clearTrans
  | perturber (target : Int) (times : TS) (frame : String) (origin : Int)
  | observer (code : String) (times : TS) (frame : String) (origin : Int)
  | translate (codes : List String) (times : TS) (vals : List S) (frame : String) (origin : Int)

/-- Effect of a call on the process. The clear functions are spice.py:58-64, state.py:58-62 and transform.py:75-81. -/
def step (W : World Kernel S P) (sunSsb : String → Int → Bool) (p : Proc Kernel S) : Op Kernel S → Proc Kernel S
  | .register k => Spice.register p k
  | .unregister k => Spice.unregister p k
  | .setup ks f => Spice.setup W p ks f
  | .clearSpk => { p with spkCache := [] }
  | .clearObs => { p with obsCache := [] }
  | .clearTrans => { p with transCache := [] }
  | .perturber t ts f o => (getPerturberState W p t ts f o).2
  | .observer c ts f o => (getMpcObserverState W p c ts f o).2
  | .translate cs ts vs f o => (cartesianToOrigin W sunSsb p cs ts vs f o).2

/-- Execute a history of calls. Used for spice.py:58-64. -/
def run (W : World Kernel S P) (sunSsb : String → Int → Bool) (p : Proc Kernel S) (h : List (Op Kernel S)) :
    Proc Kernel S := h.foldl (step W sunSsb) p

end Verif.Spice
