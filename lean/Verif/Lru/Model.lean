import Verif.Basic

/-!
# Bounded LRU cache: model of `src/adam_core/utils/bounded_lru.py`

An `OrderedDict` is the list of its items, oldest first, with distinct keys. Stored values are never `None` in the
callers, so a found value is always a hit.
-/

namespace Verif.Lru

variable {K V : Type} [DecidableEq K]

/-- An `OrderedDict`. Used for bounded_lru.py:39-40. -/
abbrev Cache (K V : Type) := List (K × V)

/-- `cache.get(key)`. Used for bounded_lru.py:11-24. -/
def find (c : Cache K V) (k : K) : Option V := (c.find? fun p => p.1 = k).map Prod.snd

/-- `cache[key] = value`: an existing key keeps its place, a new one goes to the end. Used for bounded_lru.py:27-40. -/
def setItem (c : Cache K V) (k : K) (v : V) : Cache K V :=
  if c.any (fun p => p.1 = k) then c.map fun p => if p.1 = k then (k, v) else p else c ++ [(k, v)]

/-- `cache.move_to_end(key)` for a key that is present. Used for bounded_lru.py:11-24. -/
def moveToEnd (c : Cache K V) (k : K) : Cache K V := c.filter (fun p => p.1 ≠ k) ++ c.filter (fun p => p.1 = k)

/-- `while len(cache) > maxsize: cache.popitem(last=False)`. bounded_lru.py:39-40. -/
def evict (maxsize : Nat) : Cache K V → Cache K V
  | [] => []
  | p :: ps => if (p :: ps).length > maxsize then evict maxsize ps else p :: ps

/-- `bounded_lru_get`. bounded_lru.py:11-24. Returns the value and the changed cache. -/
def get (c : Cache K V) (k : K) (maxsize : Int) : Option V × Cache K V :=
  if maxsize ≤ 0 then (none, c)
  else match find c k with
    | none => (none, c)
    | some v => (some v, moveToEnd c k)

/-- `bounded_lru_put`. bounded_lru.py:27-40. -/
def put (c : Cache K V) (k : K) (v : V) (maxsize : Int) : Cache K V :=
  if maxsize ≤ 0 then c
  else evict maxsize.toNat (moveToEnd (setItem c k v) k)

/-- A call on the cache. Used for bounded_lru.py:11-40. -/
inductive Op (K V : Type) where
  | get (k : K)
  | put (k : K) (v : V)

/-- The key a call touches. Used for bounded_lru.py:11-40. -/
def Op.key : Op K V → K
  | .get k => k
  | .put k _ => k

/-- Execute one call. Used for bounded_lru.py:11-40. -/
def step (maxsize : Int) (c : Cache K V) : Op K V → Cache K V
  | .get k => (get c k maxsize).2
  | .put k v => put c k v maxsize

/-- Execute a history from a given cache. Used for bounded_lru.py:11-40. -/
def runFrom (maxsize : Int) (c : Cache K V) (h : List (Op K V)) : Cache K V := h.foldl (step maxsize) c

/-- Execute a history from the empty cache. Used for bounded_lru.py:11-40. -/
def run (maxsize : Int) (h : List (Op K V)) : Cache K V := runFrom maxsize [] h

end Verif.Lru
