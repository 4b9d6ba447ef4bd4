/-!
# The use of Ray

`initialize_use_ray` of `src/adam_core/ray_cluster.py`. Ray itself is outside: what `ray.init` does is given by two arbitrary functions.
Logging and the filter for warnings have no effect here.
-/

namespace Verif.Ray

/-- The exceptions: `ConnectionError`, `TypeError` and any other. Used for ray_cluster.py:44-55. -/
inductive Err
  | connection | type | other (name : String)
deriving DecidableEq

/-- Keyword arguments, names and values, each name once. Used for ray_cluster.py:20-22. -/
abbrev Kwargs := List (String × String)

/-- Ray: a running cluster that can be found with `address="auto"`, and a new one with the given number of CPUs and bytes. Both can depend
on the moment of the call, counted by `clock`. Used for ray_cluster.py:46, 52-56. -/
structure Ray (Cluster : Type) where
  auto : Nat → Kwargs → Except Err Cluster
  fresh : Nat → Option Int → Option Int → Kwargs → Except Err Cluster

/-- The process: the cluster it is connected to, if any, and the number of calls of `ray.init` so far. Used for ray_cluster.py:37. -/
structure State (Cluster : Type) where
  cluster : Option Cluster
  clock : Nat
deriving DecidableEq

variable {Cluster : Type}

/-- `kwargs.setdefault(name, value)`. ray_cluster.py:34. -/
def setDefault (kw : Kwargs) (name value : String) : Kwargs := if kw.any (fun x => x.1 == name) then kw else kw ++ [(name, value)]

/-- `ray.init(address="auto", **kwargs)`: an address among the keyword arguments is a `TypeError` of Python itself. ray_cluster.py:46. -/
def initAuto (R : Ray Cluster) (s : State Cluster) (kw : Kwargs) : Except Err Cluster × State Cluster :=
  if kw.any (fun x => x.1 == "address") then (.error .type, s)
  else match R.auto s.clock kw with
    | .ok c => (.ok c, ⟨some c, s.clock + 1⟩)
    | .error e => (.error e, ⟨s.cluster, s.clock + 1⟩)

/-- `ray.init(num_cpus=..., object_store_memory=..., **kwargs)`. ray_cluster.py:52-56. -/
def initFresh (R : Ray Cluster) (s : State Cluster) (cpus bytes : Option Int) (kw : Kwargs) : Except Err Cluster × State Cluster :=
  if kw.any (fun x => x.1 == "object_store_memory") then (.error .type, s)
  else match R.fresh s.clock cpus bytes kw with
    | .ok c => (.ok c, ⟨some c, s.clock + 1⟩)
    | .error e => (.error e, ⟨s.cluster, s.clock + 1⟩)

/-- `initialize_use_ray`. ray_cluster.py:20-61. -/
def initializeUseRay (R : Ray Cluster) (s : State Cluster) (cpus bytes : Option Int) (kw : Kwargs) : Except Err Bool × State Cluster :=
  if cpus.all (1 < ·) then
    let kw := setDefault kw "include_dashboard" "False"
    match s.cluster with
    | some _ => (.ok true, s)
    | none =>
      match initAuto R s kw with
      | (.ok _, s) => (.ok true, s)
      | (.error .connection, s) =>
        match initFresh R s cpus bytes kw with
        | (.ok _, s) => (.ok true, s)
        | (.error e, s) => (.error e, s)
      | (.error e, s) => (.error e, s)
  else (.ok false, s)

/-- One call. Used for ray_cluster.py:20-22. -/
structure Call where
  cpus : Option Int
  bytes : Option Int
  kwargs : Kwargs

/-- The process after some calls; exceptions are caught by the callers. Used for ray_cluster.py:20-61. -/
def run (R : Ray Cluster) (s : State Cluster) (h : List Call) : State Cluster :=
  h.foldl (fun s c => (initializeUseRay R s c.cpus c.bytes c.kwargs).2) s

end Verif.Ray
