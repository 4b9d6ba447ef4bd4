import Verif.Sbdb.Model
import Verif.Cov.Model

/-! # Reading one answer of the Small-Body Database

The part of `_orbits_from_sbdb_payloads` (`src/adam_core/orbits/query/sbdb.py:485-612`) that reads one payload, its helpers, and the
same part of the older `_orbits_from_sbdb_results` (sbdb.py:140-249), which gets what astroquery made of the payload. Numbers are
`Cov.Val` (a real number, an infinity or NaN). -/

namespace Verif.Sbdb

open Verif Cov

/-- A JSON value where a number is expected: null (or absent), a number, a string with what `float` makes of it, anything else.
Used for sbdb.py:342-355. -/
inductive Scalar
  | null
  | num (x : Val)
  | text (v : Option Val)
  | other

/-- `_sbdb_float`. sbdb.py:342-355. -/
def sbdbFloat : Scalar → Except PyErr Val
  | .null => .error .valueError
  | .num x => .ok x
  | .text (some x) => .ok x
  | .text none => .error .valueError
  | .other => .error .typeError

/-- The name of an element: one of the six that are looked up, or another. Used for sbdb.py:375-383. -/
inductive El
  | e | q | tp | om | w | i
  | other (s : String)
  deriving DecidableEq

/-- An entry of a list of elements. Used for sbdb.py:358-372. -/
structure Entry where
  name : El
  value : Scalar
  sigma : Scalar

/-- An "elements" value: absent or null, not a list, or a list; items that are no objects or have no name are `none`.
Used for sbdb.py:358-372. -/
inductive Elements
  | missing
  | notList
  | list (l : List (Option Entry))

/-- `_sbdb_elements_map`: for a list the named entries. sbdb.py:358-372. -/
def elementsMap : Elements → Except PyErr (List Entry)
  | .list l => .ok (l.filterMap id)
  | _ => .error .valueError

/-- Lookup in the dict, where later entries have replaced earlier ones. Used for sbdb.py:375-383. -/
def lookup (l : List Entry) (n : El) : Option Entry := l.reverse.find? fun e => decide (e.name = n)

/-- `_sbdb_element_value`. sbdb.py:375-383. -/
def elementValue (l : List Entry) (n : El) : Except PyErr Val :=
  match lookup l n with
  | none => .error .valueError
  | some e => sbdbFloat e.value

/-- `_sbdb_element_sigma`. sbdb.py:386-400. -/
def elementSigma (l : List Entry) (n : El) : Except PyErr Val :=
  match lookup l n with
  | none => .error .valueError
  | some e =>
    match sbdbFloat e.sigma with
    | .ok x => .ok x
    | .error _ => .ok .nan

/-- A two-dimensional array. Used for sbdb.py:536-537. -/
structure Data where
  rows : Nat
  cols : Nat
  entry : Nat → Nat → Val

/-- A covariance object with data: the labels if they are a list, what `np.asarray` makes of the data (an array of other
dimensions is an error like the later check), elements and epoch. Used for sbdb.py:541-544. -/
structure CovBlock where
  labels : Option (List String)
  data : Except PyErr Data
  elements : Elements
  epoch : Scalar

/-- The rest of a payload: whether it has an orbit, the orbit's epoch and elements, and its covariance if that is an object with
data. Used for sbdb.py:541-544. -/
structure Body where
  hasOrbit : Bool
  epoch : Scalar
  elements : Elements
  cov : Option CovBlock

/-- What is read: the epoch (JD), the elements, with the time of periapsis as JD, and the covariance in the order of cometary
elements. The conversion of the two times is `Timestamp.from_jd` and `mjd` (module `Time`). Used for sbdb.py:509-589. -/
structure Reading where
  epoch : Val
  q : Val
  e : Val
  i : Val
  om : Val
  w : Val
  tp : Val
  cov : Mat Val

/-- The labels of the covariance. sbdb.py:499. -/
def expectedLabels : List String := ["e", "q", "tp", "node", "peri", "i"]

instance : Zero Val := ⟨.fin 0⟩

/-- `data[:6, :6]`. Used for sbdb.py:520-544. -/
def corner (d : Data) : Mat Val := fun i j => d.entry i.1 j.1

/-- The check of the labels, if they are a list. sbdb.py:527-533. -/
def checkLabels : Option (List String) → Except PyErr Unit
  | some ls => if ls.take 6 = expectedLabels then .ok () else .error .valueError
  | none => .ok ()

/-- The check of the size. sbdb.py:536-537. -/
def checkSize (d : Data) : Except PyErr Unit := if d.rows < 6 ∨ d.cols < 6 then .error .valueError else .ok ()

/-- The elements and the epoch used: those of the covariance, if it has elements. sbdb.py:541-544. -/
def prefer (b : Body) (epoch : Val) (c : CovBlock) : Except PyErr (Elements × Val) :=
  match c.elements with
  | .missing => .ok (b.elements, epoch)
  | es =>
    match c.epoch with
    | .null => .ok (es, epoch)
    | s => do
      let epoch ← sbdbFloat s
      .ok (es, epoch)

/-- Elements, epoch and covariance matrix used. sbdb.py:520-544. -/
def choose (b : Body) : Except PyErr (Elements × Val × Option (Mat Val)) := do
  let epoch ← sbdbFloat b.epoch
  match b.cov with
  | none => .ok (b.elements, epoch, none)
  | some c =>
    checkLabels c.labels
    let d ← c.data
    checkSize d
    let p ← prefer b epoch c
    .ok (p.1, p.2, some (corner d))

/-- The matrix from the standard deviations. sbdb.py:553-566. -/
def sigmaMatrix (l : List Entry) : Except PyErr (Mat Val) := do
  let e ← elementSigma l .e
  let q ← elementSigma l .q
  let tp ← elementSigma l .tp
  let om ← elementSigma l .om
  let w ← elementSigma l .w
  let i ← elementSigma l .i
  .ok (sigmasToCov ![e, q, tp, om, w, i])

/-- The matrix given, or the one from the standard deviations. sbdb.py:551-566. -/
def matrixOr (l : List Entry) : Option (Mat Val) → Except PyErr (Mat Val)
  | some m => .ok m
  | none => sigmaMatrix l

/-- Whether there is an orbit. sbdb.py:512-513. -/
def needOrbit (b : Body) : Except PyErr Unit := if b.hasOrbit then .ok () else .error .valueError

/-- One payload. sbdb.py:509-589. -/
def parse (b : Body) : Except PyErr Reading := do
  needOrbit b
  let c ← choose b
  let l ← elementsMap c.1
  let m ← matrixOr l c.2.2
  let q ← elementValue l .q
  let e ← elementValue l .e
  let i ← elementValue l .i
  let om ← elementValue l .om
  let w ← elementValue l .w
  let tp ← elementValue l .tp
  .ok ⟨c.2.1, q, e, i, om, w, tp, convert m⟩

/-! ## The older path -/

/-- A dict of elements as astroquery delivers it: `d["q"]` and `d["q_sig"]`, `none` if there is no such key.
Used for sbdb.py:188-193. -/
structure Dict where
  value : El → Option Val
  sig : El → Option Val

/-- The covariance of a result. Used for sbdb.py:167-179. -/
structure OldCov where
  labels : Option (List String)
  data : Data
  elements : Option Dict
  epoch : Option Val

/-- A result. Used for sbdb.py:163-208. -/
structure OldBody where
  epoch : Option Val
  elements : Option Dict
  cov : Option OldCov

/-- `d[key]`. Used for sbdb.py:167-179. -/
def key {α : Type} : Option α → Except PyErr α
  | some x => .ok x
  | none => .error .keyError

/-- The labels, which must be there. sbdb.py:167-179. -/
def oldLabels (c : OldCov) : Except PyErr Unit := do
  let ls ← key c.labels
  if ls.take 6 = expectedLabels then .ok () else .error .valueError

/-- Elements and epoch used with a covariance. sbdb.py:188-193. -/
def oldPrefer (es : Dict) (epoch : Val) (c : OldCov) : Except PyErr (Dict × Val) :=
  match c.elements with
  | some ces => do
    let cep ← key c.epoch
    .ok (ces, cep)
  | none => .ok (es, epoch)

/-- The matrix from the standard deviations. sbdb.py:196-208. -/
def oldSigmas (es : Dict) : Except PyErr (Mat Val) := do
  let e ← key (es.sig .e)
  let q ← key (es.sig .q)
  let tp ← key (es.sig .tp)
  let om ← key (es.sig .om)
  let w ← key (es.sig .w)
  let i ← key (es.sig .i)
  .ok (sigmasToCov ![e, q, tp, om, w, i])

/-- Elements, epoch and matrix used. sbdb.py:163-208. Matrices smaller than 6 by 6 are an error here; numpy would repeat a single
row or column. -/
def oldChoose (b : OldBody) : Except PyErr (Dict × Val × Mat Val) := do
  let es ← key b.elements
  let epoch ← key b.epoch
  match b.cov with
  | some c =>
    oldLabels c
    checkSize c.data
    let p ← oldPrefer es epoch c
    .ok (p.1, p.2, corner c.data)
  | none =>
    let m ← oldSigmas es
    .ok (es, epoch, m)

/-- One result. sbdb.py:155-220. -/
def parseOld (b : OldBody) : Except PyErr Reading := do
  let c ← oldChoose b
  let q ← key (c.1.value .q)
  let e ← key (c.1.value .e)
  let i ← key (c.1.value .i)
  let om ← key (c.1.value .om)
  let w ← key (c.1.value .w)
  let tp ← key (c.1.value .tp)
  .ok ⟨c.2.1, q, e, i, om, w, tp, convert c.2.2⟩

/-- What astroquery makes of a number: it reads the same numbers. A contract, not code of this repository.
Used for sbdb.py:128-134. -/
def astroNumber (s : Scalar) : Option Val :=
  match sbdbFloat s with
  | .ok x => some x
  | .error _ => none

/-- What astroquery makes of a list of elements. A contract, not code of this repository. Used for sbdb.py:128-134. -/
def astroElements : Elements → Option Dict
  | .list l => some ⟨fun n => (lookup (l.filterMap id) n).bind fun e => astroNumber e.value,
      fun n => (lookup (l.filterMap id) n).bind fun e => astroNumber e.sigma⟩
  | _ => none

/-- What astroquery makes of a payload that it can read. A contract, not code of this repository. Used for sbdb.py:128-134. -/
def astro (b : Body) (d : Data) : OldBody :=
  ⟨astroNumber b.epoch, astroElements b.elements,
   b.cov.map fun c => ⟨c.labels, d, astroElements c.elements, astroNumber c.epoch⟩⟩

end Verif.Sbdb
