import Verif.Band.Resolve
import Verif.Sched.Model
import Mathlib.Algebra.Order.Field.Basic

/-! # Bandpass integrals and colour terms

`src/adam_core/photometry/bandpasses/api.py` and `src/adam_core/photometry/magnitude_common.py`. Arithmetic is exact, in any
ordered field `K`; `none` is NaN. The packaged tables are parameters. -/

namespace Verif.Band

open Verif Sched

variable {K : Type} [Field K] [LinearOrder K]

/-- A sampled curve: wavelength and value. Used for api.py:661-666. -/
abbrev Curve (K : Type) := List (K × K)

/-- `np.interp` from the sample `p` on, for a point not before `p`. Used for api.py:661-666. -/
def interpFrom (p : K × K) : Curve K → K → K
  | [], x => if p.1 < x then 0 else p.2
  | q :: l, x => if x < q.1 then (q.2 - p.2) / (q.1 - p.1) * (x - p.1) + p.2 else interpFrom q l x

/-- `_interp_to_grid` at one point, for increasing wavelengths. api.py:661-666. `np.interp` raises for an empty curve; no
curve is empty here (`minMax` guards it). -/
def interp : Curve K → K → K
  | [], _ => 0
  | p :: l, x => if x < p.1 then 0 else interpFrom p l x

/-- `np.trapezoid(y, x)`. Used for api.py:147-185. -/
def trapezoid : List (K × K) → K
  | p :: q :: l => (q.1 - p.1) * (p.2 + q.2) / 2 + trapezoid (q :: l)
  | _ => 0

/-- `wl.min()`. Used for api.py:147-185. -/
def lo : Curve K → K
  | [] => 0
  | p :: l => l.foldl (fun m q => min m q.1) p.1

/-- `wl.max()`. Used for api.py:147-185. -/
def hi : Curve K → K
  | [] => 0
  | p :: l => l.foldl (fun m q => max m q.1) p.1

/-- The part of the solar spectrum inside a range. api.py:178-180, 691-693. -/
def within (sun : Curve K) (a b : K) : Curve K := sun.filter fun p => decide (a ≤ p.1) && decide (p.1 ≤ b)

/-- `_compute_filter_solar_norm_photon`; fewer than two samples give NaN. api.py:147-185. -/
def solarNorm (sun filter : Curve K) : Option K :=
  if filter.length < 2 then none
  else
    let a := max (lo sun) (lo filter)
    let b := min (hi sun) (hi filter)
    if b ≤ a then none
    else
      let grid := within sun a b
      if grid.length < 2 then none
      else some (trapezoid (grid.map fun p => (p.1, p.2 * interp filter p.1 * p.1)))

/-- `_compute_integral_photon`. api.py:669-700. -/
def photon (sun filter template : Curve K) : Option K :=
  let a := max (max (lo sun) (lo filter)) (lo template)
  let b := min (min (hi sun) (hi filter)) (hi template)
  if b ≤ a then none
  else
    let grid := within sun a b
    if grid.length < 2 then none
    else some (trapezoid (grid.map fun p => (p.1, p.2 * interp template p.1 * interp filter p.1 * p.1)))

/-- The checks and sorting of `register_custom_template`; a sample that is not finite is `none`. api.py:637-657. -/
def checkTemplate (id : Str) (wl rf : List (Option K)) : Except PyErr (Curve K) :=
  if id = [] then .error .valueError
  else if wl.length ≠ rf.length then .error .valueError
  else if wl.length < 2 then .error .valueError
  else if wl.any Option.isNone || rf.any Option.isNone then .error .valueError
  else
    let pairs := List.zipWith (fun a b => (a.getD 0, b.getD 0)) wl rf
    let sorted := sortBy Prod.fst pairs
    if sorted.zip sorted.tail |>.any fun p => decide (p.2.1 - p.1.1 ≤ 0) then .error .valueError
    else .ok sorted

/-- The packaged data: solar spectrum, filters, and the precomputed integrals by template and filter (which may be NaN). The norms are those of
`_solar_norm_by_filter_id`, whose failure for a filter is a defect of the packaged data and is left out.
Used for api.py:209-220. -/
structure Data (K : Type) where
  sun : Curve K
  filters : List (Str × Curve K)
  norm : Str → Option K
  integrals : Str → Str → Option (Option K)

/-- The mutable module state: `_CUSTOM_TEMPLATES`, `_CUSTOM_INTEGRALS`, and the `lru_cache` of
`bandpass_delta_table_for_composition_cached`. api.py:618-619, magnitude_common.py:126. Dictionaries are functions;
`_CUSTOM_INTEGRALS` may hold NaN. -/
structure State (K C : Type) where
  templates : Str → Option (Curve K)
  integrals : Str → Str → Option (Option K)
  tables : C → Option (List (Option K))

/-- A composition: a template, or weights of C and S. Used for magnitude_common.py:87-99. -/
inductive Comp (K : Type)
  | template (id : Str)
  | mix (c s : K)
  deriving DecidableEq

/-- A value divided by a norm. Used for api.py:429-462. -/
def over (v : Option K) (d : K) : Option K := v.map (· / d)

/-- `_solar_norm_for_filter_ids`. api.py:209-220. -/
def norms (d : Data K) : List Str → Except PyErr (List K)
  | [] => .ok []
  | f :: l =>
    match d.norm f with
    | none => .error .valueError
    | some n =>
      match norms d l with
      | .error e => .error e
      | .ok ns => .ok (n :: ns)

/-- `_get_integrals_precomputed`. api.py:429-462. -/
def precomputed (d : Data K) (id : Str) (fs : List Str) : Except PyErr (List (Option K)) :=
  if fs.any fun f => (d.integrals id f).isNone then .error .valueError
  else
    match norms d fs with
    | .error e => .error e
    | .ok ns => .ok (List.zipWith (fun f n => over ((d.integrals id f).getD none) n) fs ns)

/-- The loop of `get_integrals` for a custom template. api.py:484-503. Filters have distinct names. -/
def customLoop (d : Data K) (t : Curve K) (id : Str) : List (Str × K) → (Str → Str → Option (Option K)) →
    Except PyErr (List (Option K)) × (Str → Str → Option (Option K))
  | [], cache => (.ok [], cache)
  | (f, n) :: l, cache =>
    match cache id f with
    | some v =>
      let r := customLoop d t id l cache
      (r.1.map (over v n :: ·), r.2)
    | none =>
      match d.filters.lookup f with
      | none => (.error .valueError, cache)
      | some curve =>
        let v := photon d.sun curve t
        let r := customLoop d t id l fun i g => if i = id ∧ g = f then some v else cache i g
        (r.1.map (over v n :: ·), r.2)

/-- `get_integrals`. api.py:465-503. -/
def getIntegrals {C : Type} (d : Data K) (s : State K C) (id : Str) (fs : List Str) :
    Except PyErr (List (Option K)) × State K C :=
  match s.templates id with
  | none => (precomputed d id fs, s)
  | some t =>
    match norms d fs with
    | .error e => (.error e, s)
    | .ok ns =>
      let r := customLoop d t id (fs.zip ns) s.integrals
      (r.1, { s with integrals := r.2 })

/-- A sum that is NaN when a term is. Used for api.py:506-531. -/
def plus (a b : Option K) : Option K :=
  match a, b with
  | some x, some y => some (x + y)
  | _, _ => none

/-- `compute_mix_integrals`. api.py:506-531. Weights are finite. -/
def mixIntegrals {C : Type} (d : Data K) (s : State K C) (wc ws : K) (fs : List Str) :
    Except PyErr (List (Option K)) × State K C :=
  if wc < 0 ∨ ws < 0 then (.error .valueError, s)
  else if wc + ws ≤ 0 then (.error .valueError, s)
  else
    let c := wc / (wc + ws)
    let w := ws / (wc + ws)
    match getIntegrals d s "C".toList fs with
    | (.error e, s) => (.error e, s)
    | (.ok a, s) =>
      match getIntegrals d s "S".toList fs with
      | (.error e, s) => (.error e, s)
      | (.ok b, s) => (.ok (List.zipWith (fun x y => plus (x.map (c * ·)) (y.map (w * ·))) a b), s)

/-- `bandpass_integrals_for_composition`. magnitude_common.py:87-99. -/
def compIntegrals {C : Type} (d : Data K) (s : State K C) (comp : Comp K) (fs : List Str) :
    Except PyErr (List (Option K)) × State K C :=
  match comp with
  | .template id => getIntegrals d s id fs
  | .mix c w => mixIntegrals d s c w fs

/-- `bandpass_composition_key`. magnitude_common.py:102-123. -/
def keyOfComp (comp : Comp K) : Except PyErr (Comp K) :=
  match comp with
  | .template id => if id = [] then .error .valueError else .ok (.template id)
  | .mix c w =>
    if c < 0 ∨ w < 0 then .error .valueError
    else if c + w ≤ 0 then .error .valueError
    else .ok (.mix (c / (c + w)) (w / (c + w)))

/-- The part of `bandpass_delta_table_for_composition_cached` after the integrals. magnitude_common.py:139-145. `mag x` is
`-2.5 * log10(x)`. An integral that is zero or negative makes `np.log10` raise FloatingPointError (an ArithmeticError,
recorded as `zeroDivision`); NaN does not. `v` is the place of V. -/
def deltas (mag : K → K) (v : Nat) (ints : List (Option K)) : Except PyErr (List (Option K)) :=
  match ints[v]? with
  | some (some iv) =>
    if iv ≤ 0 then .error .valueError
    else if ints.any fun i => match i with
        | some x => decide (x ≤ 0)
        | none => false then .error .zeroDivision
    else .ok (ints.map fun i => i.map fun x => mag (x / iv))
  | _ => .error .valueError

/-- `bandpass_filter_id_table`: the names of the filters and the place of V (the last one, as in `{name: i ...}`).
magnitude_common.py:63-84. -/
def filterIds (d : Data K) : Except PyErr (List Str × Nat) :=
  let ids := d.filters.map Prod.fst
  match ids.zipIdx.reverse.find? fun p => decide (p.1 = ['V']) with
  | none => .error .valueError
  | some p => .ok (ids, p.2)

/-- `bandpass_delta_table_for_composition`: the cache keeps a table once computed; exceptions are not cached.
magnitude_common.py:126-161. -/
def deltaTable [DecidableEq K] (d : Data K) (mag : K → K) (s : State K (Comp K)) (comp : Comp K) :
    Except PyErr (List (Option K)) × State K (Comp K) :=
  match keyOfComp comp with
  | .error e => (.error e, s)
  | .ok key =>
    match s.tables key with
    | some t => (.ok t, s)
    | none =>
      match filterIds d with
      | .error e => (.error e, s)
      | .ok (ids, v) =>
        match compIntegrals d s key ids with
        | (.error e, s) => (.error e, s)
        | (.ok ints, s) =>
          match deltas mag v ints with
          | .error e => (.error e, s)
          | .ok t => (.ok t, { s with tables := fun k => if k = key then some t else s.tables k })

/-- The delta of a filter: first place of its name in the table. `none`: no such filter. Used for magnitude.py:177-248. -/
def deltaOf (d : Data K) (table : List (Option K)) (f : Str) : Option (Option K) :=
  ((d.filters.map Prod.fst).zip table).lookup f

/-- One magnitude. magnitude.py:246-248. -/
def shift (m a b : Option K) : Option K :=
  match m, a, b with
  | some m, some a, some b => some (m + (b - a))
  | _, _, _ => none

/-- `convert_magnitude`. magnitude.py:177-248. A NaN magnitude is `none`. -/
def convert [DecidableEq K] (d : Data K) (mag : K → K) (s : State K (Comp K)) (mags : List (Option K)) (src tgt : List Str)
    (comp : Comp K) : Except PyErr (List (Option K)) × State K (Comp K) :=
  if src.length ≠ mags.length ∨ tgt.length ≠ mags.length then (.error .valueError, s)
  else if (src ++ tgt).any fun f => (d.filters.lookup f).isNone then (.error .valueError, s)
  else
    match deltaTable d mag s comp with
    | (.error e, s) => (.error e, s)
    | (.ok t, s) =>
      (.ok (List.zipWith (fun m p => shift m ((deltaOf d t p.1).getD none) ((deltaOf d t p.2).getD none)) mags (src.zip tgt)), s)

/-- `bandpass_delta_mag`. api.py:534-567. -/
def deltaMag (d : Data K) (mag : K → K) (s : State K (Comp K)) (comp : Comp K) (src tgt : Str) :
    Except PyErr K × State K (Comp K) :=
  if src = [] ∨ tgt = [] then (.error .valueError, s)
  else if src = tgt then (.ok 0, s)
  else
    match compIntegrals d s comp [src, tgt] with
    | (.error e, s) => (.error e, s)
    | (.ok ints, s) =>
      match ints with
      | [some a, some b] => if a ≤ 0 ∨ b ≤ 0 then (.error .valueError, s) else (.ok (mag (b / a)), s)
      | _ => (.error .valueError, s)

/-- `register_custom_template`. api.py:622-658. -/
def register {C : Type} (s : State K C) (id : Str) (wl rf : List (Option K)) : Except PyErr Unit × State K C :=
  match checkTemplate id wl rf with
  | .error e => (.error e, s)
  | .ok t =>
    (.ok (), { s with templates := fun i => if i = id then some t else s.templates i, integrals := fun _ _ => none })

/-- A call by the user. Used for api.py:465-503, 622-658. -/
inductive Op (K : Type)
  | register (id : Str) (wl rf : List (Option K))
  | convert (mags : List (Option K)) (src tgt : List Str) (comp : Comp K)
  | deltaMag (comp : Comp K) (src tgt : Str)
  | integrals (id : Str) (fs : List Str)

/-- The state after a call. Used for api.py:465-503, 622-658. -/
def step [DecidableEq K] (d : Data K) (mag : K → K) (s : State K (Comp K)) : Op K → State K (Comp K)
  | .register id wl rf => (register s id wl rf).2
  | .convert mags src tgt comp => (convert d mag s mags src tgt comp).2
  | .deltaMag comp src tgt => (deltaMag d mag s comp src tgt).2
  | .integrals id fs => (getIntegrals d s id fs).2

/-- The state at import. Used for api.py:618-619. -/
def initial {C : Type} : State K C := ⟨fun _ => none, fun _ _ => none, fun _ => none⟩

/-- The state after a history of calls. Used for api.py:465-503, 622-658. -/
def run [DecidableEq K] (d : Data K) (mag : K → K) (ops : List (Op K)) : State K (Comp K) := ops.foldl (step d mag) initial

end Verif.Band
