import Verif.Basic
import Verif.Sched.Model
import Mathlib.Data.Nat.Digits.Defs

/-! # Model of the row joins: observer alignment, H and G look-up, `Observers.from_codes`, `Exposures.observers`

Source: adam_core/propagator/propagator.py:40-276, observers/observers.py:119-223, observations/exposures.py:37-80.
Tables are lists of rows, a null entry is `none`. -/

namespace Verif.Joins

open Verif Sched

/-! ## Aligning ephemeris rows with observers -/

/-- Decimal text of a natural number (what the Arrow cast to string and an f-string print).
Used for propagator.py:49-56, 82-94. -/
def decNat (n : Nat) : List Char := if n = 0 then ['0'] else ((Nat.digits 10 n).map Nat.digitChar).reverse

/-- Decimal text of an integer. Used for propagator.py:49-56, 82-94. -/
def decInt : Int → List Char
  | .ofNat n => decNat n
  | .negSucc n => '-' :: decNat (n + 1)

/-- The columns a key is made of: observatory code, days, nanos (nullable in Arrow). Used for propagator.py:49-56, 82-94. -/
structure KeyCols where
  code : Option (List Char)
  days : Option Int
  nanos : Option Int
deriving DecidableEq

/-- `f"{code}|{days}|{nanos}"`, and the same by `binary_join_element_wise`, which gives null when a part is null.
propagator.py:49-56, 82-94. -/
def joinKey (c : KeyCols) : Option (List Char) :=
  match c.code, c.days, c.nanos with
  | some code, some d, some n => some (code ++ '|' :: (decInt d ++ '|' :: decInt n))
  | _, _, _ => none

/-- `pc.count_distinct(a)`: nulls are not counted (mode `only_valid`). propagator.py:97. -/
def countDistinct {K : Type} [DecidableEq K] (l : List (Option K)) : Nat := (uniq (l.filterMap id)).length

/-- `pc.index_in(values, value_set)` for one value. propagator.py:102. -/
def indexIn {K : Type} [DecidableEq K] (set : List (Option K)) (k : Option K) : Option Nat :=
  set.findIdx? fun x => decide (x = k)

/-- `_alignment_indices_struct_index_in`. propagator.py:70-106. -/
def alignIndexIn (obs eph : List KeyCols) : Except PyErr (List Nat) :=
  let obsKey := obs.map joinKey
  if countDistinct obsKey ≠ obsKey.length then .error .valueError
  else
    let idx := (eph.map joinKey).map (indexIn obsKey)
    if idx.any Option.isNone then .error .valueError else .ok (idx.filterMap id)

/-- `_alignment_indices_string_keys` on the two arrays of keys. propagator.py:57-67. `sorter[pos]` with `pos` past the end
raises IndexError before the keys are compared. Not called by the library itself, only by its benchmark. -/
def alignSorted {K : Type} [LinearOrder K] (obs eph : List K) : Except PyErr (List Nat) :=
  if (uniq obs).length ≠ obs.length then .error .valueError
  else
    let sorted := sortBy Prod.fst obs.zipIdx
    let found := eph.map fun k => (sorted.map Prod.snd)[(sorted.map Prod.fst).countP fun x => decide (x < k)]?
    if found.any Option.isNone then .error .indexError
    else
      let idx := found.filterMap id
      if (idx.zip eph).any fun p => decide (obs[p.1]? ≠ some p.2) then .error .valueError else .ok idx

/-! ## H and G -/

/-- An orbit's id and photometric parameters; `none` is a null or a non-finite number (both fail `is_finite`).
Used for propagator.py:126-134. -/
structure OrbHG (I V : Type) where
  id : I
  H : Option V
  G : Option V

/-- The rows with finite H and G. propagator.py:126-134. -/
def validHG {I V : Type} (orbits : List (OrbHG I V)) : List (I × V × V) :=
  orbits.filterMap fun o =>
    match o.H, o.G with
    | some h, some g => some (o.id, h, g)
    | _, _ => none

/-- One row of the aggregation `group_by("orbit_id").aggregate([min, max of H_v and G])`. propagator.py:136-138. -/
structure Group (I V : Type) where
  id : I
  hMin : Option V
  hMax : Option V
  gMin : Option V
  gMax : Option V

/-- The aggregated table. propagator.py:136-138. -/
def groups {I V : Type} [DecidableEq I] [LinearOrder V] (valid : List (I × V × V)) : List (Group I V) :=
  (uniq (valid.map Prod.fst)).map fun i =>
    let rows := valid.filter fun r => decide (r.1 = i)
    let hs := rows.map fun r => r.2.1
    let gs := rows.map fun r => r.2.2
    ⟨i, hs.min?, hs.max?, gs.min?, gs.max?⟩

/-- `_hg_params_for_ephemeris_rows_arrow`. propagator.py:109-158. NaN in the result is `none`. -/
def hgParams {I V : Type} [DecidableEq I] [LinearOrder V] (orbits : List (OrbHG I V)) (eph : List I) :
    Except PyErr (List (Option V × Option V)) :=
  let valid := validHG orbits
  if valid.isEmpty then .ok (eph.map fun _ => (none, none))
  else
    let gb := groups valid
    if gb.any fun g => decide (g.hMin ≠ g.hMax) || decide (g.gMin ≠ g.gMax) then .error .valueError
    else .ok (eph.map fun i =>
      match gb.find? fun g => decide (g.id = i) with
      | none => (none, none)
      | some g => (g.hMin, g.gMin))

/-! ## Magnitudes and phase angles -/

/-- An ephemeris row as far as photometry is concerned; `aberrated` is null when the propagator gave none.
Used for propagator.py:172-276. -/
structure EphRow (I S V : Type) where
  id : I
  key : KeyCols
  aberrated : Option S
  alpha : Option V
  mag : Option V

/-- An observer row: key columns and state. Used for propagator.py:172-276. -/
structure ObsRow (Y : Type) where
  key : KeyCols
  state : Y

/-- `attach_magnitude_or_phase`. propagator.py:172-276. `mag` and `phase` are the photometric functions of one row after
the transformation of both states to the heliocentric ecliptic frame (row-wise, padded chunks: C20); `none` is a
non-finite result, and a null aberrated state gives one. `rescale` converts the time of an observer to the ephemeris
time scale and is applied only when the scales differ. -/
def attach {I S V Y : Type} [DecidableEq I] [LinearOrder V] (mag : V → V → S → Y → Option V) (phase : S → Y → Option V)
    (sameScale : Bool) (rescale : ObsRow Y → ObsRow Y) (orbits : List (OrbHG I V)) (observers : List (ObsRow Y))
    (eph : List (EphRow I S V)) (predictMag predictPhase : Bool) : Except PyErr (List (EphRow I S V)) :=
  if (!predictMag && !predictPhase) || eph.isEmpty then .ok eph
  else if eph.all fun r => r.aberrated.isNone then .ok eph
  else
    match (if predictMag then hgParams orbits (eph.map EphRow.id) else .ok (eph.map fun _ => (none, none))) with
    | .error e => .error e
    | .ok hg =>
      let wantMag := predictMag && hg.any fun p => p.1.isSome && p.2.isSome
      if !predictPhase && !wantMag then .ok eph
      else
        let obs := if sameScale then observers else observers.map rescale
        match alignIndexIn (obs.map ObsRow.key) (eph.map EphRow.key) with
        | .error e => .error e
        | .ok idx =>
          .ok (List.zipWith (fun (r : EphRow I S V) (p : (Option V × Option V) × ObsRow Y) =>
            { r with
              alpha := if predictPhase then r.aberrated.bind fun s => phase s p.2.state else r.alpha
              mag :=
                if wantMag then
                  match p.1.1, p.1.2, r.aberrated with
                  | some h, some g, some s => mag h g s p.2.state
                  | _, _, _ => none
                else r.mag }) eph (hg.zip (take obs idx)))

/-! ## Observers from codes -/

/-- The part of the table for one unique code: `pc.indices_nonzero(pc.equal(codes, code))`, the times at these positions and
`from_code`. observers.py:156-169, 177-223. A null code equals nothing and `from_code(None, ...)` raises ValueError.
`stateOf` is `get_observer_state` (modelled in `Verif.Spice`); a state table of another length cannot be combined with
the codes (ValueError). -/
def codePart {C T S : Type} [DecidableEq C] (stateOf : C → List T → Except PyErr (List S)) (codes : List (Option C))
    (times : List T) : Option C → Except PyErr (List (Nat × C × S))
  | none => .error .valueError
  | some c =>
    let idx := (List.range codes.length).filter fun i => decide (codes[i]? = some (some c))
    match stateOf c (take times idx) with
    | .error e => .error e
    | .ok states => if states.length ≠ idx.length then .error .valueError else .ok (idx.zip (states.map fun s => (c, s)))

/-- `Observers.from_codes`. observers.py:119-175. -/
def fromCodes {C T S : Type} [DecidableEq C] (stateOf : C → List T → Except PyErr (List S)) (codes : List (Option C))
    (times : List T) : Except PyErr (List (C × S)) :=
  if codes.length ≠ times.length then .error .valueError
  else
    match gather (codePart stateOf codes times) (uniq codes) with
    | .error e => .error e
    | .ok parts => .ok ((sortBy Prod.fst parts.flatten).map Prod.snd)

/-- `Exposures.observers` for exposures given by observatory code and midpoint. exposures.py:37-80. The code column is not
nullable. `pa.concat_arrays([])` raises ArrowInvalid. -/
def exposuresObservers {C T S : Type} [DecidableEq C] (stateOf : C → List T → Except PyErr (List S))
    (exposures : List (C × T)) : Except PyErr (List (C × S)) :=
  let codes := exposures.map fun e => some e.1
  match gather (codePart stateOf codes (exposures.map Prod.snd)) (uniq codes) with
  | .error e => .error e
  | .ok [] => .error .arrowInvalid
  | .ok parts => .ok ((sortBy Prod.fst parts.flatten).map Prod.snd)

end Verif.Joins
