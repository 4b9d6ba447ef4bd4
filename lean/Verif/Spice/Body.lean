import Verif.Spice.Model
import Verif.Time.Model

/-!
# States of bodies by SPICE id

`get_spice_body_state` of `src/adam_core/utils/spice.py`: no cache, one query for each distinct ephemeris time. Unlike in `World.spk`, the
ephemeris time is explicit here, since rows are grouped by it: `et` takes a TDB instant in nanoseconds to the float that `Timestamp.et`
gives (time.py:139-145).
-/

namespace Verif.Spice

open Verif Time

variable {Kernel S P E : Type} [DecidableEq Kernel] [DecidableEq E] [StateSpace S]

/-- The loop over distinct ephemeris times. A row that was not set yet, memory of `np.empty`, is `none`. The query includes the change of
units that the code makes at the end for all rows, spice.py:346-348. spice.py:334-344. -/
def bodyLoop (spkEt : E → Option S) (ets : List E) : List E → List (Option S) → Except PyErr (List (Option S))
  | [], states => .ok states
  | e :: es, states =>
    match spkEt e with
    | none => .error .valueError
    | some s => bodyLoop spkEt ets es (List.zipWith (fun x old => if x = e then some s else old) ets states)

/-- `get_spice_body_state`. spice.py:285-360. -/
def getBodyState (W : World Kernel S P) (et : Int → E) (spkEt : List Kernel → Int → E → String → Int → Option S) (p : Proc Kernel S)
    (body : Int) (times : TS) (frame : String) (origin : Int) : Except PyErr (Coords (Option S)) × Proc Kernel S :=
  match frameSpice frame with
  | none => (.error .valueError, p)
  | some fs =>
    let p := setup W p none false
    match times.rescale W.env "tdb" with
    | .error e => (.error e, p)
    | .ok tdb =>
      let ets := tdb.rows.map fun r => et r.key
      match bodyLoop (fun e => spkEt p.loaded body e fs origin) ets ets.eraseDups (List.replicate times.rows.length none) with
      | .error e => (.error e, p)
      | .ok states => (.ok ⟨times, states, frame, origin⟩, p)

end Verif.Spice
