import Verif.Spk.Model
import Mathlib.Algebra.BigOperators.Fin

/-! # SPK files of type 9

`write_spkw09_segment` and the loop of `orbits_to_spk` of `src/adam_core/orbits/spice_kernel.py`. `spkw09` and the SPICE reader are modelled
by their documentation: a segment needs more states than its degree, in strictly increasing order, and is read by interpolating each of the
six components with the polynomial through the sixteen states around the time asked for. -/

namespace Verif.Spk

open Verif Sched

/-- A state as it is in the file: ephemeris time, and components in km and km/s. Used for spice_kernel.py:304-316. -/
structure Node where
  time : ℚ
  values : Fin 6 → ℚ

/-- A type 9 segment. Used for spice_kernel.py:304-316. -/
structure Segment9 where
  start : ℚ
  stop : ℚ
  degree : Nat
  nodes : List Node

/-- `spkw09`: the refusals are those of SPICE. spice_kernel.py:304-316. -/
def spkw09 (degree : Nat) (nodes : List Node) : Except PyErr Segment9 :=
  match nodes.head?, nodes.getLast? with
  | some a, some b =>
    if nodes.length ≤ degree then .error .runtimeError
    else if nodes.Pairwise (fun a b => a.time < b.time) then .ok ⟨a.time, b.time, degree, nodes⟩
    else .error .runtimeError
  | _, _ => .error .indexError

/-- `write_spkw09_segment`. `jd` takes an exact time to the one that the text of the float Julian date stands for.
spice_kernel.py:267-316. -/
def writeSegment9 (jd : ℚ → ℚ) (states : List State) : Except PyErr Segment9 :=
  spkw09 15 (states.map fun s => ⟨jd s.time, toKm s.values⟩)

/-- The type 9 segment of one orbit. spice_kernel.py:157, 178-185. -/
def writeOrbit9 (jd : ℚ → ℚ) (states : List State) : Except PyErr Segment9 := writeSegment9 jd (sortBy State.time states)

/-- The first state of the window that SPICE takes for a time: half of the window is not later than the time, where the ends of the segment
allow it. Used for spice_kernel.py:304-316. -/
def windowFirst (nodes : List Node) (degree : Nat) (t : ℚ) : Nat :=
  min ((nodes.takeWhile fun n => decide (n.time ≤ t)).length - (degree + 1) / 2) (nodes.length - (degree + 1))

/-- The window. Used for spice_kernel.py:304-316. -/
def window9 (s : Segment9) (t : ℚ) : List Node := (s.nodes.drop (windowFirst s.nodes s.degree t)).take (s.degree + 1)

/-- Lagrange's interpolation of one component. Used for spice_kernel.py:304-316. -/
def lagrange (w : List Node) (i : Fin 6) (t : ℚ) : ℚ :=
  ∑ k : Fin w.length, (w.get k).values i * ∏ j ∈ Finset.univ.erase k, (t - (w.get j).time) / ((w.get k).time - (w.get j).time)

/-- What SPICE reads, nothing outside of the segment. Used for spice_kernel.py:304-316. -/
def evaluate9 (s : Segment9) (t : ℚ) : Option (Fin 6 → ℚ) :=
  if s.start ≤ t ∧ t ≤ s.stop then some fun i => lagrange (window9 s t) i t else none

/-- The times to propagate to, in days from the start. `int` rounds towards zero. spice_kernel.py:122-128. -/
def stepTimes (start stop step : ℚ) : List ℚ :=
  let q := (stop - start) / step
  (List.range ((if 0 ≤ q then ⌊q⌋ else ⌈q⌉) + 1).toNat).map fun i : Nat => start + i * step

/-- The file: the segments written, by target, and whether it was closed. Used for spice_kernel.py:148-193. -/
structure File (Seg : Type) where
  segments : List (Int × Seg)
  closed : Bool

/-- The loop over orbits and the end of `orbits_to_spk`. `write` is `none` for a kernel type that is not known. The keys of the mapping are
the orbit ids. spice_kernel.py:150-193. -/
def writeLoop {I Seg Row : Type} [DecidableEq I] (write : Option (List Row → Except PyErr Seg)) (rows : List (I × Row)) (start : Int) :
    List (I × Nat) → List (I × Int) → File Seg → Except PyErr (List (I × Int)) × File Seg
  | [], mapping, f => (.ok mapping, { f with closed := true })
  | (id, k) :: ids, mapping, f =>
    let mapping := mapping ++ [(id, start + k)]
    match write with
    | none => (.error .valueError, f)
    | some w => match w ((rows.filter fun r => decide (r.1 = id)).map (·.2)) with
      | .error e => (.error e, f)
      | .ok s => writeLoop write rows start ids mapping { f with segments := f.segments ++ [(start + k, s)] }

/-- `orbits_to_spk` after propagation and transformation. spice_kernel.py:148-193. -/
def orbitsToSpk {I Seg Row : Type} [DecidableEq I] (write : Option (List Row → Except PyErr Seg)) (rows : List (I × Row)) (start : Int) :
    Except PyErr (List (I × Int)) × File Seg :=
  writeLoop write rows start (uniq (rows.map (·.1))).zipIdx [] ⟨[], false⟩

end Verif.Spk
