import Verif.Band.Spec
import Mathlib.Analysis.SpecialFunctions.Exp

/-! # Model of the tables of `src/adam_core/photometry/bandpasses/vendor.py` and of `bandpass_color_terms` (`bandpasses/api.py`)

Arithmetic is exact; `none` is a number that is not finite. Downloads are arbitrary. -/

namespace Verif.Vendor

open Verif Sched Band

variable {K : Type} [Field K] [LinearOrder K]

/-- A column of a table: absent, or its numbers. vendor.py:118-123. -/
abbrev Column (K : Type) := Option (List (Option K))

/-- `_parse_svo_curve`, for columns of one dimension. vendor.py:115-133. -/
def parseSvo (wavelength transmission : Column K) : Except PyErr (List (Option K) × List (Option K)) :=
  match wavelength, transmission with
  | some wl, some tr =>
    if wl.length ≠ tr.length then .error .valueError
    else if wl.length < 2 then .error .valueError
    else .ok (wl.map (Option.map (· / 10)), tr)
  | _, _ => .error .valueError

/-- The samples after the one at `prev` whose wavelength is greater than that of the sample before them. vendor.py:148-151. -/
def keepFrom (prev : K) : Curve K → Curve K
  | [] => []
  | p :: l => if 0 < p.1 - prev then p :: keepFrom p.1 l else keepFrom p.1 l

/-- `np.clip(x, 0, 1)`. vendor.py:155. -/
def clip (x : K) : K := min (max x 0) 1

/-- `np.max`. vendor.py:156. -/
def top (c : Curve K) : K :=
  match c with
  | [] => 0
  | p :: l => l.foldl (fun m q => max m q.2) p.2

/-- The samples in the order that `np.argsort` gives. vendor.py:144-146. -/
def reorder (order : List Nat) (c : Curve K) : Curve K := order.filterMap fun i => c[i]?

/-- `_normalize_curve`. `order` is what `np.argsort` returns, which is not a stable sort. No samples at all are an IndexError: the mask
has one entry. vendor.py:136-160. -/
def normalize (order : List Nat) (wl thr : List (Option K)) : Except PyErr (Curve K) :=
  if wl.any Option.isNone || thr.any Option.isNone then .error .valueError
  else
    match reorder order (List.zipWith (fun a b => (a.getD 0, b.getD 0)) wl thr) with
    | [] => .error .indexError
    | p :: l =>
      let c := p :: keepFrom p.1 l
      if c.length < 2 then .error .valueError
      else
        let c := c.map fun q => (q.1, clip q.2)
        if top c ≤ 0 then .error .valueError else .ok (c.map fun q => (q.1, q.2 / top c))

/-- A row of the specifications: `filter_id` and `svo_id`; instrument and band are left out. vendor.py:35-40. -/
structure Spec where
  filter : Str
  svo : Str

/-- The loop of `build_bandpass_curves`. vendor.py:187-203. -/
def curvesFrom (fetch : Str → Except PyErr (Column K × Column K)) (argsort : List (Option K) → List Nat) (seen : List Str) :
    List Spec → Except PyErr (List (Str × Curve K))
  | [] => .ok []
  | x :: l =>
    if x.filter ∈ seen then .error .valueError
    else do
      let raw ← fetch x.svo
      let (wl, thr) ← parseSvo raw.1 raw.2
      let c ← normalize (argsort wl) wl thr
      let rest ← curvesFrom fetch argsort (x.filter :: seen) l
      return (x.filter, c) :: rest

/-- `build_bandpass_curves`, without the file it writes. vendor.py:163-219. -/
def buildCurves (fetch : Str → Except PyErr (Column K × Column K)) (argsort : List (Option K) → List Nat) (specs : List Spec) :
    Except PyErr (List (Str × Curve K)) :=
  if specs.isEmpty then .error .valueError else curvesFrom fetch argsort [] specs

/-! ## Templates -/

/-- `_normalize_at_550`; the grid covers 550 nm, so `np.interp` does not leave it. vendor.py:320-326. -/
def normalizeAt550 (c : Curve K) : Except PyErr (Curve K) :=
  if interp c 550 ≤ 0 then .error .valueError else .ok (c.map fun q => (q.1, q.2 / interp c 550))

/-- `np.linspace(300, 1100, 4000)`. vendor.py:318. -/
noncomputable def grid : List ℝ := (List.range 4000).map fun k : Nat => 300 + k * (800 / 3999)

/-- The C template before normalisation. vendor.py:329-333. -/
noncomputable def rawC (w : ℝ) : ℝ :=
  (1 + 15 / 100 * (w - 550) / 550) * (1 - 3 / 100 * Real.exp (-(1 / 2) * ((w - 700) / 50) ^ 2)) *
    if w < 450 then Real.exp (-((450 - w) / 100) ^ 2) else 1

/-- The S template before normalisation. vendor.py:337-341. -/
noncomputable def rawS (w : ℝ) : ℝ :=
  (1 + 50 / 100 * (w - 550) / 550) * (1 - 10 / 100 * Real.exp (-(1 / 2) * ((w - 950) / 100) ^ 2)) *
    if w < 500 then Real.exp (-((500 - w) / 120) ^ 2) else 1

/-- A linear mix, sample by sample. vendor.py:345-346. -/
def mix (a b : K) (c s : Curve K) : Curve K := List.zipWith (fun p q => (p.1, a * p.2 + b * q.2)) c s

/-- `build_asteroid_templates`: names, curves and weights. vendor.py:306-375. -/
noncomputable def buildTemplates : Except PyErr (List (Str × Curve ℝ × ℝ × ℝ)) := do
  let c ← normalizeAt550 (grid.map fun w => (w, rawC w))
  let s ← normalizeAt550 (grid.map fun w => (w, rawS w))
  return [("C".toList, c, 1, 0), ("S".toList, s, 0, 1), ("NEO".toList, mix (1 / 2) (1 / 2) c s, 1 / 2, 1 / 2),
    ("MBA".toList, mix (7 / 10) (3 / 10) c s, 7 / 10, 3 / 10)]

/-! ## Integrals -/

/-- `build_solar_spectrum` from the rows of the file, in Angstrom: in nanometres, within 300 and 1200, divided by the greatest flux; a flux
that is not finite is `none`. The greatest of nothing is a ValueError. vendor.py:390-406. -/
def buildSun (rows : Curve K) : Except PyErr (List (K × Option K)) :=
  let c := (rows.map fun p => (p.1 / 10, p.2)).filter fun p => decide (300 ≤ p.1) && decide (p.1 ≤ 1200)
  if c = [] then .error .valueError else .ok (c.map fun p => (p.1, if top c = 0 then none else some (p.2 / top c)))

/-- The solar spectrum, sorted if its wavelengths do not increase. vendor.py:430-433. -/
def solar (order : List Nat) (sun : Curve K) : Curve K :=
  if sun.length < 2 ∨ (sun.zip sun.tail).any (fun p => decide (p.2.1 - p.1.1 ≤ 0)) = true then reorder order sun else sun

/-- The integral of one template in one filter; all curves have samples. vendor.py:463-478. -/
def integral (sun template filter : Curve K) : Option K :=
  let a := max (max (lo sun) (lo template)) (lo filter)
  let b := min (min (hi sun) (hi template)) (hi filter)
  if b ≤ a then none
  else some (trapezoid ((within sun a b).map fun p => (p.1, p.2 * interp template p.1 * interp filter p.1 * p.1)))

/-- `build_template_bandpass_integrals`, without the files. vendor.py:414-490. -/
def buildIntegrals (order : List Nat) (sun : Curve K) (templates filters : List (Str × Curve K)) : List (Str × Str × Option K) :=
  templates.flatMap fun t => filters.map fun f => (t.1, f.1, integral (solar order sun) t.2 f.2)

/-- The packaged data made from tables that were built: the integral of a template and a filter is in the first row with their names.
Used for api.py:429-462. -/
def dataOf (sun : Curve K) (filters : List (Str × Curve K)) (norm : Str → Option K) (table : List (Str × Str × Option K)) : Data K :=
  ⟨sun, filters, norm, fun id f => (table.find? fun r => decide (r.1 = id ∧ r.2.1 = f)).map fun r => r.2.2⟩

/-! ## Colour terms -/

/-- A number of numpy. Used for api.py:608. -/
inductive Term (K : Type)
  | num (x : K)
  | inf
  | nan
  deriving DecidableEq

/-- `-2.5 * log10(i / i_src)`; `mag x` is `-2.5 * log10(x)`. api.py:608. -/
def term (mag : K → K) (iSrc : K) : Option K → Term K
  | none => .nan
  | some i => if i / iSrc < 0 then .nan else if i / iSrc = 0 then .inf else .num (mag (i / iSrc))

/-- A dictionary built from pairs: keys in the order of first appearance, the last value of each. api.py:609. -/
def dict {V : Type} (l : List (Str × V)) : List (Str × V) :=
  (uniq (l.map Prod.fst)).filterMap fun k => (l.reverse.lookup k).map fun v => (k, v)

/-- `bandpass_color_terms`. api.py:570-609. -/
def colorTerms (d : Data K) (mag : K → K) (s : State K (Comp K)) (comp : Comp K) (src : Str) (targets : Option (List Str)) :
    Except PyErr (List (Str × Term K)) × State K (Comp K) :=
  if src = [] then (.error .valueError, s)
  else
    let ts := (targets.getD (d.filters.map Prod.fst)).filter fun t => decide (t ≠ [] ∧ t ≠ src)
    if ts = [] then (.ok [], s)
    else
      match compIntegrals d s comp (src :: ts) with
      | (.error e, s) => (.error e, s)
      | (.ok [], s) => (.error .indexError, s)
      | (.ok (i :: is), s) =>
        match i with
        | none => (.error .valueError, s)
        | some i => if i ≤ 0 then (.error .valueError, s) else (.ok (dict (ts.zip (is.map (term mag i)))), s)

end Verif.Vendor
