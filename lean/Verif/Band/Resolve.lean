import Verif.Basic
import Mathlib.Data.List.Basic

/-! # Resolution of reported bands to canonical filters

`map_to_canonical_filter_bands` of `src/adam_core/photometry/bandpasses/api.py`. Strings are lists of characters; letters and
white space are those of ASCII. A null entry of an Arrow column is `none`. The packaged tables are parameters. -/

namespace Verif.Band

open Verif

/-- A string. Used for tables.py:7-32. -/
abbrev Str := List Char

/-- The packaged tables: filters with a curve (`BandpassCurves.filter_id`) and the `key`/`filter_id` columns of
`ObservatoryBandMap`. tables.py:7-32. -/
structure Tables where
  curves : List Str
  mapping : List (Str × Str)

/-- `pc.utf8_trim_whitespace`. Used for api.py:77-96. -/
def trim (b : Str) : Str := ((b.dropWhile Char.isWhitespace).reverse.dropWhile Char.isWhitespace).reverse

/-- `"^LSST_"` stripped by `utf8_slice_codeunits(b, 5)`. api.py:80-83. -/
def stripLsst (b : Str) : Str := if "LSST_".toList.isPrefixOf b then b.drop 5 else b

/-- `"^L[<letters>]$"`. Used for api.py:77-96. -/
def isL (letters : List Char) (b : Str) : Bool :=
  match b with
  | ['L', x] => letters.contains x
  | _ => false

/-- The rewriting of `_normalize_reported_band_for_station` for a row of the station. api.py:77-96. -/
def rewrite (b : Str) : Str :=
  let b := trim b
  let b := stripLsst b
  let b := if isL "ugrizy".toList b then b.drop 1 else b
  let b := if isL "UGRIZY".toList b then (b.drop 1).map Char.toLower else b
  if b = ['Y'] then ['y'] else b

/-- The code of the station. Used for api.py:55-99. -/
def x05 : Str := "X05".toList

/-- `_normalize_reported_band_for_station` on whole columns. api.py:55-99. A null code makes the choice null. -/
def normalize (codes bands : List (Option Str)) : List (Option Str) :=
  if codes.any fun c => decide (c = some x05) then
    List.zipWith (fun c b =>
      match c with
      | none => none
      | some c => if c = x05 then b.map rewrite else b) codes bands
  else bands

/-- `_key_from_code_band`. api.py:47-52. -/
def keyOf (code band : Option Str) : Option Str :=
  match code, band with
  | some c, some b => some (c ++ '|' :: b)
  | _, _ => none

/-- `fallback_map`. api.py:334-341. -/
def fallbackMap : List (Str × Str) :=
  [("u".toList, "SDSS_u".toList), ("g".toList, "SDSS_g".toList), ("r".toList, "SDSS_r".toList),
   ("i".toList, "SDSS_i".toList), ("z".toList, "SDSS_z".toList), ("y".toList, "PS1_y".toList)]

/-- The fallback of a row, on the band as given. A null band has become the string `None`. api.py:343-351. -/
def fallbackOf (band : Option Str) : Option Str :=
  fallbackMap.lookup ((band.getD "None".toList).map Char.toLower)

/-- One entry of `out` and of `used_fallback`, from the band as given and the band used for the key. api.py:294-351. -/
def resolveRow (t : Tables) (code band forMap : Option Str) : Option Str × Bool :=
  match band.bind fun b => if b ∈ t.curves then some b else none with
  | some b => (some b, false)
  | none =>
    match (keyOf code forMap).bind fun k => t.mapping.lookup k with
    | some f => (some f, false)
    | none =>
      match fallbackOf band with
      | some f => (some f, true)
      | none => (none, false)

/-- `on_unknown`. Used for api.py:223-406. -/
inductive OnUnknown
  | raise
  | skip
  | other
  deriving DecidableEq

/-- A suggested filter without a curve. api.py:393-404. -/
def noCurve (t : Tables) (o : Option Str) : Bool :=
  match o with
  | none => false
  | some f => decide (f ∉ t.curves)

/-- `map_to_canonical_filter_bands`. api.py:223-406. -/
def mapBands (t : Tables) (codes bands : List (Option Str)) (allowFallback : Bool) (onUnknown : OnUnknown) :
    Except PyErr (List (Option Str)) :=
  if codes.length ≠ bands.length then .error .valueError
  else
    let rows := List.zipWith (fun c p => resolveRow t c p.1 p.2) codes (bands.zip (normalize codes bands))
    if onUnknown = .other then .error .valueError
    else if onUnknown = .raise && rows.any fun r => r.1.isNone then .error .valueError
    else if !allowFallback && rows.any (fun r => r.2) && onUnknown ≠ .skip then .error .valueError
    else
      let out := rows.map fun r => if !allowFallback && r.2 then none else r.1
      if out.any (noCurve t) then .error .valueError
      else .ok out

end Verif.Band
