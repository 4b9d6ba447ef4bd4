import Verif.Openspace.Model

/-! # Model of the files for many orbits (`src/adam_core/orbits/openspace/assets.py:57-256`)

Directories and failures to write are left out: a file system is a text for some paths. How pandas writes a table is an arbitrary
function. -/

namespace Verif.Openspace

open Verif Mpc

variable {K : Type}

/-- The arguments of `create_renderable_orbital_kepler`. assets.py:107-132. -/
structure KeplerOptions (K : Type) where
  outDir : Str
  identifier : Str
  guiName : Option Str
  guiPath : Option Str
  color : List K
  segmentQuality : K
  contiguousMode : Option Bool
  enableMaxSize : Option Bool
  enableOutline : Option Bool
  maxSize : Option K
  outlineColor : Option (List K)
  outlineWidth : Option K
  pointSizeExponent : Option K
  rendering : Option Str
  renderSize : Option K
  startRenderIdx : Option K
  trailFade : Option K
  trailWidth : Option K
  dimInAtmosphere : Option Bool
  enabled : Option Bool
  opacity : Option K
  renderBinMode : Option Str
  tag : Option (Str ⊕ List Str)

/-- A file system: what is in the file at a path. Used for assets.py:213-215, 250-254. -/
abbrev Files := Str → Option Str

/-- `open(path, "w")` and writing. assets.py:89, 250-254. -/
def Files.write (fs : Files) (path content : Str) : Files := fun p => if p = path then some content else fs p

/-- `os.path.join` of two parts. assets.py:214, 250. -/
def joinPath (a b : Str) : Str :=
  if b.head? = some '/' then b else if a = [] ∨ a.getLast? = some '/' then a ++ b else a ++ '/' :: b

/-- `os.path.basename`. assets.py:221. -/
def baseName (p : Str) : Str := (p.reverse.takeWhile fun c => decide (c ≠ '/')).reverse

/-- A cell of the table. Used for assets.py:75-87. -/
inductive Cell (K : Type)
  | text (s : Str)
  | num (x : K)
  | missing
  deriving DecidableEq

/-- A number that may not be there. Used for assets.py:75-87. -/
def Cell.ofOption : Option K → Cell K
  | none => .missing
  | some x => .num x

/-- The columns written by `orbits_to_sbdb_file`. `epoch` writes the epochs (`sbdbEpoch`); an infinite period is `missing`. assets.py:57-90. -/
def sbdbColumns (epoch : Orbit K → Str) (orbits : List (Orbit K)) : List (Str × List (Cell K)) :=
  [("full_name".toList, orbits.map fun o => .text o.orbitId), ("epoch_cal".toList, orbits.map fun o => .text (epoch o)),
    ("e".toList, orbits.map fun o => .num o.e), ("a".toList, orbits.map fun o => .num o.a), ("i".toList, orbits.map fun o => .num o.i),
    ("om".toList, orbits.map fun o => .num o.raan), ("w".toList, orbits.map fun o => .num o.ap), ("ma".toList, orbits.map fun o => .num o.ma),
    ("per".toList, orbits.map fun o => Cell.ofOption o.period)]

/-- `RenderableOrbitalKeplerRendering`. renderable.py:24-27. -/
def keplerRenderings : List Str := ["Trail".toList, "Point".toList, "PointsTrails".toList]

/-- A tag: a string or a list of strings. lua.py:22-27. -/
def tagVal : Str ⊕ List Str → Val K
  | .inl s => .str s
  | .inr l => .list l

/-- The asset; `path` is the path of the table. assets.py:196-248, renderable.py:46-79. -/
def keplerAsset (op : KeplerOptions K) (path : Str) : Val K :=
  .dict (Fields.of [("identifier".toList, .str (safe op.identifier)), ("parent".toList, .str "SunEclipJ2000".toList),
    ("gui".toList, gui (op.guiName.getD (safe op.identifier)) (op.guiPath.getD "/ADAM".toList)),
    ("renderable".toList, .dict (Fields.of [("type".toList, .str "RenderableOrbitalKepler".toList),
      ("dim_in_atmosphere".toList, opt .bool op.dimInAtmosphere), ("enabled".toList, opt .bool op.enabled),
      ("opacity".toList, opt .num op.opacity), ("render_bin_mode".toList, opt .enum op.renderBinMode), ("tag".toList, opt tagVal op.tag),
      ("color".toList, .tuple op.color), ("format".toList, .enum "SBDB".toList), ("path".toList, .resource (baseName path)),
      ("segment_quality".toList, .num op.segmentQuality), ("contiguous_mode".toList, opt .bool op.contiguousMode),
      ("enable_max_size".toList, opt .bool op.enableMaxSize), ("enable_outline".toList, opt .bool op.enableOutline),
      ("max_size".toList, opt .num op.maxSize), ("outline_color".toList, opt .tuple op.outlineColor),
      ("outline_width".toList, opt .num op.outlineWidth), ("point_size_exponent".toList, opt .num op.pointSizeExponent),
      ("rendering".toList, opt .enum op.rendering), ("render_size".toList, opt .num op.renderSize),
      ("start_render_idx".toList, opt .num op.startRenderIdx), ("trail_fade".toList, opt .num op.trailFade),
      ("trail_width".toList, opt .num op.trailWidth)])), ("transform".toList, .none)])

/-- `create_renderable_orbital_kepler`: the files afterwards and the result. `csv` writes a table. assets.py:107-256. -/
def orbitalKepler (shw : K → Str) (epoch : Orbit K → Str) (csv : List (Str × List (Cell K)) → Str) (op : KeplerOptions K)
    (orbits : List (Orbit K)) (fs : Files) : Files × Except Err Unit :=
  let identifier := safe op.identifier
  if (op.rendering.any fun r => decide (r ∉ keplerRenderings)) = true then (fs, .error (.py .valueError))
  else if (op.renderBinMode.any fun r => decide (r ∉ renderBinModes)) = true then (fs, .error (.py .valueError))
  else
    let path := joinPath op.outDir (identifier ++ ".csv".toList)
    let fs := fs.write path (csv (sbdbColumns epoch orbits))
    let fs := fs.write (joinPath op.outDir (identifier ++ ".asset".toList))
      ("local Object = ".toList ++ text shw 4 (keplerAsset op path) ++ ['\n', '\n'] ++ initText ["Object".toList])
    (fs, .ok ())

end Verif.Openspace
