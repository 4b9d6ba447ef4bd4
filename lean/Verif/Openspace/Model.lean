import Verif.Basic
import Verif.Mpc.Model
import Mathlib.Algebra.Order.Floor.Defs
import Mathlib.Algebra.Order.Floor.Ring
import Mathlib.Data.Rat.Floor

/-! # Model of `src/adam_core/orbits/openspace`

Numbers are of any type `K`; `shw` writes them (`str`). -/

namespace Verif.Openspace

open Verif Mpc

mutual
/-- A value in a Lua table; an enum is its value, `none` is None. lua.py:17-30, renderable.py:37-43. -/
inductive Val (K : Type) where
  | none
  | bool (b : Bool)
  | num (x : K)
  | enum (s : Str)
  | tuple (xs : List K)
  | list (xs : List Str)
  | str (s : Str)
  | resource (path : Str)
  | dict (fs : Fields K)

/-- The attributes of a `LuaDict`, in the order of `__dict__`. lua.py:15. -/
inductive Fields (K : Type) where
  | nil
  | cons (k : Str) (v : Val K) (fs : Fields K)
end

variable {K : Type}

/-- Attributes from a list. Used for assets.py:42-54. -/
def Fields.of : List (Str × Val K) → Fields K
  | [] => .nil
  | (k, v) :: l => .cons k v (Fields.of l)

/-- `v is None`. lua.py:16-17. -/
def isNone : Val K → Bool
  | .none => true
  | _ => false

/-- `str.capitalize` on ASCII text. lua.py:11. -/
def capitalize : Str → Str
  | [] => []
  | c :: cs => c.toUpper :: cs.map Char.toLower

/-- `to_pascal_case`, and `GUI`. lua.py:10-11, 31-34. -/
def key (k : Str) : Str := if k = "gui".toList then "GUI".toList else ((k.splitOn '_').map capitalize).flatten

/-- `", ".join`. lua.py:22-25. -/
def join : List Str → Str
  | [] => []
  | [a] => a
  | a :: b :: l => a ++ ',' :: ' ' :: join (b :: l)

mutual
/-- The text of a value: `to_string(indent)` for a dictionary or resource. lua.py:13-39, renderable.py:42-43. -/
def text (shw : K → Str) (indent : Nat) : Val K → Str
  | .none => []
  | .bool b => if b then "true".toList else "false".toList
  | .num x => shw x
  | .enum s => '"' :: s ++ ['"']
  | .tuple xs => '{' :: join (xs.map shw) ++ ['}']
  | .list xs => '{' :: '"' :: join xs ++ ['"', '}']
  | .str s => '"' :: s ++ ['"']
  | .resource p => "asset.resource(".toList ++ '"' :: p ++ ['"', ')']
  | .dict fs => '{' :: '\n' :: fieldsText shw indent fs ++ List.replicate (indent - 4) ' ' ++ ['}']

/-- The lines of the attributes that are not None. lua.py:15-37. -/
def fieldsText (shw : K → Str) (indent : Nat) : Fields K → Str
  | .nil => []
  | .cons k v fs =>
    if isNone v then fieldsText shw indent fs
    else List.replicate indent ' ' ++ key k ++ ' ' :: '=' :: ' ' :: text shw (indent + 4) v ++ ',' :: '\n' :: fieldsText shw indent fs
end

/-! ## Trails -/

/-- The kind of translation asked for. assets.py:268. -/
inductive Translation
  | kepler
  | spice
  | other
  deriving DecidableEq

/-- An exception: one of Python's, or UnboundLocalError (the message of the ValueError names a variable that has no value yet).
assets.py:415-416. -/
inductive Err
  | py (e : PyErr)
  | unbound
  deriving DecidableEq

/-- An orbit: its ids, its heliocentric ecliptic elements, and its period, `none` if that is NaN or infinite. The time as text and the
elements are those of `to_astropy().iso` and `transform_coordinates`. assets.py:362-367, 381-386, 398-409. -/
structure Orbit (K : Type) where
  orbitId : Str
  objectId : Option Str
  epoch : Str
  a : K
  e : K
  i : K
  raan : K
  ap : K
  ma : K
  period : Option K

/-- The arguments of `create_renderable_trail_orbit`. assets.py:259-283. -/
structure Options (K : Type) where
  head : Bool
  guiName : Option Str
  guiPath : Option Str
  color : List K
  resolution : K
  translation : Translation
  enableFade : Option Bool
  lineFadeAmount : Option K
  lineLength : Option K
  lineWidth : Option K
  pointSize : Option K
  rendering : Option Str
  dimInAtmosphere : Option Bool
  enabled : Option Bool
  opacity : Option K
  period : Option K
  renderBinMode : Option Str
  tag : Option (List Str)
  kernelPath : Option Str
  ids : Option (Str → Option (Val K))

/-- An optional attribute. lua.py:16-17. -/
def opt {A : Type} (f : A → Val K) : Option A → Val K
  | .none => .none
  | some a => f a

/-- `replace(" ", "_")`. assets.py:196, 351, 434, 450. -/
def safe (s : Str) : Str := s.map fun c => if c = ' ' then '_' else c

/-- The name used for an orbit. assets.py:383-386. -/
def Orbit.object (o : Orbit K) : Str := o.objectId.getD o.orbitId

/-- `RenderableTrailRendering`. renderable.py:30-33. -/
def trailRenderings : List Str := ["Lines".toList, "Points".toList, "Lines+Points".toList]

/-- `RenderBinMode`. renderable.py:9-15. -/
def renderBinModes : List Str :=
  ["Background".toList, "Opaque".toList, "PreDeferredTransparent".toList, "Overlay".toList, "PostDeferredTransparent".toList,
    "Sticker".toList]

variable [Field K]

/-- `_safe_orbital_period`. assets.py:31-39. -/
def safePeriod (p : Option K) : K := p.getD 10000

/-- The translation of an orbit. `au` is `KM_P_AU`. assets.py:398-416, translation.py:17-38. -/
def translationOf (au : K) (op : Options K) (o : Orbit K) : Except Err (Val K) :=
  match op.translation with
  | .kepler => .ok (.dict (Fields.of [("type".toList, .str "KeplerTranslation".toList), ("argument_of_periapsis".toList, .num o.ap),
      ("ascending_node".toList, .num o.raan), ("eccentricity".toList, .num o.e), ("epoch".toList, .str o.epoch),
      ("inclination".toList, .num o.i), ("mean_anomaly".toList, .num o.ma), ("period".toList, .num (safePeriod o.period * 86400)),
      ("semi_major_axis".toList, .num (o.a * au))]))
  | .spice =>
    match (op.ids.getD fun _ => .none) o.object with
    | .none => .error (.py .keyError)
    | some target => .ok (.dict (Fields.of [("type".toList, .str "SpiceTranslation".toList),
        ("observer".toList, .str "SOLAR SYSTEM BARYCENTER".toList), ("target".toList, target), ("fixed_date".toList, .none),
        ("frame".toList, .none)]))
  | .other => .error .unbound

/-- `Gui`. assets.py:43-45, 388-396. -/
def gui (name path : Str) : Val K := .dict (Fields.of [("name".toList, .str name), ("path".toList, .str path)])

/-- The asset of the trail. The attributes that `Renderable` has of its own are never given. assets.py:388-438. -/
def trailAsset (op : Options K) (o : Orbit K) (translation : Val K) : Val K :=
  let path := op.guiPath.getD "/ADAM".toList
  .dict (Fields.of [("identifier".toList, .str (safe o.object)), ("parent".toList, .str "SunEclipJ2000".toList),
    ("gui".toList, if op.head then gui (o.object ++ " Trail".toList) (path ++ '/' :: o.object) else gui o.object path),
    ("renderable".toList, .dict (Fields.of [("type".toList, .str "RenderableTrailOrbit".toList), ("dim_in_atmosphere".toList, .none),
      ("enabled".toList, .none), ("opacity".toList, .none), ("render_bin_mode".toList, .none), ("tag".toList, .none),
      ("color".toList, .tuple op.color), ("period".toList, .num (op.period.getD (safePeriod o.period))),
      ("resolution".toList, .num op.resolution), ("translation".toList, translation), ("enable_fade".toList, opt .bool op.enableFade),
      ("line_fade_amount".toList, opt .num op.lineFadeAmount), ("line_length".toList, opt .num op.lineLength),
      ("line_width".toList, opt .num op.lineWidth), ("point_size".toList, opt .num op.pointSize),
      ("rendering".toList, opt .enum op.rendering)])), ("transform".toList, .none)])

/-- The asset of the head. assets.py:449-456. -/
def headAsset (op : Options K) (o : Orbit K) (translation : Val K) : Val K :=
  let path := op.guiPath.getD "/ADAM".toList
  .dict (Fields.of [("identifier".toList, .str (safe o.object ++ "_Head".toList)), ("parent".toList, .str "SunEclipJ2000".toList),
    ("gui".toList, gui (o.object ++ " Head".toList) (path ++ '/' :: o.object)), ("renderable".toList, .none),
    ("transform".toList, .dict (Fields.of [("translation".toList, translation)]))])

/-- `f"Object{n:08d}"`. assets.py:440, 457. -/
def localName (n : Nat) : Str := "Object".toList ++ zfill 8 (dec n)

/-- The declarations written for orbits, from number `n` on, and the exception that ended the loop. assets.py:379-463. -/
def declare (au : K) (op : Options K) : Nat → List (Orbit K) → List (Str × Val K) × Option Err
  | _, [] => ([], .none)
  | n, o :: l =>
    match translationOf au op o with
    | .error e => ([], some e)
    | .ok t =>
      let own := (localName n, trailAsset op o t) :: if op.head then [(localName (n + 1), headAsset op o t)] else []
      let rest := declare au op (n + own.length) l
      (own ++ rest.1, rest.2)

/-- The text of declarations. assets.py:444-446, 461-463. -/
def declText (shw : K → Str) (decls : List (Str × Val K)) : Str :=
  decls.flatMap fun p => "local ".toList ++ p.1 ++ " = ".toList ++ text shw 4 p.2 ++ ['\n', '\n']

/-- `create_initialization`. assets.py:93-105. -/
def initText (assets : List Str) : Str :=
  let lines (start call : Str) : List Str := start :: assets.map (fun a => "  openspace.".toList ++ call ++ '(' :: a ++ ");".toList) ++ ["end)".toList]
  let unlines (l : List Str) : Str := List.intercalate ['\n'] l
  unlines (lines "asset.onInitialize(function ()".toList "addSceneGraphNode".toList) ++ '\n' ::
    unlines (lines "asset.onDeinitialize(function ()".toList "removeSceneGraphNode".toList)

/-- `create_renderable_trail_orbit`: what is left in the asset file, `none` if it is not touched, and the result. `rel` is
`os.path.relpath`; `kernel` the statements about the kernel. assets.py:259-480. -/
def trail (shw : K → Str) (au : K) (kernel : Str → Str) (op : Options K) (orbits : List (Orbit K)) : Option Str × Except Err Unit :=
  if (op.rendering.any fun r => decide (r ∉ trailRenderings)) = true then (.none, .error (.py .valueError))
  else if (op.renderBinMode.any fun r => decide (r ∉ renderBinModes)) = true then (.none, .error (.py .valueError))
  else if op.translation = .spice ∧ (op.kernelPath = .none ∨ op.ids.isNone) then (.none, .error (.py .valueError))
  else
    match declare au op 0 orbits with
    | (decls, some e) => (some (declText shw decls), .error e)
    | (decls, .none) =>
      (some (declText shw decls ++ initText (decls.map Prod.fst) ++
        if op.translation = .spice then kernel (op.kernelPath.getD []) else []), .ok ())

/-! ## Epochs of the SBDB file -/

/-- The day and the fraction written for an epoch: `iso` rounds to milliseconds, which may carry into the next day; the fraction is what
`f"{mjd}"` has after its point, without exponent. assets.py:67-73. -/
def sbdbEpoch (mjd : ℚ) : ℤ × ℚ := (⌊(round (mjd * 86400000) : ℚ) / 86400000⌋, Int.fract |mjd|)

end Verif.Openspace
