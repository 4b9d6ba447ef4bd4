import Verif.Sched.Model
import Mathlib.Algebra.Order.Field.Rat
import Mathlib.Algebra.BigOperators.Group.List.Basic

/-! # Model of `src/adam_core/coordinates/origin.py`

Exact arithmetic in ℚ; codes are strings and never null. -/

namespace Verif.Origin

open Verif Sched

/-- `OriginCodes`: names and values. origin.py:14-33. -/
def originCodes : List (String × Nat) :=
  [("SOLAR_SYSTEM_BARYCENTER", 0), ("MERCURY_BARYCENTER", 1), ("VENUS_BARYCENTER", 2), ("EARTH_MOON_BARYCENTER", 3),
    ("MARS_BARYCENTER", 4), ("JUPITER_BARYCENTER", 5), ("SATURN_BARYCENTER", 6), ("URANUS_BARYCENTER", 7), ("NEPTUNE_BARYCENTER", 8),
    ("SUN", 10), ("MERCURY", 199), ("VENUS", 299), ("EARTH", 399), ("MOON", 301), ("MARS", 499), ("JUPITER", 599), ("SATURN", 699),
    ("URANUS", 799), ("NEPTUNE", 899)]

/-- `_convert_mu_units`. origin.py:36-40, constants.py:11-13. -/
def convertMu (x : ℚ) : ℚ := x / (1495978707 / 10) ^ 3 * 86400 ^ 2

/-- The members of `OriginGravitationalParameters`, aliases included. origin.py:43-57. -/
def members : List (String × ℚ) :=
  [("MERCURY_BARYCENTER", convertMu 22032.080486418), ("VENUS_BARYCENTER", convertMu 324858.592000),
    ("MARS_BARYCENTER", convertMu 42828.375816), ("JUPITER_BARYCENTER", convertMu 126712764.100000),
    ("SATURN_BARYCENTER", convertMu 37940584.841800), ("URANUS_BARYCENTER", convertMu 5794556.400000),
    ("NEPTUNE_BARYCENTER", convertMu 6836527.100580), ("PLUTO_BARYCENTER", convertMu 975.500000), ("SUN", convertMu 132712440041.279419),
    ("MERCURY", convertMu 22031.868551), ("VENUS", convertMu 324858.592000), ("EARTH", convertMu 398600.435507),
    ("MOON", convertMu 4902.800118)]

/-- `OriginGravitationalParameters.SOLAR_SYSTEM_BARYCENTER()`. origin.py:59-89. -/
def barycenter : ℚ :=
  (["SUN", "MERCURY_BARYCENTER", "VENUS_BARYCENTER", "EARTH", "MOON", "MARS_BARYCENTER", "JUPITER_BARYCENTER", "SATURN_BARYCENTER",
    "URANUS_BARYCENTER", "NEPTUNE_BARYCENTER", "PLUTO_BARYCENTER"].map fun b => (members.lookup b).getD 0).sum

/-- The parameter of one code. origin.py:152-157. -/
def muOf (code : String) : Except PyErr ℚ :=
  if code = "SOLAR_SYSTEM_BARYCENTER" then .ok barycenter
  else match members.lookup code with
    | some x => .ok x
    | none => .error .valueError

/-- `mu[mask] = x`. origin.py:151-155. -/
def assign (codes : List String) (code : String) (x : ℚ) (out : List (Option ℚ)) : List (Option ℚ) :=
  List.zipWith (fun c o => if c = code then some x else o) codes out

/-- The loop of `mu` over the distinct codes; an entry that has not been set yet is `none`. origin.py:148-157. -/
def fill (codes : List String) : List String → List (Option ℚ) → Except PyErr (List (Option ℚ))
  | [], out => .ok out
  | code :: rest, out =>
    match muOf code with
    | .error e => .error e
    | .ok x => fill codes rest (assign codes code x out)

/-- `Origin.mu`. origin.py:134-159. -/
def mu (codes : List String) : Except PyErr (List (Option ℚ)) := fill codes (uniq codes) (codes.map fun _ => none)

/-- `Origin.as_OriginCodes`: the value of the member. origin.py:103-115. -/
def asOriginCodes (codes : List String) : Except PyErr Nat :=
  match uniq codes with
  | [c] =>
    match originCodes.lookup c with
    | some v => .ok v
    | none => .error .keyError
  | _ => .error .assertionError

/-- `Origin.from_OriginCodes`: the codes of the rows. origin.py:97-101. -/
def fromOriginCodes (name : String) (size : Nat) : List String := List.replicate size name

/-- What an origin is compared with. origin.py:117-129. -/
inductive Other
  | str (s : String)
  | array (l : List String)
  | code (name : String)
  | origin (codes : List String)
  | other

/-- `==` of two arrays: equal lengths, or one of them has one entry. Used for origin.py:118-127. -/
def arrayEq (a b : List String) : Except PyErr (List Bool) :=
  if a.length = b.length then .ok (List.zipWith (fun x y => decide (x = y)) a b)
  else match a, b with
    | a, [y] => .ok (a.map fun x => decide (x = y))
    | [x], b => .ok (b.map fun y => decide (x = y))
    | _, _ => .error .valueError

/-- `Origin.__eq__`. origin.py:117-129. -/
def eq (codes : List String) : Other → Except PyErr (List Bool)
  | .str s => .ok (codes.map fun c => decide (c = s))
  | .array l => arrayEq codes l
  | .code n => .ok (codes.map fun c => decide (c = n))
  | .origin l => arrayEq codes l
  | .other => .error .typeError

/-- `Origin.__ne__`. origin.py:131-132. -/
def ne (codes : List String) (o : Other) : Except PyErr (List Bool) :=
  match eq codes o with
  | .ok l => .ok (l.map not)
  | .error e => .error e

end Verif.Origin
