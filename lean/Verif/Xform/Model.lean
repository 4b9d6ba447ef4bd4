import Verif.Basic
import Verif.Sched.Model
import Mathlib.Analysis.SpecialFunctions.Trigonometric.Basic
import Mathlib.LinearAlgebra.Matrix.Notation
import Mathlib.LinearAlgebra.Matrix.NonsingularInverse

/-! # Changing representation, frame and origin (coordinates/transform.py, coordinates/cartesian.py)

A table of coordinates is a list of rows. Arithmetic is exact; a missing value or NaN is `none`. The maps between a
representation and Cartesian coordinates, their Jacobians, the state vectors of origins and the matrices of SPICE are arbitrary
functions of one row: that these are computed row by row is the subject of C19, C22 and C29. The translation cache is
modelled in `Verif.Spice`. -/

namespace Verif.Xform

open Verif Sched Matrix Classical

/-- Used for origin.py:14-33. -/
abbrev Str := List Char

/-- Six values. Used for cartesian.py:293-298. -/
abbrev Vals := Fin 6 → Option ℝ

/-- A 6x6 matrix with missing entries. Used for cartesian.py:300-328, 22. -/
abbrev Cov := Fin 6 → Fin 6 → Option ℝ

/-- The classes of coordinates. transform.py:84-90. -/
inductive Kind
  | cartesian | keplerian | cometary | spherical | geodetic
  deriving DecidableEq

/-- Used for cartesian.py:370-390. -/
structure Row (τ : Type) where
  vals : Vals
  cov : Cov
  time : τ
  origin : Str

/-- Used for cartesian.py:272-342. -/
structure Coords (τ : Type) where
  kind : Kind
  frame : Str
  rows : List (Row τ)

/-- `OriginCodes.__members__`. origin.py:14-33. -/
def codes : List Str :=
  ["SOLAR_SYSTEM_BARYCENTER".toList, "MERCURY_BARYCENTER".toList, "VENUS_BARYCENTER".toList, "EARTH_MOON_BARYCENTER".toList,
   "MARS_BARYCENTER".toList, "JUPITER_BARYCENTER".toList, "SATURN_BARYCENTER".toList, "URANUS_BARYCENTER".toList,
   "NEPTUNE_BARYCENTER".toList, "SUN".toList, "MERCURY".toList, "VENUS".toList, "EARTH".toList, "MOON".toList, "MARS".toList,
   "JUPITER".toList, "SATURN".toList, "URANUS".toList, "NEPTUNE".toList]

/-- The codes that have a gravitational parameter. origin.py:43-58, 155-160. -/
def massive : List Str :=
  ["SOLAR_SYSTEM_BARYCENTER".toList, "MERCURY_BARYCENTER".toList, "VENUS_BARYCENTER".toList, "MARS_BARYCENTER".toList,
   "JUPITER_BARYCENTER".toList, "SATURN_BARYCENTER".toList, "URANUS_BARYCENTER".toList, "NEPTUNE_BARYCENTER".toList,
   "PLUTO_BARYCENTER".toList, "SUN".toList, "MERCURY".toList, "VENUS".toList, "EARTH".toList, "MOON".toList]

/-- What the transformations use. Used for constants.py:31-38. -/
structure World (τ : Type) where
  /-- `OriginGravitationalParameters` -/
  mu : Str → ℝ
  /-- `in OBSERVATORY_CODES` -/
  observatory : Str → Bool
  /-- `get_perturber_state` and `get_observer_state`: origin in, frame, time, origin out -/
  state : Str → Str → τ → Str → Except PyErr (Fin 6 → ℝ)
  /-- the map of a representation to Cartesian coordinates, and its Jacobian -/
  toCart : Kind → ℝ → τ → Vals → Vals
  toJac : Kind → ℝ → τ → Vals → Cov
  /-- the map of Cartesian coordinates to a representation, and its Jacobian -/
  fromCart : Kind → ℝ → τ → Vals → Vals
  fromJac : Kind → ℝ → τ → Vals → Cov
  /-- `spiceypy.sxform`: frame in, frame out, time -/
  sxform : Str → Str → τ → Matrix (Fin 6) (Fin 6) ℝ
  kmPerAu : ℝ
  secondsPerDay : ℝ
  obliquity : ℝ
  /-- whether `bool()` of a pyarrow boolean scalar is its value (a null is then false); in older versions, which the project
  allows, every scalar is true -/
  scalarTruth : Bool

variable {τ : Type}

/-! ### rotation and translation -/

/-- `c.TRANSFORM_EQ2EC` in the two diagonal blocks. constants.py:31-38, transform.py:29-31. -/
noncomputable def eq2ec (w : World τ) : Matrix (Fin 6) (Fin 6) ℝ :=
  !![1, 0, 0, 0, 0, 0;
     0, Real.cos w.obliquity, Real.sin w.obliquity, 0, 0, 0;
     0, -Real.sin w.obliquity, Real.cos w.obliquity, 0, 0, 0;
     0, 0, 0, 1, 0, 0;
     0, 0, 0, 0, Real.cos w.obliquity, Real.sin w.obliquity;
     0, 0, 0, 0, -Real.sin w.obliquity, Real.cos w.obliquity]

/-- `TRANSFORM_EQ2EC.T`. transform.py:32. -/
noncomputable def ec2eq (w : World τ) : Matrix (Fin 6) (Fin 6) ℝ := (eq2ec w)ᵀ

/-- `np.ma.dot(values, R.T, strict=False)` on a row: missing values count as zero, and the result is missing only if all are.
cartesian.py:293-298. -/
noncomputable def rotateVals (R : Matrix (Fin 6) (Fin 6) ℝ) (v : Vals) : Vals := fun k =>
  if ∀ j, v j = none then none else some (∑ j, R k j * (v j).getD 0)

/-- The rotated covariance: missing entries count as zero and are missing again afterwards; entries below 1e-25 become zero.
cartesian.py:300-328, 22. -/
noncomputable def rotateCov (R : Matrix (Fin 6) (Fin 6) ℝ) (c : Cov) : Cov := fun i j =>
  match c i j with
  | none => none
  | some _ =>
    let x := (R * (Matrix.of fun k l => (c k l).getD 0) * Rᵀ) i j
    some (if |x| < 1e-25 then 0 else x)

/-- `CartesianCoordinates.rotate`. cartesian.py:272-342. -/
noncomputable def rotate (R : Matrix (Fin 6) (Fin 6) ℝ) (frame : Str) (c : Coords τ) : Coords τ :=
  ⟨c.kind, frame, c.rows.map fun r => { r with vals := rotateVals R r.vals, cov := rotateCov R r.cov }⟩

/-- `translate` on a row. cartesian.py:370-390. -/
noncomputable def translateRow (x : Fin 6 → ℝ) (out : Str) (r : Row τ) : Row τ :=
  { r with vals := fun i => (r.vals i).map (· + x i), origin := out }

/-- `vectors[mask] = ...` for the rows of one origin. transform.py:1555-1612. Errors of the state vectors are those of the first
row that has one. -/
def originVectors (w : World τ) (frame out o : Str) (rows : List (Nat × Row τ)) : Except PyErr (List (Nat × (Fin 6 → ℝ))) :=
  if o ∈ codes ∨ w.observatory o = true then
    gather (fun r : Nat × Row τ =>
      match w.state o frame r.2.time out with
      | .ok x => .ok (r.1, x)
      | .error e => .error e) (rows.filter fun r => decide (r.2.origin = o))
  else .error .valueError

/-- `cartesian_to_origin`. transform.py:1525-1614. -/
noncomputable def cartesianToOrigin (w : World τ) (out : Str) (c : Coords τ) : Except PyErr (Coords τ) :=
  let indexed := c.rows.zipIdx.map fun p => (p.2, p.1)
  match gather (fun o => originVectors w c.frame out o indexed) (uniq (c.rows.map Row.origin)) with
  | .error e => .error e
  | .ok vs =>
    .ok ⟨c.kind, c.frame, indexed.map fun r =>
      match vs.flatten.lookup r.1 with
      | some x => translateRow x out r.2
      | none => r.2⟩

/-- The frames of SPICE. transform.py:1651-1669. -/
def spiceFrame (f : Str) : Option Str :=
  if f = "itrf93".toList then some "ITRF93".toList
  else if f = "ecliptic".toList then some "ECLIPJ2000".toList
  else if f = "equatorial".toList then some "J2000".toList
  else none

/-- The matrix of SPICE, for km and km/s, turned to one for au and au/d. transform.py:1698-1711. -/
noncomputable def auMatrix (w : World τ) (M : Matrix (Fin 6) (Fin 6) ℝ) : Matrix (Fin 6) (Fin 6) ℝ :=
  let d : Fin 6 → ℝ := fun i => if i.val < 3 then w.kmPerAu else w.kmPerAu / w.secondsPerDay
  (Matrix.diagonal d)⁻¹ * M * Matrix.diagonal d

/-- `apply_time_varying_rotation`: rows in groups of equal times, put back into the order of their indices.
transform.py:1617-1719. -/
noncomputable def timeVarying (w : World τ) (out : Str) (c : Coords τ) : Except PyErr (Coords τ) :=
  if (uniq (c.rows.map Row.origin)).length ≠ 1 then .error .assertionError
  else
    match spiceFrame out with
    | none => .error .valueError
    | some fo =>
      match spiceFrame c.frame with
      | none => .error .valueError
      | some fi =>
        let indexed := c.rows.zipIdx.map fun p => (p.2, p.1)
        let groups := (uniq (c.rows.map Row.time)).map fun t =>
          let mine := indexed.filter fun r => decide (r.2.time = t)
          (mine.map Prod.fst).zip (rotate (auMatrix w (w.sxform fi fo t)) out ⟨c.kind, c.frame, mine.map Prod.snd⟩).rows
        .ok ⟨c.kind, out, (sortBy Prod.fst groups.flatten).map Prod.snd⟩

/-- `cartesian_to_frame`. transform.py:1722-1752. -/
noncomputable def cartesianToFrame (w : World τ) (out : Str) (c : Coords τ) : Except PyErr (Coords τ) :=
  if out = "ecliptic".toList ∧ c.frame = "equatorial".toList then .ok (rotate (eq2ec w) "ecliptic".toList c)
  else if out = "equatorial".toList ∧ c.frame = "ecliptic".toList then .ok (rotate (ec2eq w) "equatorial".toList c)
  else if out = "itrf93".toList ∧ c.frame ≠ "itrf93".toList then timeVarying w out c
  else if out ≠ "itrf93".toList ∧ c.frame = "itrf93".toList then timeVarying w out c
  else if out = c.frame then .ok c
  else .error .valueError

/-! ### representations -/

/-- Sum with NaN. Used for covariances.py:476-478. -/
noncomputable def sumO (f : Fin 6 → Option ℝ) : Option ℝ :=
  if ∀ i, (f i).isSome then some (∑ i, (f i).getD 0) else none

/-- Product with NaN. Used for covariances.py:476-478. -/
noncomputable def mulO : Option ℝ → Option ℝ → Option ℝ
  | some a, some b => some (a * b)
  | _, _ => none

/-- Matrix product with NaN. Used for covariances.py:476-478. -/
noncomputable def matO (a b : Cov) : Cov := fun i j => sumO fun k => mulO (a i k) (b k j)

/-- `jacobian @ covariances @ jacobian.T`. covariances.py:476-478. -/
noncomputable def propagate (J c : Cov) : Cov := matO (matO J c) fun i j => J j i

/-- `self.covariance.is_all_nan()`. covariances.py:171-180. -/
def allNan (rows : List (Row τ)) : Bool := rows.all fun r => decide (∀ i j, r.cov i j = none)

/-- A conversion of a table, with the covariances by the Jacobian unless all are missing: keplerian.py:202-248, 250-294,
cometary.py:204-260, 262-317, spherical.py:136-166, 168-202, geodetics.py:120-161. Keplerian and cometary coordinates need the
gravitational parameters of their origins: origin.py:134-163. -/
noncomputable def convert (w : World τ) (k : Kind) (f : Kind → ℝ → τ → Vals → Vals) (jac : Kind → ℝ → τ → Vals → Cov)
    (kind : Kind) (c : Coords τ) : Except PyErr (Coords τ) :=
  if (k = .keplerian ∨ k = .cometary) ∧ (c.rows.any fun r => !decide (r.origin ∈ massive)) = true then .error .valueError
  else .ok ⟨kind, c.frame, c.rows.map fun r =>
    { r with
      vals := f k (w.mu r.origin) r.time r.vals
      cov := if allNan c.rows then fun _ _ => none else propagate (jac k (w.mu r.origin) r.time r.vals) r.cov }⟩

/-- The rows that `keplerian_to_cartesian` rejects: a hyperbola with a positive semi-major axis or an ellipse with a negative one.
A comparison with a missing value is false. transform.py:1229-1243. -/
def invalidElements (v : Vals) : Prop :=
  match v 0, v 1 with
  | some a, some e => (e > 1 + 1e-15 ∧ a > 0) ∨ (e < 1 - 1e-15 ∧ a < 0)
  | _, _ => False

/-- `to_cartesian`; geodetic coordinates have no such method. Keplerian and cometary tables are converted in chunks that are
concatenated at the end, which is a ValueError when there is none (transform.py:1260, 1519). Used for transform.py:1840-1858. -/
noncomputable def toCartesian (w : World τ) (c : Coords τ) : Except PyErr (Coords τ) :=
  if c.kind = .geodetic then .error .attributeError
  else if (c.kind = .keplerian ∨ c.kind = .cometary) ∧ c.rows = [] then .error .valueError
  else if c.kind = .keplerian ∧ ∃ r ∈ c.rows, invalidElements r.vals then .error .valueError
  else convert w c.kind w.toCart w.toJac .cartesian c

/-- `bool(pc.all(pc.equal(origin.code, "EARTH")))`; the `pc.all` of nothing is null. geodetics.py:129-131. -/
def earthTruth (w : World τ) (rows : List (Row τ)) : Bool :=
  !w.scalarTruth || (!rows.isEmpty && rows.all fun r => decide (r.origin = "EARTH".toList))

/-- `from_cartesian`. For geodetic coordinates the Jacobian is asked for without the axis and the flattening of the Earth, which
the function needs: a table with any covariance is a TypeError. geodetics.py:120-142. Keplerian coordinates are computed in chunks
that are concatenated at the end, which is a ValueError when there is none: transform.py:857. -/
noncomputable def fromCartesian (w : World τ) (k : Kind) (c : Coords τ) : Except PyErr (Coords τ) :=
  if k = .geodetic ∧ (c.frame ≠ "itrf93".toList ∨ earthTruth w c.rows = false) then .error .assertionError
  else if k = .geodetic ∧ allNan c.rows = false then .error .typeError
  else if k = .keplerian ∧ c.rows = [] then .error .valueError
  else convert w k w.fromCart w.fromJac k c

/-! ### transform_coordinates -/

/-- The first argument. Used for transform.py:1755-1858. -/
inductive Arg (τ : Type)
  | coords (c : Coords τ)
  | other

/-- `representation_out`, if given. Used for transform.py:1755-1858. -/
inductive Rep
  | kind (k : Kind)
  | other

/-- `origin_out`, if given: a member of `OriginCodes` (by its name), or something else. Used for transform.py:1755-1858. -/
inductive OArg
  | code (name : Str)
  | other

/-- The shortcut at lines 1836-1838. `coord_origin` is an array of strings; compared with a member of the enum `OriginCodes`
every element is unequal, so with an explicit origin it is only taken for an empty table. transform.py:1817-1838. -/
def shortcut (c : Coords τ) (k : Kind) (frame : Str) (origin : Option Str) : Bool :=
  decide (c.kind = k) && decide (c.frame = frame) &&
    (match origin with
     | none => true
     | some _ => c.rows.isEmpty)

/-- The steps after the checks. transform.py:1840-1858. -/
noncomputable def steps (w : World τ) (c : Coords τ) (k : Kind) (frame : Str) (origin : Option Str) : Except PyErr (Coords τ) :=
  match (if c.kind = .cartesian then Except.ok c else toCartesian w c) with
  | .error e => .error e
  | .ok x =>
    match (match origin with
      | none => Except.ok x
      | some o => if (x.rows.any fun r => !decide (r.origin = o)) = true then cartesianToOrigin w o x else .ok x) with
    | .error e => .error e
    | .ok y =>
      match (if y.frame ≠ frame then cartesianToFrame w frame y else Except.ok y) with
      | .error e => .error e
      | .ok z => if k = .cartesian then .ok z else fromCartesian w k z

/-- `transform_coordinates`. transform.py:1755-1858. -/
noncomputable def transform (w : World τ) (arg : Arg τ) (rep : Option Rep) (frame : Option Str) (origin : Option OArg) :
    Except PyErr (Coords τ) :=
  match arg with
  | .other => .error .typeError
  | .coords c =>
    if (match frame with
        | none => false
        | some f => !decide (f ∈ ["equatorial".toList, "ecliptic".toList, "itrf93".toList])) then .error .valueError
    else
      match origin with
      | some .other => .error .typeError
      | some (.code o) =>
        match rep with
        | some .other => .error .valueError
        | some (.kind k) =>
          if shortcut c k (frame.getD c.frame) (some o) then .ok c else steps w c k (frame.getD c.frame) (some o)
        | none => if shortcut c c.kind (frame.getD c.frame) (some o) then .ok c else steps w c c.kind (frame.getD c.frame) (some o)
      | none =>
        match rep with
        | some .other => .error .valueError
        | some (.kind k) =>
          if shortcut c k (frame.getD c.frame) none then .ok c else steps w c k (frame.getD c.frame) none
        | none => if shortcut c c.kind (frame.getD c.frame) none then .ok c else steps w c c.kind (frame.getD c.frame) none

end Verif.Xform
