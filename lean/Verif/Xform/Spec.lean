import Verif.Xform.Model
import Verif.V3

/-! # What a transformation should do -/

namespace Verif.Xform.Spec

open Verif Xform Sched Matrix Classical

variable {τ : Type}

/-- A row of six numbers, none missing. -/
def Complete (v : Vals) : Prop := ∀ i, (v i).isSome

/-- A covariance with no missing entry. -/
def CompleteCov (c : Cov) : Prop := ∀ i j, (c i j).isSome

/-- The position of a row. -/
def pos (v : Vals) : V3 := ⟨(v 0).getD 0, (v 1).getD 0, (v 2).getD 0⟩

/-- The velocity of a row. -/
def vel (v : Vals) : V3 := ⟨(v 3).getD 0, (v 4).getD 0, (v 5).getD 0⟩

/-- A covariance without missing entries as a matrix. -/
def mat (c : Cov) : Matrix (Fin 6) (Fin 6) ℝ := Matrix.of fun i j => (c i j).getD 0

/-- The rotation of a vector about the x axis by the obliquity, from the equator to the ecliptic. -/
noncomputable def toEcliptic (ε : ℝ) (a : V3) : V3 :=
  ⟨a.x, Real.cos ε * a.y + Real.sin ε * a.z, -(Real.sin ε * a.y) + Real.cos ε * a.z⟩

/-- The frames of the library. -/
def Frame (f : Str) : Prop := f = "equatorial".toList ∨ f = "ecliptic".toList ∨ f = "itrf93".toList

/-- The frames fixed to the stars. -/
def Inertial (f : Str) : Prop := f = "ecliptic".toList ∨ f = "equatorial".toList

/-- The origin a row will have. -/
def newOrigin (origin : Option Str) (r : Row τ) : Str := origin.getD r.origin

/-- The origin of a row is one the library has states for, and its state relative to another origin is available. -/
def HasState (w : World τ) (frame o : Str) (r : Row τ) : Prop :=
  (r.origin ∈ codes ∨ w.observatory r.origin = true) ∧ ∃ x, w.state r.origin frame r.time o = .ok x

/-- A hyperbola with a positive semi-major axis or an ellipse with a negative one. -/
def Misshapen (v : Vals) : Prop := ∃ a e, v 0 = some a ∧ v 1 = some e ∧ ((1 + 1e-15 < e ∧ 0 < a) ∨ (e < 1 - 1e-15 ∧ a < 0))

/-- Everything that the steps of a transformation need. -/
structure Feasible (w : World τ) (c : Coords τ) (k : Kind) (frame : Str) (origin : Option Str) : Prop where
  /-- there is no way from geodetic to Cartesian coordinates -/
  source : c.kind ≠ .geodetic
  /-- elements need the gravitational parameters of the origins they are relative to -/
  sourceMass : c.kind = .keplerian ∨ c.kind = .cometary → ∀ r ∈ c.rows, r.origin ∈ massive
  /-- if any row has another origin than the requested one, every row needs a state -/
  states : ∀ o, origin = some o → (∃ r ∈ c.rows, r.origin ≠ o) → ∀ r ∈ c.rows, HasState w c.frame o r
  /-- to and from the rotating frame, all rows have a single origin -/
  frames : frame ≠ c.frame → (Inertial frame ∧ Inertial c.frame) ∨
    ((frame = "itrf93".toList ∧ Inertial c.frame ∨ Inertial frame ∧ c.frame = "itrf93".toList) ∧
      c.rows ≠ [] ∧ ∀ r ∈ c.rows, ∀ r' ∈ c.rows, newOrigin origin r = newOrigin origin r')
  targetMass : k = .keplerian ∨ k = .cometary → ∀ r ∈ c.rows, newOrigin origin r ∈ massive
  /-- geodetic coordinates are relative to the rotating Earth; the origin is only checked by newer versions of pyarrow, which then
  reject an empty table too -/
  target : k = .geodetic → frame = "itrf93".toList ∧
    (w.scalarTruth = true → c.rows ≠ [] ∧ ∀ r ∈ c.rows, newOrigin origin r = "EARTH".toList)
  /-- geodetic coordinates cannot be made from a table with covariances: in the Cartesian form none may be present -/
  uncovered : k = .geodetic → ∀ r ∈ c.rows, ∀ i j,
    (if c.kind = .cartesian then r.cov else propagate (w.toJac c.kind (w.mu r.origin) r.time r.vals) r.cov) i j = none
  /-- an empty table of elements cannot be converted to Cartesian coordinates -/
  sourceRows : c.kind = .keplerian ∨ c.kind = .cometary → c.rows ≠ []
  /-- nor can a table with a row whose semi-major axis has the wrong sign for its eccentricity -/
  sourceShape : c.kind = .keplerian → ∀ r ∈ c.rows, ¬ Misshapen r.vals
  /-- an empty table cannot be converted to Keplerian elements; to cometary elements it can -/
  targetRows : k = .keplerian → c.rows ≠ []

/-- The requested class. -/
def wantKind (c : Coords τ) : Option Rep → Option Kind
  | none => some c.kind
  | some (.kind k) => some k
  | some .other => none

/-- The requested origin: `none` is no request. -/
def wantOrigin : Option OArg → Option Str
  | some (.code o) => some o
  | _ => none

/-- The arguments are of known kinds. -/
def Valid (rep : Option Rep) (frame : Option Str) (origin : Option OArg) : Prop :=
  rep ≠ some .other ∧ (∀ f, frame = some f → Frame f) ∧ origin ≠ some .other

end Verif.Xform.Spec
