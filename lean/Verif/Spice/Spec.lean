import Verif.Spice.Model

/-! # What the SPICE functions should return, without caches -/

namespace Verif.Spice.Spec

open Verif Time

variable {Kernel S P : Type} [StateSpace S]

/-- SPICE names of the supported frames. -/
def frameName : String → Option String
  | "ecliptic" => some "ECLIPJ2000"
  | "equatorial" => some "J2000"
  | "itrf93" => some "ITRF93"
  | _ => none

/-- All values, if every one exists. -/
def allSome {α : Type} : List (Option α) → Option (List α)
  | [] => some []
  | none :: _ => none
  | some a :: l => (allSome l).map (a :: ·)

/-- The state of a body at each instant, from the given kernels. -/
def bodyValues (W : World Kernel S P) (K : List Kernel) (target : Int) (frame : String) (origin : Int) (keys : List Int) :
    Option (List S) :=
  (frameName frame).bind fun fs => allSome (keys.map fun k => W.spk K target k fs origin)

/-- The state of a site at one instant: Earth plus the site's offset; the geocentre (code 500) has none; in the rotating
frame with the Earth as origin, the offset alone. -/
def siteValue (W : World Kernel S P) (K : List Kernel) (code : String) (px : P) (frame fs : String) (origin : Int)
    (key : Int) : Option S :=
  if frame = "itrf93" then
    if origin = W.earth then some (W.fixed px) else (W.spk K W.earth key fs origin).map (W.fixed px + ·)
  else (W.spk K W.earth key fs origin).map fun e => if code = "500" then e else e + W.topo K px fs key

/-- The states of a site. -/
def siteValues (W : World Kernel S P) (K : List Kernel) (code : String) (frame : String) (origin : Int)
    (keys : List Int) : Option (List S) :=
  (frameName frame).bind fun fs => match W.parallax code with
    | some (some px) => allSome (keys.map (siteValue W K code px frame fs origin))
    | _ => none

/-- The state of one origin, a body or a site, at one instant. -/
def originValue (W : World Kernel S P) (K : List Kernel) (frame : String) (origin : Int) (name : String) (key : Int) :
    Option S :=
  match W.originCode name with
  | some body => (bodyValues W K body frame origin [key]).bind List.head?
  | none => if W.obsCodes name then (siteValues W K name frame origin [key]).bind List.head? else none

/-- SPICE's geometric states change sign when target and observer are swapped. -/
def Antisymmetric (W : World Kernel S P) : Prop :=
  ∀ K a t f b, W.spk K a t f b = (W.spk K b t f a).map (- ·)

/-- Calls that never change the loaded kernels, apart from the one-time default setup. -/
def Quiet : Op Kernel S → Prop
  | .register _ | .unregister _ | .setup _ _ => False
  | _ => True

/-- The signed 64-bit integer with the residue of `x` modulo 2^64. -/
def int64 (x : Int) : Int := (x + 2 ^ 63) % 2 ^ 64 - 2 ^ 63

/-- No two different instants of the list differ by a multiple of 2^64 ns (584.5 years). -/
def Spread (keys : List Int) : Prop := ∀ a ∈ keys, ∀ b ∈ keys, int64 a = int64 b → a = b

/-- The shortened identity of a list of instants: count, first, last, digest, all of 64-bit integers. -/
def sig (W : World Kernel S P) (keys : List Int) : Nat × Option Int × Option Int × Int :=
  (keys.length, (keys.map int64).head?, (keys.map int64).getLast?, W.digest (keys.map int64))

/-- No two of the instant lists in `D` share count, first, last and 64-bit digest, and no two instants of one list
share their 64-bit integer. -/
def NoCollision (W : World Kernel S P) (D : List Int → Prop) : Prop :=
  (∀ a, D a → Spread a) ∧ ∀ a b, D a → D b → sig W a = sig W b → a = b

/-- The instant lists that a call looks up are in `D`; the columns of a table have the same length. -/
def Uses (W : World Kernel S P) (D : List Int → Prop) : Op Kernel S → Prop
  | .observer _ ts _ _ => ∀ ks, ts.key W.env = .ok ks → D ks
  | .translate cs ts vs _ _ => cs.length = ts.rows.length ∧ vs.length = ts.rows.length ∧ ∀ o ∈ cs, ∀ ks,
      TS.key W.env ⟨ts.scale, applyMask ts.rows (cs.map fun c => decide (c = o))⟩ = .ok ks → D ks
  | _ => True

/-- A process whose caches are empty, whatever kernels it has loaded. -/
def Blank (p : Proc Kernel S) : Prop := p.spkCache = [] ∧ p.obsCache = [] ∧ p.transCache = []

end Verif.Spice.Spec
