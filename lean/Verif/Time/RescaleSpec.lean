import Verif.Time.Spec

/-!
# Specification of time-scale conversion

All conversions go through TAI: UTC - TAI - TT - TDB is a chain, and an instant is an integer number of nanoseconds.
-/

namespace Verif.Time.Spec

open Verif.Time

/-- The TT - TAI offset of 32.184 s. -/
def TT_MINUS_TAI : Int := 32184 * 10 ^ 6

/-- The TAI instant of the instant `i` given in `scale`; `none` for scales outside the chain. -/
def toTai (env : Env) (scale : String) (i : Int) : Option Int :=
  match scale with
  | "utc" => some (i + env.utctai i)
  | "tai" => some i
  | "tt" => some (i - TT_MINUS_TAI)
  | "tdb" => some (i - env.tdb i - TT_MINUS_TAI)
  | _ => none

/-- The instant in `scale` of the TAI instant `i`. -/
def fromTai (env : Env) (scale : String) (i : Int) : Option Int :=
  match scale with
  | "utc" => some (i + env.taiutc i)
  | "tai" => some i
  | "tt" => some (i + TT_MINUS_TAI)
  | "tdb" => some (i + TT_MINUS_TAI + env.tdb (i + TT_MINUS_TAI))
  | _ => none

/-- The scales of the chain. -/
def InChain (s : String) : Prop := s = "utc" ∨ s = "tai" ∨ s = "tt" ∨ s = "tdb"

/-- What is assumed of ERFA and of the TDB series: bounded corrections (leap seconds below 1000 s, TDB below 2 ms);
undoing a leap-second correction; and a TDB correction that moves by at most one nanosecond when evaluated at the
corrected instant. -/
structure Sound (env : Env) : Prop where
  utctai_bound : ∀ i, |env.utctai i| ≤ 1000 * 10 ^ 9
  taiutc_bound : ∀ i, |env.taiutc i| ≤ 1000 * 10 ^ 9
  tdb_bound : ∀ i, |env.tdb i| ≤ 2 * 10 ^ 6
  leap_inverse : ∀ i, env.taiutc (i + env.utctai i) = -env.utctai i
  tdb_stable : ∀ i, |env.tdb (i + env.tdb i) - env.tdb i| ≤ 1
  tdb_stable_neg : ∀ i, |env.tdb (i - env.tdb i) - env.tdb i| ≤ 1

/-- The scales the class documents. -/
def Documented (s : String) : Prop := s = "tai" ∨ s = "tt" ∨ s = "tdb" ∨ s = "utc" ∨ s = "ut1"

end Verif.Time.Spec
