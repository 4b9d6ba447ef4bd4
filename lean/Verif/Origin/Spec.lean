import Mathlib.Algebra.Order.Field.Rat

/-! # Specification of gravitational parameters -/

namespace Verif.Origin.Spec

/-- The gravitational parameter of a body in km³/s², as published. -/
def gravity : String → Option ℚ
  | "SUN" => some 132712440041.279419
  | "MERCURY" => some 22031.868551
  | "MERCURY_BARYCENTER" => some 22032.080486418
  | "VENUS" => some 324858.592
  | "VENUS_BARYCENTER" => some 324858.592
  | "EARTH" => some 398600.435507
  | "MOON" => some 4902.800118
  | "MARS_BARYCENTER" => some 42828.375816
  | "JUPITER_BARYCENTER" => some 126712764.1
  | "SATURN_BARYCENTER" => some 37940584.8418
  | "URANUS_BARYCENTER" => some 5794556.4
  | "NEPTUNE_BARYCENTER" => some 6836527.10058
  | "PLUTO_BARYCENTER" => some 975.5
  | "SOLAR_SYSTEM_BARYCENTER" => some 132890518671.505726418
  | _ => none

/-- Kilometres in an astronomical unit. -/
def au : ℚ := 149597870.7

/-- Seconds in a day. -/
def day : ℚ := 86400

/-- `x` in au³/day² is `y` in km³/s². -/
def Same (x y : ℚ) : Prop := x * (au ^ 3 / day ^ 2) = y

end Verif.Origin.Spec
