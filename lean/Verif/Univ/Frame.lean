import Verif.Univ.Model

/-! # The frame of a two-body propagation (dynamics/propagation.py)

Only what matters for the frame is modelled: a table has one frame for all of its rows. -/

namespace Verif.Univ

/-- The two inertial frames of Cartesian coordinates. cartesian.py:59. Other names of frames, which the constructor allows, are left out. -/
inductive Frame
  | ecliptic | equatorial
  deriving DecidableEq

/-- A table of orbits: states with their epochs and gravitational parameters, and the frame of the table. orbits.py:19-24. -/
structure Orbits where
  frame : Frame
  rows : List ((V3 × V3) × ℝ × ℝ)

/-- The states of `propagate_2body` with the frame written into the result: the kernel is applied to the values of the table in the frame
they are in, and the result is called ecliptic. propagation.py:146-149, 195-197, 246-263. -/
noncomputable def propagateTable (o : Orbits) (times : List ℝ) (maxIter : Nat) (tol : ℝ) : Orbits :=
  ⟨.ecliptic, o.rows.flatMap fun r => times.map fun t => (propagate r.2.2 r.1 r.2.1 t maxIter tol, t, r.2.2)⟩

end Verif.Univ
