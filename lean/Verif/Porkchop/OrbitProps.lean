import Verif.Porkchop.Orbits
import Verif.Porkchop.Props
import Verif.Univ.FrameProps
import Verif.Sph.Props
import Verif.Mpc.Lemmas

/-! # Orbits and departure directions of Lambert solutions: the properties -/

namespace Verif.Porkchop.OrbitProps

open Classical Verif Verif.Univ Porkchop Verif.Univ.Props Porkchop.Props

theorem dec_inj {m n : Nat} (h : Mpc.dec m = Mpc.dec n) : m = n := by
  have := congrArg (fun s => Nat.ofDigitChars 10 (Mpc.zfill 8 s) 0) h
  simpa only [Mpc.ofDigits_zfill_dec] using this

/-- Row by row, the orbits of a table: the bodies as they were given, and the transfer at departure and at arrival, at the positions and
times of the bodies. Orbit ids of the transfers are distinct, and the two tables have none in common. -/
theorem C163_rows (S : Solutions) :
    (∀ (i : Nat) (s : Solution), S.rows[i]? = some s → ∃ d a p q,
      (departureBodyOrbit S)[i]? = some d ∧ (arrivalBodyOrbit S)[i]? = some a ∧
      (solutionDepartureOrbit S)[i]? = some p ∧ (solutionArrivalOrbit S)[i]? = some q ∧
      d.id = s.dep.id.toList ∧ a.id = s.arr.id.toList ∧
      (d.days, d.nanos) = (s.dep.days, s.dep.nanos) ∧ (p.days, p.nanos) = (s.dep.days, s.dep.nanos) ∧
      (a.days, a.nanos) = (s.arr.days, s.arr.nanos) ∧ (q.days, q.nanos) = (s.arr.days, s.arr.nanos) ∧
      d.r = s.dep.r ∧ p.r = d.r ∧ a.r = s.arr.r ∧ q.r = a.r ∧ d.v = some s.dep.v ∧ a.v = some s.arr.v ∧
      (∀ x ∈ [d, a, p, q], x.origin = s.origin ∧ x.frame = S.frame) ∧
      (s.v = none → p.v = none ∧ q.v = none) ∧
      ∀ v w, s.v = some (v, w) → p.v = some v ∧ q.v = some w ∧
        c3 s = some (V3.dot (V3.sub v s.dep.v) (V3.sub v s.dep.v), V3.dot (V3.sub w s.arr.v) (V3.sub w s.arr.v))) ∧
    (departureBodyOrbit S).length = S.rows.length ∧ (arrivalBodyOrbit S).length = S.rows.length ∧
    (solutionDepartureOrbit S).length = S.rows.length ∧ (solutionArrivalOrbit S).length = S.rows.length ∧
    ((solutionDepartureOrbit S ++ solutionArrivalOrbit S).map OrbitRow.id).Nodup := by
  refine ⟨?_, by simp [departureBodyOrbit], by simp [arrivalBodyOrbit], by simp [solutionDepartureOrbit], by simp [solutionArrivalOrbit], ?_⟩
  · intro i s hs
    unfold departureBodyOrbit arrivalBodyOrbit solutionDepartureOrbit solutionArrivalOrbit
    rw [List.getElem?_map, List.getElem?_map, List.getElem?_mapIdx, List.getElem?_mapIdx, hs]
    refine ⟨_, _, _, _, rfl, rfl, rfl, rfl, rfl, rfl, rfl, rfl, rfl, rfl, rfl, rfl, rfl, rfl, rfl, rfl, ?_, ?_, ?_⟩
    · intro x hx
      simp only [List.mem_cons, List.not_mem_nil, or_false] at hx
      rcases hx with rfl | rfl | rfl | rfl <;> exact ⟨rfl, rfl⟩
    · intro h
      simp only [h]
      exact ⟨rfl, rfl⟩
    · intro v w h
      unfold c3
      simp only [h]
      refine ⟨rfl, rfl, ?_⟩
      simp only [Option.map_some, V3.norm_sq]
  · rw [List.map_append, List.nodup_append']
    have h1 : (solutionDepartureOrbit S).map OrbitRow.id =
        (List.range S.rows.length).map fun i => "solution_departure_orbit_".toList ++ Mpc.dec i := by
      unfold solutionDepartureOrbit
      apply List.ext_getElem?
      intro i
      simp only [List.getElem?_map, List.getElem?_mapIdx]
      rcases lt_or_ge i S.rows.length with h | h
      · rw [List.getElem?_eq_getElem h, List.getElem?_range h]
        simp
      · rw [List.getElem?_eq_none h, List.getElem?_eq_none (by simpa using h)]
        rfl
    have h2 : (solutionArrivalOrbit S).map OrbitRow.id =
        (List.range S.rows.length).map fun i => "solution_arrival_orbit_".toList ++ Mpc.dec i := by
      unfold solutionArrivalOrbit
      apply List.ext_getElem?
      intro i
      simp only [List.getElem?_map, List.getElem?_mapIdx]
      rcases lt_or_ge i S.rows.length with h | h
      · rw [List.getElem?_eq_getElem h, List.getElem?_range h]
        simp
      · rw [List.getElem?_eq_none h, List.getElem?_eq_none (by simpa using h)]
        rfl
    rw [h1, h2]
    refine ⟨?_, ?_, ?_⟩
    · exact List.Nodup.map (fun a b hab => dec_inj (List.append_cancel_left hab)) List.nodup_range
    · exact List.Nodup.map (fun a b hab => dec_inj (List.append_cancel_left hab)) List.nodup_range
    · intro x hx hy
      obtain ⟨i, -, rfl⟩ := List.mem_map.mp hx
      obtain ⟨j, -, e⟩ := List.mem_map.mp hy
      have := congrArg (fun l : List Char => l[9]?) e
      rw [List.getElem?_append_left (by decide), List.getElem?_append_left (by decide)] at this
      revert this
      decide

/-- The transfer flies: a two-body motion about the propagation origin that is in the state of the solution departure orbit is, after a
positive time, in the state of the solution arrival orbit. That time is the time between the two rows, up to the residual of the equation
solved for. -/
theorem C163_flight {P : Params} {mu : ℝ} (hP : P.mu = some mu) (hmu : 0 < mu) {pick : Nat → Nat} {maxProc : Option Nat} {dep arr : Bodies}
    {S : Solutions} (h : generate P pick maxProc dep arr = .ok S) {i : Nat} {p q : OrbitRow}
    (hp : (solutionDepartureOrbit S)[i]? = some p) (hq : (solutionArrivalOrbit S)[i]? = some q) (hc : V3.cross p.r q.r ≠ ⟨0, 0, 0⟩) :
    ∃ v w, p.v = some v ∧ q.v = some w ∧
      let tof : ℝ := (q.days - p.days) + (q.nanos - p.nanos) / 86400000000000
      let g := Lambert.geometry p.r q.r P.prograde; let T := √(2 * mu / g.s ^ 3) * tof
      let x := Lambert.householder (Lambert.initialGuess T g.ll 0 true) T g.ll 0 P.tol P.tol P.maxIter
      0 < tof ∧ ((-1 : ℝ) < x → ∃ t : ℝ, 0 < t ∧
        |t - tof| ≤ √(g.s ^ 3 / (2 * mu)) * (|Lambert.tofEquation x T g.ll 0| + 1 / 10 ^ 30) ∧
        ∀ (r u : ℝ → E3) (t0 : ℝ), IsMotion mu r u → r t0 = p.r.toE → u t0 = v.toE → r (t0 + t) = q.r.toE ∧ u (t0 + t) = w.toE) := by
  obtain ⟨hrows, -⟩ := C163_rows S
  have hi : i < S.rows.length := by
    have := (List.getElem?_eq_some_iff.mp hp).1
    simpa [solutionDepartureOrbit] using this
  obtain ⟨d, a, p', q', -, -, hp', hq', -, -, -, tp, -, tq, rd, rp, ra, rq, -, -, -, -, hv⟩ :=
    hrows i S.rows[i] (List.getElem?_eq_getElem hi)
  rw [hp] at hp'; rw [hq] at hq'
  cases hp'; cases hq'
  have hmem : S.rows[i] ∈ S.rows := List.getElem_mem hi
  generalize S.rows[i] = s at *
  rw [rp, rd, rq, ra] at hc
  obtain ⟨h1, h2, h3⟩ := C105_solution hP hmu h hmem
  obtain ⟨v, w, e, -⟩ := h3 hc
  obtain ⟨ev, ew, -⟩ := hv v w e
  refine ⟨v, w, ev, ew, ?_⟩
  rw [rp, rd, rq, ra]
  have htof : timeOfFlight s = ((q.days : ℝ) - p.days) + ((q.nanos : ℝ) - p.nanos) / 86400000000000 := by
    obtain ⟨t1, t2⟩ := Prod.mk.injEq .. ▸ tp
    obtain ⟨t3, t4⟩ := Prod.mk.injEq .. ▸ tq
    unfold timeOfFlight mjd
    rw [t1, t2, t3, t4]
    ring
  rw [htof] at h1 h2
  rw [e] at h2
  have key := Lambert.Props.C40_arrives hmu hc h2.symm
  simp only at key ⊢
  refine ⟨h1, fun hx => ?_⟩
  obtain ⟨t, k1, k2, k3, -⟩ := key hx (Or.inr trivial)
  refine ⟨t, k1, k2.trans ?_, k3⟩
  apply mul_le_mul_of_nonneg_left _ (Real.sqrt_nonneg _)
  split
  · exact le_rfl
  · norm_num

/-! ### directions -/

/-- A vector given in equatorial axes, in the axes of the input. -/
noncomputable def seen (ε : ℝ) (f : Axes) (a : V3) : V3 :=
  match f with
  | .equatorial => a
  | .ecliptic => toEcliptic ε a

theorem toEquatorial_inverse (ε : ℝ) (f : Axes) (a : V3) : seen ε f (toEquatorial ε f a) = a := by
  cases f with
  | equatorial => rfl
  | ecliptic =>
    have h := Real.sin_sq_add_cos_sq ε
    simp only [seen, toEquatorial, toEcliptic]
    ext
    · rfl
    · simp only; linear_combination a.y * h
    · simp only; linear_combination a.z * h

theorem toEquatorial_norm (ε : ℝ) (f : Axes) (a : V3) : V3.norm (toEquatorial ε f a) = V3.norm a := by
  have := toEquatorial_inverse ε f a
  cases f with
  | equatorial => rfl
  | ecliptic =>
    simp only [seen] at this
    conv_rhs => rw [← this]
    rw [(toEcliptic_rigid ε).norm]

theorem toEquatorial_zero (ε : ℝ) (f : Axes) : toEquatorial ε f ⟨0, 0, 0⟩ = ⟨0, 0, 0⟩ := by
  cases f
  · simp [toEquatorial]
  · rfl

/-- The point at distance one in the direction that right ascension and declination (in degrees) name, in equatorial axes. -/
noncomputable def pointing (lon lat : ℝ) : V3 :=
  ⟨Real.cos (lat * Real.pi / 180) * Real.cos (lon * Real.pi / 180), Real.cos (lat * Real.pi / 180) * Real.sin (lon * Real.pi / 180),
    Real.sin (lat * Real.pi / 180)⟩

/-- A row of the departure directions: at distance 1, at rest, and the velocity is its length times the direction named by the right
ascension and declination, seen in the axes of the input. A velocity of zero has no direction. -/
theorem departureRow_spec (ε : ℝ) (f : Axes) (v : V3) :
    (v = ⟨0, 0, 0⟩ → departureRow ε f v = none) ∧
    (v ≠ ⟨0, 0, 0⟩ → ∃ c, departureRow ε f v = some c ∧ c.rho = 1 ∧ c.vrho = 0 ∧ c.vlon = 0 ∧ c.vlat = 0 ∧
      0 ≤ c.lon ∧ c.lon < 360 ∧ -90 ≤ c.lat ∧ c.lat ≤ 90 ∧
      v = V3.smul (V3.norm v) (seen ε f (pointing c.lon c.lat))) := by
  have hm : Real.sqrt (v.x ^ 2 + v.y ^ 2 + v.z ^ 2) = V3.norm v := by unfold V3.norm; simp only [sq]
  constructor
  · rintro rfl
    unfold departureRow
    simp
  · intro hv
    have hn : V3.norm v ≠ 0 := fun h => hv (V3.norm_eq_zero.mp h)
    unfold departureRow
    simp only [hm]
    rw [if_neg hn, toEquatorial_zero]
    set u : V3 := ⟨v.x / V3.norm v, v.y / V3.norm v, v.z / V3.norm v⟩ with hu
    have hvu : v = V3.smul (V3.norm v) u := by
      ext <;> simp only [V3.smul, hu] <;> field_simp
    have hun : V3.norm u = 1 := by
      have e : V3.norm v = |V3.norm v| * V3.norm u := by
        conv_lhs => rw [hvu]
        rw [V3.norm_smul]
      rw [abs_of_nonneg (V3.norm_nonneg v)] at e
      have : V3.norm v * V3.norm u = V3.norm v * 1 := by rw [← e, mul_one]
      exact mul_left_cancel₀ hn this
    have hr := Sph.Props.C44_ranges (toEquatorial ε f u, (⟨0, 0, 0⟩ : V3))
    have hp := Sph.Props.C44_position (toEquatorial ε f u, (⟨0, 0, 0⟩ : V3))
    obtain ⟨r0, r1, r2, r3, r4⟩ := hr
    have hrho : (Sph.cartesianToSpherical (toEquatorial ε f u, (⟨0, 0, 0⟩ : V3))).rho = 1 := by
      rw [r0, V3.norm_toE, toEquatorial_norm, hun]
    have hdir : pointing (Sph.cartesianToSpherical (toEquatorial ε f u, (⟨0, 0, 0⟩ : V3))).lon
        (Sph.cartesianToSpherical (toEquatorial ε f u, (⟨0, 0, 0⟩ : V3))).lat = toEquatorial ε f u := by
      unfold Sph.sphericalToCartesian at hp
      simp only [hrho, one_mul] at hp
      refine Eq.trans ?_ hp
      unfold pointing Kep.radians
      simp only [mul_div_assoc]
    refine ⟨_, rfl, hrho, ?_, ?_, ?_, r1, r2, r3, r4, ?_⟩
    · unfold Sph.cartesianToSpherical
      simp
    · unfold Sph.cartesianToSpherical
      simp [Kep.degrees]
    · unfold Sph.cartesianToSpherical
      simp [Kep.degrees]
    · rw [hdir, toEquatorial_inverse]
      exact hvu

/-- The departure directions of velocities. -/
theorem C164_directions {ε : ℝ} {f : Axes} {times : Nat} {vx vy vz : List ℝ} {rows : List (Option Sph.Spherical)}
    (h : departureSpherical ε f times vx vy vz = .ok rows) :
    rows.length = times ∧ ∀ (i : Nat) (x y z : ℝ), vx[i]? = some x → vy[i]? = some y → vz[i]? = some z →
      ((x = 0 ∧ y = 0 ∧ z = 0) → rows[i]? = some none) ∧
      (¬ (x = 0 ∧ y = 0 ∧ z = 0) → ∃ c, rows[i]? = some (some c) ∧ c.rho = 1 ∧ c.vrho = 0 ∧ c.vlon = 0 ∧ c.vlat = 0 ∧
        0 ≤ c.lon ∧ c.lon < 360 ∧ -90 ≤ c.lat ∧ c.lat ≤ 90 ∧
        (⟨x, y, z⟩ : V3) = V3.smul (V3.norm ⟨x, y, z⟩) (seen ε f (pointing c.lon c.lat))) := by
  unfold departureSpherical at h
  split at h
  · cases h
  rename_i hl
  rw [not_not] at hl
  split at h
  · cases h
  cases h
  refine ⟨by rw [List.length_zipWith, List.length_zip, ← hl.2.1, ← hl.1, Nat.min_self, Nat.min_self, hl.1, hl.2.1, hl.2.2], ?_⟩
  intro i x y z hx hy hz
  rw [List.getElem?_zipWith, hx, List.zip, List.getElem?_zipWith, hy, hz]
  simp only
  obtain ⟨s1, s2⟩ := departureRow_spec ε f ⟨x, y, z⟩
  constructor
  · rintro ⟨rfl, rfl, rfl⟩
    rw [s1 rfl]
  · intro hn
    obtain ⟨c, hc, rest⟩ := s2 (fun e => hn (by cases e; exact ⟨rfl, rfl, rfl⟩))
    exact ⟨c, by rw [hc], rest⟩

/-- The speed does not matter. -/
theorem C164_speed (ε : ℝ) (f : Axes) (times : Nat) (vx vy vz : List ℝ) (k : ℝ) (hk : 0 < k) :
    departureSpherical ε f times (vx.map (k * ·)) (vy.map (k * ·)) (vz.map (k * ·)) = departureSpherical ε f times vx vy vz := by
  have hrow : ∀ x y z, departureRow ε f ⟨k * x, k * y, k * z⟩ = departureRow ε f ⟨x, y, z⟩ := by
    intro x y z
    unfold departureRow
    simp only
    have e : Real.sqrt ((k * x) ^ 2 + (k * y) ^ 2 + (k * z) ^ 2) = k * Real.sqrt (x ^ 2 + y ^ 2 + z ^ 2) := by
      rw [show (k * x) ^ 2 + (k * y) ^ 2 + (k * z) ^ 2 = k ^ 2 * (x ^ 2 + y ^ 2 + z ^ 2) by ring, Real.sqrt_mul (sq_nonneg k),
        Real.sqrt_sq hk.le]
    rw [e]
    by_cases h0 : Real.sqrt (x ^ 2 + y ^ 2 + z ^ 2) = 0
    · rw [if_pos (by rw [h0, mul_zero]), if_pos h0]
    · rw [if_neg (mul_ne_zero hk.ne' h0), if_neg h0, mul_div_mul_left _ _ hk.ne', mul_div_mul_left _ _ hk.ne',
        mul_div_mul_left _ _ hk.ne']
  unfold departureSpherical
  simp only [List.length_map]
  split
  · rfl
  split
  · rfl
  congr 1
  apply List.ext_getElem?
  intro i
  simp only [List.getElem?_zipWith, List.zip, List.getElem?_map]
  cases vx[i]? <;> cases vy[i]? <;> cases vz[i]? <;> simp [hrow]

/-- Columns of different lengths and empty columns are an AssertionError; nothing else is refused. -/
theorem C164_errors (ε : ℝ) (f : Axes) (times : Nat) (vx vy vz : List ℝ) :
    ((∃ rows, departureSpherical ε f times vx vy vz = .ok rows) ↔ vx.length = times ∧ vy.length = times ∧ vz.length = times ∧ 0 < times) ∧
    ∀ e, departureSpherical ε f times vx vy vz = .error e → e = .assertionError := by
  unfold departureSpherical
  constructor
  · constructor
    · rintro ⟨rows, h⟩
      split at h
      · cases h
      rename_i h1
      split at h
      · cases h
      rename_i h2
      omega
    · rintro ⟨h1, h2, h3, h4⟩
      rw [if_neg (by omega), if_neg (by omega)]
      exact ⟨_, rfl⟩
  · intro e h
    split at h
    · cases h; rfl
    split at h
    · cases h; rfl
    · cases h

/-- A departure along the y axis of the ecliptic goes to right ascension 90 degrees. -/
example : (departureSpherical 0 .ecliptic 1 [0] [2] [0]) ≠ .error .assertionError := by
  intro h
  have := ((C164_errors 0 .ecliptic 1 [0] [2] [0]).1.mpr ⟨rfl, rfl, rfl, Nat.one_pos⟩)
  obtain ⟨rows, hr⟩ := this
  rw [hr] at h
  cases h

end Verif.Porkchop.OrbitProps
