import Verif.Univ.Frame
import Mathlib.Tactic.LinearCombination

/-! # Two-body propagation in rotated axes, and the frame of its result (C142) -/

namespace Verif.Univ.Props

open Verif Verif.Univ Real

/-! ## A linear map that keeps lengths and angles commutes with the propagation -/

/-- A rotation (or reflection) of the axes. -/
structure Rigid (R : V3 → V3) : Prop where
  add : ∀ a b, R (V3.add a b) = V3.add (R a) (R b)
  smul : ∀ k a, R (V3.smul k a) = V3.smul k (R a)
  dot : ∀ a b, V3.dot (R a) (R b) = V3.dot a b

theorem Rigid.norm {R : V3 → V3} (h : Rigid R) (a : V3) : V3.norm (R a) = V3.norm a := by
  have := h.dot a a
  unfold V3.norm V3.dot at *
  rw [this]

theorem alpha_rigid {R : V3 → V3} (h : Rigid R) (mu : ℝ) (r v : V3) : alpha mu (R r) (R v) = alpha mu r v := by
  unfold alpha; rw [h.norm, h.norm]

theorem sigma_rigid {R : V3 → V3} (h : Rigid R) (mu : ℝ) (r v : V3) : sigma mu (R r) (R v) = sigma mu r v := by
  unfold sigma; rw [h.norm, h.dot]

theorem newton_rigid {R : V3 → V3} (h : Rigid R) (mu : ℝ) (r v : V3) (dt : ℝ) (p : Loop) :
    newton mu (R r) (R v) dt p = newton mu r v dt p := by
  unfold newton keplerF keplerFp
  rw [alpha_rigid h, sigma_rigid h, h.norm]

theorem loop_rigid {R : V3 → V3} (h : Rigid R) (mu : ℝ) (r v : V3) (dt tol : ℝ) (maxIter fuel : Nat) (p : Loop) :
    loop mu (R r) (R v) dt tol maxIter fuel p = loop mu r v dt tol maxIter fuel p := by
  induction fuel generalizing p with
  | zero => rfl
  | succ n ih => unfold loop; rw [newton_rigid h, ih]

/-- C142. Propagation does not depend on the axes: propagating a rotated state is rotating the propagated state, for every iteration limit
and tolerance. -/
theorem C142_rotation (R : V3 → V3) (h : Rigid R) (mu : ℝ) (s : V3 × V3) (t0 t1 : ℝ) (maxIter : Nat) (tol : ℝ) :
    propagate mu (R s.1, R s.2) t0 t1 maxIter tol =
      (R (propagate mu s t0 t1 maxIter tol).1, R (propagate mu s t0 t1 maxIter tol).2) := by
  have hchi : calcChi mu (R s.1) (R s.2) (t1 - t0) maxIter tol = calcChi mu s.1 s.2 (t1 - t0) maxIter tol := by
    unfold calcChi
    rw [loop_rigid h, alpha_rigid h]
  have hl : ∀ chi c, lagrange mu (R s.1) (R s.2) (t1 - t0) chi c = lagrange mu s.1 s.2 (t1 - t0) chi c := by
    intro chi c
    unfold lagrange
    simp only [alpha_rigid h, h.norm, ← h.smul, ← h.add]
  unfold propagate applyLagrange
  simp only [hchi, hl, h.add, h.smul]

/-! ## The frame of the result -/

/-- Equatorial to ecliptic axes: a rotation about the equinox by the obliquity. -/
noncomputable def toEcliptic (ε : ℝ) (a : V3) : V3 := ⟨a.x, cos ε * a.y + sin ε * a.z, -sin ε * a.y + cos ε * a.z⟩

theorem toEcliptic_rigid (ε : ℝ) : Rigid (toEcliptic ε) := by
  have h := Real.sin_sq_add_cos_sq ε
  refine ⟨fun a b => ?_, fun k a => ?_, fun a b => ?_⟩
  · simp only [toEcliptic, V3.add, V3.mk.injEq]; refine ⟨trivial, by ring, by ring⟩
  · simp only [toEcliptic, V3.smul, V3.mk.injEq]; refine ⟨trivial, by ring, by ring⟩
  · simp only [toEcliptic, V3.dot]
    linear_combination (a.y * b.y + a.z * b.z) * h

/-- The state a row stands for, in ecliptic axes. -/
noncomputable def meant (ε : ℝ) (f : Frame) (s : V3 × V3) : V3 × V3 :=
  match f with
  | .ecliptic => s
  | .equatorial => (toEcliptic ε s.1, toEcliptic ε s.2)

theorem toEcliptic_fixed {ε : ℝ} (hε : 0 < ε) (hε' : ε < π) (a : V3) : toEcliptic ε a = a ↔ a.y = 0 ∧ a.z = 0 := by
  have hs : 0 < sin ε := Real.sin_pos_of_pos_of_lt_pi hε hε'
  have h := Real.sin_sq_add_cos_sq ε
  obtain ⟨x, y, z⟩ := a
  simp only [toEcliptic, V3.mk.injEq, true_and]
  constructor
  · rintro ⟨h1, h2⟩
    have hc : cos ε < 1 := by nlinarith [Real.cos_le_one ε, Real.neg_one_le_cos ε]
    have e1 : y * (1 - cos ε) = 0 := by
      have : 2 * (y * (1 - cos ε)) = 0 := by linear_combination -y * h + (cos ε - 1) * h1 - sin ε * h2
      linarith
    have e2 : z * (1 - cos ε) = 0 := by
      have : 2 * (z * (1 - cos ε)) = 0 := by linear_combination -z * h + (cos ε - 1) * h2 + sin ε * h1
      linarith
    have hne : 1 - cos ε ≠ 0 := by linarith
    exact ⟨(mul_eq_zero.mp e1).resolve_right hne, (mul_eq_zero.mp e2).resolve_right hne⟩
  · rintro ⟨rfl, rfl⟩; simp

/-- C142. For orbits in the ecliptic frame every row of the result stands for the propagated state. For orbits in the equatorial frame a
row does so exactly if its position and velocity lie on the line of the equinoxes. -/
theorem C142_frame (ε : ℝ) (hε : 0 < ε) (hε' : ε < π) (o : Orbits) (times : List ℝ) (maxIter : Nat) (tol : ℝ) :
    (propagateTable o times maxIter tol).frame = .ecliptic ∧
    ∃ l : List ((((V3 × V3) × ℝ × ℝ) × ℝ) × (V3 × V3)),
      l.map (fun p => p.1) = (o.rows.flatMap fun r => times.map fun t => (r, t)) ∧
      (propagateTable o times maxIter tol).rows = l.map (fun p => (p.2, p.1.2, p.1.1.2.2)) ∧
      ∀ p ∈ l, (meant ε (propagateTable o times maxIter tol).frame p.2 =
          propagate p.1.1.2.2 (meant ε o.frame p.1.1.1) p.1.1.2.1 p.1.2 maxIter tol ↔
        (o.frame = .equatorial → (p.2.1.y = 0 ∧ p.2.1.z = 0) ∧ (p.2.2.y = 0 ∧ p.2.2.z = 0))) := by
  refine ⟨rfl, (o.rows.flatMap fun r => times.map fun t => (r, t)).map fun q => (q, propagate q.1.2.2 q.1.1 q.1.2.1 q.2 maxIter tol), ?_, ?_, ?_⟩
  · rw [List.map_map]; exact List.map_id _
  · unfold propagateTable
    rw [List.map_map, List.map_flatMap]
    simp only [List.map_map]
    rfl
  · intro p hp
    obtain ⟨q, -, rfl⟩ := List.mem_map.mp hp
    show propagate q.1.2.2 q.1.1 q.1.2.1 q.2 maxIter tol = _ ↔ _
    cases hf : o.frame with
    | ecliptic => simp [meant]
    | equatorial =>
      simp only [meant, forall_const]
      rw [C142_rotation (toEcliptic ε) (toEcliptic_rigid ε), ← toEcliptic_fixed hε hε', ← toEcliptic_fixed hε hε', Prod.ext_iff]
      exact and_congr eq_comm eq_comm

theorem stays {mu : ℝ} {r v : V3} {tol : ℝ} {maxIter : Nat} (fuel : Nat) (p : Loop) (hp : p.chi = 0) :
    (loop mu r v 0 tol maxIter fuel p).chi = 0 := by
  induction fuel generalizing p with
  | zero => exact hp
  | succ n ih =>
    unfold loop
    split
    · apply ih
      simp [newton, keplerF, hp]
    · exact hp

/-- C142. To the epoch of an orbit itself the values come back unchanged. -/
theorem C142_epoch (mu : ℝ) (s : V3 × V3) (t : ℝ) (maxIter : Nat) (tol : ℝ) : propagate mu s t t maxIter tol = s := by
  have h0 : (calcChi mu s.1 s.2 (t - t) maxIter tol).chi = 0 := by
    unfold calcChi
    rw [sub_self]
    exact stays _ _ (by simp)
  obtain ⟨⟨x, y, z⟩, ⟨vx, vy, vz⟩⟩ := s
  unfold propagate applyLagrange lagrange
  simp only [h0]
  simp [V3.add, V3.smul]

/-- C142. Not true that the result stands for the propagated orbits: an orbit in the equatorial frame at right ascension 90 degrees,
propagated to its own epoch, comes back as another state. -/
theorem C142_frame_false (ε : ℝ) (hε : 0 < ε) (hε' : ε < π) (mu : ℝ) (maxIter : Nat) (tol : ℝ) :
    ∃ (o : Orbits) (t : ℝ) (s s' : V3 × V3), o.rows = [(s, t, mu)] ∧ (propagateTable o [t] maxIter tol).rows = [(s', t, mu)] ∧
      meant ε (propagateTable o [t] maxIter tol).frame s' ≠ meant ε o.frame s := by
  refine ⟨⟨.equatorial, [((⟨0, 1, 0⟩, ⟨1, 0, 0⟩), 0, mu)]⟩, 0, (⟨0, 1, 0⟩, ⟨1, 0, 0⟩), (⟨0, 1, 0⟩, ⟨1, 0, 0⟩), rfl, ?_, ?_⟩
  · unfold propagateTable
    simp [C142_epoch]
  · intro h
    have h1 : toEcliptic ε (⟨0, 1, 0⟩ : V3) = ⟨0, 1, 0⟩ := (congrArg Prod.fst h).symm
    have := ((toEcliptic_fixed hε hε' _).mp h1).1
    norm_num at this

end Verif.Univ.Props
