import Verif.Lsq.Spec
import Verif.Eval.Props

/-! # Least-squares fits of orbits: the properties -/

namespace Verif.Lsq.Props

open Verif Eval Eval.Spec Lsq.Spec

variable {I N Y Z : Type} [LinearOrder I] [DecidableEq N]

omit [LinearOrder I] in
theorem included_eq (observations : List (Obs I N Y)) (ignore : Option (List N)) :
    included observations ignore = used observations ignore := by
  unfold included used
  cases ignore with
  | none => simp
  | some l =>
    have := Eval.Props.applyMask_map observations id fun b => !decide (b.id ∈ l)
    rw [List.map_id, List.map_id] at this
    show applyMask observations _ = _
    rw [this]
    simp

theorem inOrder_used {observations : List (Obs I N Y)} (h : InOrder observations) (ignore : Option (List N)) :
    InOrder (used observations ignore) := List.Pairwise.sublist List.filter_sublist h

theorem residualFunction_eq (E : Env I N Y Z) (id : I) (mjd : ℚ) {obs : List (Obs I N Y)} (h : InOrder obs) (hne : obs ≠ []) :
    residualFunction E id mjd obs = fun x => .ok (obs.map fun b => Real.sqrt (chi2 E (heliocentric x mjd) b)) := by
  funext x
  unfold residualFunction
  rw [if_neg (by simpa using hne)]
  congr 1
  unfold ephemeris
  rw [Eval.Props.inOrder_sort obs h]
  have hs : Sched.sortBy Orb.id [(⟨id, trial x mjd⟩ : Orb I State)] = [⟨id, trial x mjd⟩] := rfl
  rw [hs, List.flatMap_cons, List.flatMap_nil, List.append_nil]
  have := Eval.Props.zipWith_map₂ (fun (b : Obs I N Y) (e : Eph I Z) => Real.sqrt (E.res b.coord e.pred).chi2) (fun b => b)
    (fun b : Obs I N Y => (⟨id, b.time, b.code, E.predict (trial x mjd) b.time b.code⟩ : Eph I Z)) obs
  rw [List.map_id'] at this
  exact this

omit [DecidableEq N] in
theorem residualFunction_nil (E : Env I N Y Z) (id : I) (mjd : ℚ) :
    residualFunction E id mjd ([] : List (Obs I N Y)) = fun _ => .error .valueError := rfl

theorem fit_error {E : Env I N Y Z} {o : Orb I State} {observations : List (Obs I N Y)} {ignore : Option (List N)} {kwargs : Kwargs}
    {e : PyErr} (h : E.solver (residualFunction E o.id o.state.mjd (included observations ignore)) o.state.values (options kwargs) =
      .error e) : fit E [o] observations ignore kwargs = .error e := by
  simp only [fit, h]

theorem fit_ok {E : Env I N Y Z} {o : Orb I State} {observations : List (Obs I N Y)} {ignore : Option (List N)} {kwargs : Kwargs}
    {s : Solution} {fitted : List (Fitted I State ℝ)} {members : List (Member I N (Res ℝ))}
    (h : E.solver (residualFunction E o.id o.state.mjd (included observations ignore)) o.state.values (options kwargs) = .ok s)
    (he : evaluate E.predict E.res [⟨o.id, solved o.state s⟩] observations 6 (ignore.getD []) = .ok (fitted, members)) :
    fit E [o] observations ignore kwargs =
      .ok (fitted.map fun f => ⟨f, s.nfev, s.success, s.status⟩, members.map fun m => ⟨m, !m.outlier⟩) := by
  simp only [fit, h, he]

/-- What is minimised and what is returned. The minimiser gets the square roots of chi2 of exactly the observations that are not to be
ignored, computed for the trial state read as heliocentric, ecliptic and in TDB at the epoch's number of days, and starts at the
values of the orbit. Its errors are raised. Otherwise there is one row with the id of the orbit, the values found, the epoch labelled
TDB, origin and frame of the orbit given, and the number of evaluations, success and status of the minimiser; chi2 and reduced chi2
are computed from that row for the observations used; every observation gets a row, in order, marked as an outlier if it was to be
ignored and as part of the solution otherwise. -/
theorem C146_result (E : Env I N Y Z) (o : Orb I State) {observations : List (Obs I N Y)} (ignore : Option (List N)) (kwargs : Kwargs)
    (ho : InOrder observations) (hne : used observations ignore ≠ []) :
    match E.solver (fun x => .ok ((used observations ignore).map fun b => Real.sqrt (chi2 E (heliocentric x o.state.mjd) b)))
        o.state.values (options kwargs) with
    | .error e => fit E [o] observations ignore kwargs = .error e
    | .ok s => ∃ row members, fit E [o] observations ignore kwargs = .ok ([row], members) ∧
        row.iterations = s.nfev ∧ row.success = s.success ∧ row.status = s.status ∧
        row.fitted.id = o.id ∧ row.fitted.state.values = s.x ∧ row.fitted.state.mjd = o.state.mjd ∧ row.fitted.state.scale = .tdb ∧
        row.fitted.state.center = o.state.center ∧ row.fitted.state.frame = o.state.frame ∧
        row.fitted.numObs = (used observations ignore).length ∧
        row.fitted.chi2 = some ((used observations ignore).map fun b => chi2 E row.fitted.state b).sum ∧
        (∀ r, row.fitted.reduced = some r → r * (((used observations ignore).map fun b =>
          (E.res b.coord (E.predict row.fitted.state b.time b.code)).dof).sum - 6 : Int) =
            ((used observations ignore).map fun b => chi2 E row.fitted.state b).sum) ∧
        members = observations.map fun b => ⟨⟨o.id, b.id, E.res b.coord (E.predict row.fitted.state b.time b.code),
          decide (b.id ∈ ignore.getD [])⟩, decide (b.id ∉ ignore.getD [])⟩ := by
  have hfun := residualFunction_eq E o.id o.state.mjd (inOrder_used ho ignore) hne
  cases hs : E.solver (fun x => .ok ((used observations ignore).map fun b => Real.sqrt (chi2 E (heliocentric x o.state.mjd) b)))
      o.state.values (options kwargs) with
  | error e => exact fit_error (by rw [included_eq, hfun]; exact hs)
  | ok s =>
    obtain ⟨fitted, members, he, hp⟩ := Eval.Props.C58_pairs E.predict E.res [(⟨o.id, solved o.state s⟩ : Orb I State)] observations 6
      (ignore.getD []) (by simp) (by simp) ho
    obtain ⟨os, hperm, -, hf, hm, hq⟩ := hp.orbits
    have hos : os = [⟨o.id, solved o.state s⟩] := List.perm_singleton.mp hperm
    subst hos
    have hlen : fitted.length = 1 := by simpa using congrArg List.length hf
    obtain ⟨f, rfl⟩ := List.length_eq_one_iff.mp hlen
    simp only [List.map_cons, List.map_nil, List.cons.injEq, and_true, Prod.mk.injEq] at hf
    have hu : (observations.filter fun b => !decide (b.id ∈ ignore.getD [])) = used observations ignore := by
      unfold used
      simp
    obtain ⟨h1, -, h3, h4⟩ := hq 0 _ f rfl rfl
    rw [hu] at h1 h3 h4
    have hst : f.state = solved o.state s := hf.2
    refine ⟨⟨f, s.nfev, s.success, s.status⟩, _, fit_ok (by rw [included_eq, hfun]; exact hs) he, rfl, rfl, rfl, hf.1, ?_, ?_, ?_, ?_, ?_, h1, ?_, ?_, ?_⟩
    · show f.state.values = _
      rw [hst]; rfl
    · show f.state.mjd = _
      rw [hst]; rfl
    · show f.state.scale = _
      rw [hst]; rfl
    · show f.state.center = _
      rw [hst]; rfl
    · show f.state.frame = _
      rw [hst]; rfl
    · show f.chi2 = some ((used observations ignore).map fun b => chi2 E f.state b).sum
      rw [h3 hne, hst]; rfl
    · intro r hr
      show r * (((used observations ignore).map fun b => (E.res b.coord (E.predict f.state b.time b.code)).dof).sum - 6 : Int) =
        ((used observations ignore).map fun b => chi2 E f.state b).sum
      have := h4 r hr
      rw [hst]
      exact this
    · rw [hm]
      simp only [List.flatMap_cons, List.flatMap_nil, List.append_nil, List.map_map]
      apply List.map_congr_left
      intro b _
      rw [hst]
      simp [own]

/-- Without observations to use, the function given to the minimiser raises ValueError at every state; other than one orbit raises
AssertionError. -/
theorem C146_edges (E : Env I N Y Z) (observations : List (Obs I N Y)) (ignore : Option (List N)) (kwargs : Kwargs) :
    (∀ o e, used observations ignore = [] → E.solver (fun _ => .error .valueError) o.state.values (options kwargs) = .error e →
      fit E [o] observations ignore kwargs = .error e) ∧
    ∀ orbits, orbits.length ≠ 1 → fit E orbits observations ignore kwargs = .error .assertionError := by
  refine ⟨?_, ?_⟩
  · intro o e hu he
    exact fit_error (by rw [included_eq, hu, residualFunction_nil, he])
  · intro orbits hl
    unfold fit
    match orbits, hl with
    | [], _ => rfl
    | [o], hl => exact absurd rfl hl
    | _ :: _ :: _, _ => rfl

/-! ## Keyword arguments -/

theorem find_setDefault (kwargs : Kwargs) (key : Key) (value : Value) (k : Key) :
    (setDefault kwargs key value).find? (fun e => decide (e.1 = k)) =
      (kwargs.find? fun e => decide (e.1 = k)).or (if k = key then some (key, value) else none) := by
  unfold setDefault
  by_cases h : (kwargs.any fun e => decide (e.1 = key)) = true
  · rw [if_pos h]
    by_cases hk : k = key
    · subst hk
      rw [if_pos rfl]
      obtain ⟨e, he, hd⟩ := List.any_eq_true.mp h
      cases hf : kwargs.find? fun e => decide (e.1 = k) with
      | none => exact absurd hd (by simpa using List.find?_eq_none.mp hf e he)
      | some x => rfl
    · rw [if_neg hk, Option.or_none]
  · rw [if_neg h, List.find?_append]
    congr 1
    by_cases hk : k = key
    · subst hk
      simp
    · rw [if_neg hk]
      simp [Ne.symm hk]

/-- Every argument given is passed on as given, except `args`; the six defaults are used for the arguments not given; nothing else
is added. -/
theorem C146_options (kwargs : Kwargs) (k : Key) :
    ((options kwargs).find? fun e => decide (e.1 = k)).map Prod.snd =
      match k with
      | .args => none
      | .xtol | .ftol | .gtol => some (((kwargs.find? fun e => decide (e.1 = k)).map Prod.snd).getD (.number (1 / 1000000000000)))
      | .jac => some (((kwargs.find? fun e => decide (e.1 = k)).map Prod.snd).getD (.text "2-point"))
      | .xScale => some (((kwargs.find? fun e => decide (e.1 = k)).map Prod.snd).getD (.text "jac"))
      | .bounds => some (((kwargs.find? fun e => decide (e.1 = k)).map Prod.snd).getD .unbounded)
      | .other _ => (kwargs.find? fun e => decide (e.1 = k)).map Prod.snd := by
  unfold options
  simp only
  rw [List.find?_filter]
  by_cases hk : k = .args
  · subst hk
    simp only
    rw [Option.map_eq_none_iff, List.find?_eq_none]
    intro e _
    simp
  · have hp : (fun e : Key × Value => decide ((!decide (e.1 = Key.args)) = true ∧ decide (e.1 = k) = true)) = fun e => decide (e.1 = k) := by
      funext e
      by_cases he : e.1 = k
      · simp [he, hk]
      · simp [he]
    rw [hp]
    simp only [find_setDefault]
    have hq : (1 / 10 ^ 12 : ℚ) = 1 / 1000000000000 := by norm_num
    cases hf : kwargs.find? fun e => decide (e.1 = k) with
    | some x => cases k <;> simp at hk ⊢
    | none => cases k <;> simp [hq] at hk ⊢

/-! ## Quality of the fit -/

omit [LinearOrder I] [DecidableEq N] in
theorem predict_eq {E : Env I N Y Z} (hcov : ∀ (s : State) c t i, E.predict { s with cov := c } t i = E.predict s t i) {s : State}
    (htdb : s.scale = .tdb) (hsun : s.center = .sun) (hecl : s.frame = .ecliptic) (t : ℤ ×ₗ ℤ) (i : I) :
    E.predict s t i = E.predict (heliocentric s.values s.mjd) t i := by
  obtain ⟨v, m, sc, ce, fr, c⟩ := s
  cases htdb
  cases hsun
  cases hecl
  exact hcov (heliocentric v m) c t i

/-- For an orbit that is heliocentric and ecliptic, and a propagator whose predictions do not depend on the covariance, the chi2 reported
is the sum of squares that was minimised. -/
theorem C146_cost {E : Env I N Y Z} {o : Orb I State} {observations : List (Obs I N Y)} {ignore : Option (List N)} {kwargs : Kwargs}
    (ho : InOrder observations) (hne : used observations ignore ≠ []) (hsun : o.state.center = .sun) (hecl : o.state.frame = .ecliptic)
    (hcov : ∀ (s : State) c t i, E.predict { s with cov := c } t i = E.predict s t i) (hpos : ∀ y z, 0 ≤ (E.res y z).chi2)
    {row : FitRow I} {members : List (MemberRow I N)} (h : fit E [o] observations ignore kwargs = .ok ([row], members)) :
    row.fitted.chi2 = some ((used observations ignore).map fun b =>
      Real.sqrt (chi2 E (heliocentric row.fitted.state.values o.state.mjd) b) ^ 2).sum := by
  have hr := C146_result E o ignore kwargs ho hne
  split at hr
  · rw [hr] at h; cases h
  · rename_i s hs
    obtain ⟨row', members', h', -, -, -, -, hx, hm, hsc, hce, hfr, -, hc, -, -⟩ := hr
    rw [h] at h'
    obtain ⟨rfl, -⟩ : row = row' ∧ members = members' := by simpa using h'
    rw [hc]
    congr 2
    apply List.map_congr_left
    intro b _
    rw [Real.sq_sqrt (show 0 ≤ chi2 E _ b from hpos _ _)]
    unfold chi2
    rw [predict_eq hcov hsc (hce.trans hsun) (hfr.trans hecl), hm]

/-- The minimiser does not return a state with a larger sum of squares than the first one. -/
def Descends (E : Env I N Y Z) : Prop :=
  ∀ f x kw s l l', E.solver f x kw = .ok s → f x = .ok l → f s.x = .ok l' → (l'.map (· ^ 2)).sum ≤ (l.map (· ^ 2)).sum

/-- If moreover the epoch is in TDB and the minimiser does not increase the sum of squares, the fitted orbit is not worse than the
orbit given. -/
theorem C146_not_worse {E : Env I N Y Z} {o : Orb I State} {observations : List (Obs I N Y)} {ignore : Option (List N)} {kwargs : Kwargs}
    (ho : InOrder observations) (hne : used observations ignore ≠ []) (htdb : o.state.scale = .tdb) (hsun : o.state.center = .sun)
    (hecl : o.state.frame = .ecliptic) (hcov : ∀ (s : State) c t i, E.predict { s with cov := c } t i = E.predict s t i)
    (hpos : ∀ y z, 0 ≤ (E.res y z).chi2) (hd : Descends E)
    {row : FitRow I} {members : List (MemberRow I N)} (h : fit E [o] observations ignore kwargs = .ok ([row], members)) :
    ∃ c, row.fitted.chi2 = some c ∧ c ≤ ((used observations ignore).map fun b => chi2 E o.state b).sum := by
  refine ⟨_, C146_cost ho hne hsun hecl hcov hpos h, ?_⟩
  have hr := C146_result E o ignore kwargs ho hne
  split at hr
  · rw [hr] at h; cases h
  · rename_i s hs
    obtain ⟨row', members', h', -, -, -, -, hx, -⟩ := hr
    rw [h] at h'
    obtain ⟨rfl, -⟩ : row = row' ∧ members = members' := by simpa using h'
    have := hd _ _ _ s _ _ hs rfl rfl
    rw [List.map_map, List.map_map, ← hx] at this
    refine le_trans this (le_of_eq ?_)
    congr 1
    apply List.map_congr_left
    intro b _
    show Real.sqrt _ ^ 2 = _
    rw [Real.sq_sqrt (show 0 ≤ chi2 E _ b from hpos _ _)]
    unfold chi2
    rw [predict_eq hcov htdb hsun hecl]

/-- Predictions that depend on origin and frame, and a minimiser that finds the state 10 when the residual vanishes there. -/
noncomputable def labelled : Env Nat Nat ℝ ℝ where
  predict s _ _ := s.values 0 + if s.frame = .ecliptic ∧ s.center = .sun then 0 else 10
  res y z := ⟨(y - z) ^ 2, 2⟩
  solver f x _ := open Classical in
    if f (fun _ => 10) = .ok [0] then .ok ⟨fun _ => 10, [], 3, true, 1⟩ else .ok ⟨x, [], 1, true, 1⟩

/-- One observation. -/
noncomputable def ten : List (Obs Nat Nat ℝ) := [⟨1, toLex (1, 0), 5, 10, 1⟩]

theorem labelled_descends : Descends labelled := by
  intro f x kw s l l' hs hl hl'
  simp only [labelled] at hs
  split at hs
  · rename_i hf
    cases hs
    rw [hf] at hl'
    cases hl'
    simp only [List.map_cons, List.map_nil, List.sum_cons, List.sum_nil]
    have : 0 ≤ (l.map (· ^ 2)).sum := List.sum_nonneg (by
      intro a ha
      obtain ⟨b, -, rfl⟩ := List.mem_map.mp ha
      positivity)
    simpa using this
  · cases hs
    rw [hl] at hl'
    cases hl'
    exact le_refl _

theorem ten_used : used ten none = ten := by simp [used]

theorem ten_ordered : InOrder ten := List.pairwise_singleton _ _

theorem labelled_fit (sc : Scale) (ce : Center) (fr : Frame) : ∃ row members,
    fit labelled [⟨0, ⟨fun _ => 0, 0, sc, ce, fr, none⟩⟩] ten none [] = .ok ([row], members) ∧ row.fitted.state.mjd = 0 ∧
      row.fitted.state.scale = .tdb ∧ row.fitted.chi2 = some ((10 - (10 + if fr = .ecliptic ∧ ce = .sun then 0 else 10)) ^ 2) := by
  have hsol : labelled.solver (fun x => .ok ((used ten none).map fun b => Real.sqrt (chi2 labelled (heliocentric x 0) b)))
      (fun _ => 0) (options []) = .ok ⟨fun _ => 10, [], 3, true, 1⟩ := by
    rw [ten_used]
    simp only [labelled]
    rw [if_pos]
    simp [ten, chi2, heliocentric]
  have hr := C146_result labelled ⟨0, ⟨fun _ => 0, 0, sc, ce, fr, none⟩⟩ none [] ten_ordered (by rw [ten_used]; simp [ten])
  rw [hsol] at hr
  obtain ⟨row, members, h, -, -, -, -, hx, hm, hsc, hce, hfr, -, hc, -⟩ := hr
  refine ⟨row, members, h, hm, hsc, ?_⟩
  rw [hc, ten_used]
  simp only [ten, List.map_cons, List.map_nil, List.sum_cons, List.sum_nil, add_zero, chi2, labelled, hx, hce, hfr]

/-- For orbits with another origin or frame the claim fails: an orbit that fits perfectly is replaced by one that does not, and the
fitted values are labelled with an origin or frame in which they were not fitted. Nor is the epoch kept: for an orbit in UTC the number
of days is kept and labelled TDB. -/
theorem C146_labels_false :
    (¬ ∀ (o : Orb Nat State) (row : FitRow Nat) (members : List (MemberRow Nat Nat)) (c : ℝ), o.state.scale = .tdb → o.state.frame = .ecliptic →
      fit labelled [o] ten none [] = .ok ([row], members) → row.fitted.chi2 = some c → c ≤ (ten.map fun b => chi2 labelled o.state b).sum) ∧
    (¬ ∀ (o : Orb Nat State) (row : FitRow Nat) (members : List (MemberRow Nat Nat)) (c : ℝ), o.state.scale = .tdb → o.state.center = .sun →
      fit labelled [o] ten none [] = .ok ([row], members) → row.fitted.chi2 = some c → c ≤ (ten.map fun b => chi2 labelled o.state b).sum) ∧
    ¬ ∀ (o : Orb Nat State) (row : FitRow Nat) (members : List (MemberRow Nat Nat)),
      fit labelled [o] ten none [] = .ok ([row], members) → row.fitted.state.mjd = o.state.mjd → row.fitted.state.scale = o.state.scale := by
  have bound : ∀ (sc : Scale) (ce : Center) (fr : Frame), ¬ (fr = .ecliptic ∧ ce = .sun) →
      (ten.map fun b => chi2 labelled ⟨fun _ => 0, 0, sc, ce, fr, none⟩ b).sum = 0 := by
    intro sc ce fr hn
    simp only [ten, List.map_cons, List.map_nil, List.sum_cons, List.sum_nil, add_zero, chi2, labelled, if_neg hn]
    norm_num
  refine ⟨?_, ?_, ?_⟩
  · intro h
    obtain ⟨row, members, hf, -, -, hc⟩ := labelled_fit .tdb (.other 0) .ecliptic
    have := h _ row members _ rfl rfl hf hc
    rw [bound .tdb (.other 0) .ecliptic (by simp), if_neg (by simp)] at this
    norm_num at this
  · intro h
    obtain ⟨row, members, hf, -, -, hc⟩ := labelled_fit .tdb .sun .equatorial
    have := h _ row members _ rfl rfl hf hc
    rw [bound .tdb .sun .equatorial (by simp), if_neg (by simp)] at this
    norm_num at this
  · intro h
    obtain ⟨row, members, hf, hm, hsc, -⟩ := labelled_fit .utc .sun .ecliptic
    have := h _ row members hf hm
    rw [hsc] at this
    cases this

/-- The hypotheses of `C146_not_worse` are met by an orbit that is improved. -/
example : InOrder ten ∧ used ten none ≠ [] ∧ (∀ (s : State) c t i, labelled.predict { s with cov := c } t i = labelled.predict s t i) ∧
    (∀ y z, 0 ≤ (labelled.res y z).chi2) ∧ Descends labelled ∧
    ∃ row members, fit labelled [⟨0, ⟨fun _ => 0, 0, .tdb, .sun, .ecliptic, none⟩⟩] ten none [] = .ok ([row], members) ∧
      row.fitted.chi2 = some 0 := by
  refine ⟨List.pairwise_singleton _ _, by simp [used, ten], fun _ _ _ _ => rfl, fun y z => sq_nonneg _, labelled_descends, ?_⟩
  obtain ⟨row, members, h, -, -, hc⟩ := labelled_fit .tdb .sun .ecliptic
  refine ⟨row, members, h, ?_⟩
  rw [hc]
  norm_num

end Verif.Lsq.Props
