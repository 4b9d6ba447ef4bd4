import Verif.OrbitClass.Spec

/-! # Orbit classes (C51) -/

namespace Verif.OrbitClass.Props

open Verif.OrbitClass Verif.OrbitClass.Spec

/-- The class of one orbit. -/
noncomputable def one (x : Elements) : Code := rules.foldl (fun k r => if r.2 x then r.1 else k) .AST

theorem fold_rows (rs : List (Code × (Elements → Bool))) (els : List Elements) (f : Elements → Code) :
    rs.foldl (fun cls r => assign cls (els.map r.2) r.1) (els.map f)
      = els.map fun x => rs.foldl (fun k r => if r.2 x then r.1 else k) (f x) := by
  induction rs generalizing f with
  | nil => rfl
  | cons r rs ih =>
    simp only [List.foldl_cons]
    rw [← ih]
    congr 1
    unfold assign
    induction els with
    | nil => rfl
    | cons x xs ih' => simp [List.zipWith_cons_cons]

/-- Every orbit gets exactly one class, which depends on that orbit alone. -/
theorem C51_rows (els : List Elements) : (calcOrbitClass els).length = els.length ∧
    ∀ (i : Nat) (x : Elements), els[i]? = some x → ∃ c, (calcOrbitClass els)[i]? = some c ∧ calcOrbitClass [x] = [c] := by
  have h : ∀ els, calcOrbitClass els = els.map one := fun els => fold_rows rules els _
  rw [h els]
  refine ⟨List.length_map .., fun i x hx => ⟨one x, ?_, ?_⟩⟩
  · rw [List.getElem?_map, hx]; rfl
  · rw [h]; rfl

theorem calc_single (x : Elements) : calcOrbitClass [x] = [one x] := fold_rows rules [x] _

theorem lt_num (x y : ℝ) : lt (num x) (num y) = decide (x < y) := by
  unfold lt num
  simp

theorem eq_num (x y : ℝ) : eq (num x) (num y) = decide (x = y) := by
  unfold eq num
  simp

theorem apoapsis_num {a e : ℝ} (h : e < 1) : apoapsis (num a) e = num (a * (1 + e)) := by
  unfold apoapsis num
  rw [if_neg (by linarith)]
  simp only [EReal.coe_mul]

theorem kepler_elliptic {a e : ℝ} (h : e < 1) : ofKeplerian (a, e) = ⟨num a, num e, num (a * (1 - e)), num (a * (1 + e))⟩ := by
  unfold ofKeplerian periapsis
  simp only [apoapsis_num h]

/-- The last rule that is met decides. -/
theorem fold_or (x : Elements) (l : List (Code × (Elements → Bool))) (s : Code) :
    (l.foldl (fun k r => if r.2 x then r.1 else k) s = s ∧ ∀ r ∈ l, r.2 x = false) ∨
      ∃ r ∈ l, r.2 x = true ∧ l.foldl (fun k r => if r.2 x then r.1 else k) s = r.1 := by
  induction l generalizing s with
  | nil => exact .inl ⟨rfl, fun r hr => by cases hr⟩
  | cons r l ih =>
    rw [List.foldl_cons]
    rcases ih (if r.2 x then r.1 else s) with ⟨h1, h2⟩ | ⟨r', hr', h1, h2⟩
    · rw [h1]
      cases hx : r.2 x with
      | true => exact .inr ⟨r, List.mem_cons_self, hx, by simp⟩
      | false =>
        left
        refine ⟨by simp, fun r' hr' => ?_⟩
        rcases List.mem_cons.mp hr' with rfl | hr'
        · exact hx
        · exact h2 r' hr'
    · exact .inr ⟨r', List.mem_cons_of_mem _ hr', h1, h2⟩

theorem rule_iff {a e : ℝ} (h : e < 1) : ∀ r ∈ rules, r.1 ≠ .AST ∧ (r.2 (ofKeplerian (a, e)) = true ↔ Rule a e r.1) := by
  rw [kepler_elliptic h]
  intro r hr
  have h1 : ¬ (1 : ℝ) < e := by linarith
  have h2 : ¬ e = (1 : ℝ) := by linarith
  simp only [rules, List.mem_cons, List.not_mem_nil, or_false] at hr
  rcases hr with rfl | rfl | rfl | rfl | rfl | rfl | rfl | rfl | rfl | rfl | rfl | rfl | rfl <;>
    exact ⟨by decide, by simp only [Rule, lt_num, eq_num, Bool.and_eq_true, decide_eq_true_eq, and_assoc,
      show (1.0 : ℝ) = 1 by norm_num, show (2.0 : ℝ) = 2 by norm_num, h1, h2]⟩

theorem rule_exists {a e : ℝ} {d : Code} (h : Rule a e d) : ∃ r ∈ rules, r.1 = d := by
  unfold rules
  cases d <;> first
    | exact h.elim
    | exact ⟨_, List.mem_cons_self, rfl⟩
    | exact ⟨_, List.mem_cons_of_mem _ List.mem_cons_self, rfl⟩
    | simp

/-- The class of an elliptic orbit is one whose documented rule it meets, and `AST` is given exactly to orbits that meet none. -/
theorem C51_documented {a e : ℝ} (h : Elliptic a e) : ∃ c, calcOrbitClass [ofKeplerian (a, e)] = [c] ∧
    (c ≠ .AST → Rule a e c) ∧ (c = .AST ↔ ∀ d, ¬ Rule a e d) := by
  refine ⟨one (ofKeplerian (a, e)), calc_single _, ?_⟩
  rcases fold_or (ofKeplerian (a, e)) rules .AST with ⟨h1, h2⟩ | ⟨r, hr, h1, h2⟩
  · refine ⟨fun hn => absurd h1 hn, fun _ d hd => ?_, fun _ => h1⟩
    obtain ⟨r, hr, rfl⟩ := rule_exists hd
    have := ((rule_iff h.2.2 r hr).2).mpr hd
    rw [h2 r hr] at this
    cases this
  · obtain ⟨hne, hi⟩ := rule_iff (a := a) h.2.2 r hr
    have h3 : one (ofKeplerian (a, e)) = r.1 := h2
    rw [h3]
    exact ⟨fun _ => hi.mp h1, fun hx => absurd hx hne, fun hx => absurd (hi.mp h1) (hx _)⟩

theorem inner_last {a e : ℝ} (h : e < 1) (hc : one (ofKeplerian (a, e)) = .AMO ∨ one (ofKeplerian (a, e)) = .APO) :
    ∀ d, Outer d → ¬ Rule a e d := by
  intro d hd hr
  have hsplit : rules = rules.take 2 ++ rules.drop 2 := (List.take_append_drop 2 rules).symm
  have hmem : ∀ r ∈ rules.drop 2, r.1 ≠ .AMO ∧ r.1 ≠ .APO := by
    intro r hr
    simp only [rules, List.drop_succ_cons, List.drop_zero, List.mem_cons, List.not_mem_nil, or_false] at hr
    rcases hr with rfl | rfl | rfl | rfl | rfl | rfl | rfl | rfl | rfl | rfl | rfl <;> exact ⟨by decide, by decide⟩
  have hone : one (ofKeplerian (a, e)) = (rules.drop 2).foldl (fun k r => if r.2 (ofKeplerian (a, e)) then r.1 else k)
      ((rules.take 2).foldl (fun k r => if r.2 (ofKeplerian (a, e)) then r.1 else k) .AST) := by
    unfold one
    rw [hsplit, List.foldl_append]
    rfl
  obtain ⟨r, hrm, rfl⟩ := rule_exists hr
  have hin : r ∈ rules.drop 2 := by
    rw [hsplit, List.mem_append] at hrm
    rcases hrm with hrm | hrm
    · exfalso
      simp only [rules, List.take_succ_cons, List.take_zero, List.mem_cons, List.not_mem_nil, or_false] at hrm
      rcases hrm with rfl | rfl <;> exact hd
    · exact hrm
  have ht := ((rule_iff h r hrm).2).mpr hr
  rcases fold_or (ofKeplerian (a, e)) (rules.drop 2)
    ((rules.take 2).foldl (fun k r => if r.2 (ofKeplerian (a, e)) then r.1 else k) .AST) with ⟨-, h2⟩ | ⟨r', hr', -, h2⟩
  · rw [h2 r hin] at ht
    cases ht
  · rw [hone, h2] at hc
    obtain ⟨n1, n2⟩ := hmem r' hr'
    rcases hc with hc | hc
    · exact n1 hc
    · exact n2 hc

/-- Where two documented rules are met, one is of the near-Earth rules Amor or Apollo and the other one of the outer classes. -/
theorem C51_overlap {a e : ℝ} (h : Elliptic a e) {c d : Code} (hc : Rule a e c) (hd : Rule a e d) (hne : c ≠ d) :
    (c = .AMO ∨ c = .APO) ∧ Outer d ∨ (d = .AMO ∨ d = .APO) ∧ Outer c := by
  obtain ⟨ha, he, he1⟩ := h
  have hq : a * (1 - e) ≤ a := by nlinarith
  have hQ : a ≤ a * (1 + e) := by nlinarith
  cases c <;> cases d <;> simp only [Rule] at hc hd <;>
    first
    | exact absurd rfl hne
    | exact hc.elim
    | exact hd.elim
    | (simp [Outer]; done)
    | (exfalso; linarith [hc.1, hd.1])
    | (exfalso; linarith [hc, hd])

/-- In an overlap the outer class is given. With `C51_documented` and `C51_overlap` this determines the class of every elliptic
orbit. -/
theorem C51_precedence {a e : ℝ} (h : Elliptic a e) {d : Code} (hd : Rule a e d)
    (hp : Outer d ∨ ∀ c, Rule a e c → c = d) : calcOrbitClass [ofKeplerian (a, e)] = [d] := by
  obtain ⟨c, hc, h1, h2⟩ := C51_documented h
  rw [hc]
  have hne : c ≠ .AST := fun e => (h2.mp e) d hd
  have hr := h1 hne
  rcases hp with ho | hu
  · by_cases hcd : c = d
    · rw [hcd]
    · exfalso
      have hone : one (ofKeplerian (a, e)) = c := by
        have := (calc_single (ofKeplerian (a, e))).symm.trans hc
        injection this
      rcases C51_overlap h hr hd hcd with ⟨hx, _⟩ | ⟨hx, _⟩
      · exact inner_last h.2.2 (by rw [hone]; exact hx) d ho hd
      · rcases hx with rfl | rfl <;> exact ho
  · rw [hu c hr]

/-- The elliptic orbits with class `AST`: those on a boundary of the regions, and those between 4.6 and 5.5 au that are neither
Trojans nor near Earth. -/
theorem C51_unclassified {a e : ℝ} (h : Elliptic a e) (hc : calcOrbitClass [ofKeplerian (a, e)] = [.AST]) :
    a = 2 ∨ a = 3.2 ∨ a = 4.6 ∨ a = 5.5 ∨ a = 30.1 ∨ a = 1 ∨ a * (1 - e) = 1.017 ∨ a * (1 - e) = 1.3 ∨ a * (1 - e) = 1.666 ∨
      a * (1 + e) = 0.983 ∨ 4.6 < a ∧ a < 5.5 ∧ 0.3 ≤ e ∧ 1.3 < a * (1 - e) := by
  obtain ⟨c, hc', -, h2⟩ := C51_documented h
  rw [hc'] at hc
  have hn := h2.mp (by injection hc)
  obtain ⟨ha, he, he1⟩ := h
  have h1 := hn .TNO
  have h2 := hn .TJN
  have h3 := hn .OMB
  have h4 := hn .MCA
  have h5 := hn .MBA
  have h6 := hn .IMB
  have h7 := hn .IEO
  have h8 := hn .CEN
  have h9 := hn .ATE
  have h10 := hn .APO
  have h11 := hn .AMO
  simp only [Rule] at h1 h2 h3 h4 h5 h6 h7 h8 h9 h10 h11
  by_contra hcon
  push Not at hcon
  obtain ⟨n1, n2, n3, n4, n5, n6, n7, n8, n9, n10, n11⟩ := hcon
  rcases lt_or_gt_of_ne n6 with k6 | k6
  · rcases lt_or_gt_of_ne n10 with k | k
    · exact h7 k
    · exact h9 ⟨k6, k⟩
  rcases lt_or_gt_of_ne n7 with k7 | k7
  · exact h10 ⟨k6, k7⟩
  rcases lt_or_gt_of_ne n8 with k8 | k8
  · exact h11 ⟨k6, k7, k8⟩
  rcases lt_or_gt_of_ne n2 with k2 | k2
  · rcases lt_or_gt_of_ne n9 with k9 | k9
    · exact h4 ⟨k2, k8, k9⟩
    rcases lt_or_gt_of_ne n1 with k1 | k1
    · exact h6 ⟨k1, k9⟩
    · exact h5 ⟨k1, k2, k9⟩
  rcases lt_or_gt_of_ne n3 with k3 | k3
  · exact h3 ⟨k2, k3⟩
  rcases lt_or_gt_of_ne n4 with k4 | k4
  · by_cases k : e < 0.3
    · exact h2 ⟨k3, k4, k⟩
    · exact absurd k8 (not_lt.mpr (n11 k3 k4 (not_lt.mp k)))
  rcases lt_or_gt_of_ne n5 with k5 | k5
  · exact h8 ⟨k4, k5⟩
  · exact h1 k5

/-- Unbound orbits: `PAA` exactly for eccentricity 1 and `HYA` exactly above it, whatever the other elements. -/
theorem C51_unbound (x : Elements) : ∃ c, calcOrbitClass [x] = [c] ∧
    (c = .HYA ↔ ∃ e, x.e = some e ∧ 1 < e) ∧ (c = .PAA ↔ x.e = some 1) := by
  refine ⟨one x, calc_single x, ?_⟩
  have hsplit : rules = rules.take 11 ++ [(.PAA, fun x => eq x.e (num 1)), (.HYA, fun x => lt (num 1) x.e)] := rfl
  have hin : ∀ k ∈ rules.take 11, k.1 ≠ .PAA ∧ k.1 ≠ .HYA := by
    intro k hk
    simp only [rules, List.take_succ_cons, List.take_zero, List.mem_cons, List.not_mem_nil, or_false] at hk
    rcases hk with rfl | rfl | rfl | rfl | rfl | rfl | rfl | rfl | rfl | rfl | rfl <;> exact ⟨by decide, by decide⟩
  have hfold : ∀ (l : List (Code × (Elements → Bool))) (s : Code), (∀ k ∈ l, k.1 ≠ .PAA ∧ k.1 ≠ .HYA) → s ≠ .PAA ∧ s ≠ .HYA →
      l.foldl (fun k r => if r.2 x then r.1 else k) s ≠ .PAA ∧ l.foldl (fun k r => if r.2 x then r.1 else k) s ≠ .HYA := by
    intro l
    induction l with
    | nil => intro s _ hs; exact hs
    | cons r l ih =>
      intro s hl hs
      rw [List.foldl_cons]
      apply ih
      · exact fun k hk => hl k (List.mem_cons_of_mem _ hk)
      · split
        · exact hl r List.mem_cons_self
        · exact hs
  obtain ⟨hp, hh⟩ := hfold (rules.take 11) .AST hin ⟨by decide, by decide⟩
  have ho : one x = if lt (num 1) x.e then .HYA else if eq x.e (num 1) then .PAA
      else (rules.take 11).foldl (fun k r => if r.2 x then r.1 else k) .AST := by
    unfold one
    rw [hsplit, List.foldl_append]
    rfl
  rw [ho]
  cases hxe : x.e with
  | none =>
    have h1 : lt (num 1) none = false := rfl
    have h2 : eq none (num 1) = false := rfl
    rw [h1, h2]
    simp only [Bool.false_eq_true, if_false]
    exact ⟨⟨fun h => absurd h hh, fun ⟨e, h, _⟩ => (by cases h)⟩, ⟨fun h => absurd h hp, fun h => (by cases h)⟩⟩
  | some e =>
    have h1 : lt (num 1) (some e) = decide (1 < e) := by unfold lt num; simp; rfl
    have h2 : eq (some e) (num 1) = decide (e = 1) := by unfold eq num; simp; rfl
    rw [h1, h2]
    by_cases hl : 1 < e
    · simp only [hl, decide_true, if_true]
      refine ⟨⟨fun _ => ⟨e, rfl, hl⟩, fun _ => trivial⟩, ⟨fun h => (by cases h), fun h => ?_⟩⟩
      injection h with h
      exact absurd h (ne_of_gt hl)
    · by_cases h1 : e = 1
      · subst h1
        simp
      · simp only [hl, h1, decide_false, Bool.false_eq_true, if_false]
        refine ⟨⟨fun h => absurd h hh, fun ⟨e', h, h'⟩ => ?_⟩, ⟨fun h => absurd h hp, fun h => ?_⟩⟩
        · injection h with h; rw [← h] at h'; exact absurd h' hl
        · injection h with h; exact absurd h h1

/-- Keplerian and cometary elements of the same orbit get the same class. -/
theorem C51_representations {a e : ℝ} (he : e ≠ 1) :
    calcOrbitClass [ofKeplerian (a, e)] = calcOrbitClass [ofCometary (a * (1 - e), e)] := by
  have : ofKeplerian (a, e) = ofCometary (a * (1 - e), e) := by
    unfold ofKeplerian ofCometary semiMajorAxis periapsis
    simp only [if_neg he]
    rw [mul_div_cancel_right₀ _ (sub_ne_zero.mpr (Ne.symm he))]
  rw [this]

/-- A near-Earth rule can be met without its class being given: with a = 4.2 and e = 0.71 (about the orbit of (3552) Don Quixote,
perihelion 1.218 au) the Amor rule is met, and the class is `OMB`. -/
theorem C51_near_earth_false : ¬ ∀ (a e : ℝ) (c : Code), Elliptic a e → NearEarth c → Rule a e c →
    calcOrbitClass [ofKeplerian (a, e)] = [c] := by
  intro h
  have h1 := h 4.2 0.71 .AMO ⟨by norm_num, by norm_num, by norm_num⟩ trivial (by simp only [Rule]; norm_num)
  have h2 := C51_precedence (a := 4.2) (e := 0.71) (d := .OMB) ⟨by norm_num, by norm_num, by norm_num⟩
    (by simp only [Rule]; norm_num) (.inl trivial)
  rw [h1] at h2
  cases h2

/-- Ceres. -/
example : calcOrbitClass [ofKeplerian (2.77, 0.08)] = [.MBA] := by
  have h : Elliptic (2.77 : ℝ) 0.08 := ⟨by norm_num, by norm_num, by norm_num⟩
  have hr : Rule (2.77 : ℝ) 0.08 .MBA := by simp only [Rule]; norm_num
  apply C51_precedence h hr
  right
  intro c hc
  by_contra hne
  rcases C51_overlap h hc hr hne with ⟨_, ho⟩ | ⟨ho, _⟩
  · exact ho
  · rcases ho with ho | ho <;> cases ho

end Verif.OrbitClass.Props
