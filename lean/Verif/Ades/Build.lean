import Verif.Ades.Context

/-! Helper lemmas: a context is built again from its dictionary. -/

namespace Verif.Ades

open Verif Mpc Obs80 Sched

variable {lib : Lib} {c : Ctx}

theorem lookup_opt (key : String) (v : Option Str) (l : List (Str × Field)) (k : Str) :
    (optEntry key v l).lookup k = if k = key.toList then (match v with | none => l.lookup k | some v => some (.one v)) else l.lookup k := by
  unfold optEntry
  cases v with
  | none => simp
  | some v => rw [lookup_insert]

theorem base_lookup (k : Str) (h6 : k ≠ "software".toList) (h7 : k ≠ "coinvestigators".toList) (h8 : k ≠ "collaborators".toList)
    (h9 : k ≠ "fundingSource".toList) (h10 : k ≠ "comment".toList) : (ctxDict lib c).lookup k = (baseDict lib c).lookup k := by
  unfold ctxDict comDict lastDict softDict
  rw [lookup_cur_ne h10, lookup_fund_ne h9, lookup_cur_ne h8, lookup_cur_ne h7, lookup_cur_ne h6]

theorem opt_ne {key : String} {v : Option Str} {l : List (Str × Field)} (h : l ≠ []) : optEntry key v l ≠ [] := by
  cases v with
  | none => exact h
  | some v => exact insert_ne_nil _ _ _

theorem find_observatory : fieldsOf (ctxDict lib c) "observatory" =
    .ok (optEntry "name" c.obsName (insert "mpcCode".toList (.one c.mpcCode) [])) := by
  unfold fieldsOf
  rw [base_lookup _ (by decide) (by decide) (by decide) (by decide) (by decide)]
  unfold baseDict
  rw [lookup_cur_ne (by decide), lookup_cur_ne (by decide), lookup_cur_ne (by decide), lookup_cur_ne (by decide), lookup_cur_eq rfl,
    if_neg (opt_ne (insert_ne_nil _ _ _))]

theorem find_submitter : fieldsOf (ctxDict lib c) "submitter" =
    .ok (optEntry "institution" c.institution (insert "name".toList (.one c.subName) [])) := by
  unfold fieldsOf
  rw [base_lookup _ (by decide) (by decide) (by decide) (by decide) (by decide)]
  unfold baseDict
  rw [lookup_cur_ne (by decide), lookup_cur_ne (by decide), lookup_cur_ne (by decide), lookup_cur_eq,
    if_neg (opt_ne (insert_ne_nil _ _ _))]
  rw [lookup_cur_ne (by decide)]
  rfl

theorem many_ne {key : String} {l : List Str} (h : l ≠ []) : manyEntry key l ≠ [] := by
  unfold manyEntry
  rw [if_neg h]
  simp

theorem find_observers (h : c.observers ≠ []) : fieldsOf (ctxDict lib c) "observers" = .ok (manyEntry "name" c.observers) := by
  unfold fieldsOf
  rw [base_lookup _ (by decide) (by decide) (by decide) (by decide) (by decide)]
  unfold baseDict
  rw [lookup_cur_ne (by decide), lookup_cur_ne (by decide), lookup_cur_eq, if_neg (many_ne h)]
  rw [lookup_cur_ne (by decide), lookup_cur_ne (by decide)]
  rfl

theorem find_measurers (h : c.measurers ≠ []) : fieldsOf (ctxDict lib c) "measurers" = .ok (manyEntry "name" c.measurers) := by
  unfold fieldsOf
  rw [base_lookup _ (by decide) (by decide) (by decide) (by decide) (by decide)]
  unfold baseDict
  rw [lookup_cur_ne (by decide), lookup_cur_eq, if_neg (many_ne h)]
  rw [lookup_cur_ne (by decide), lookup_cur_ne (by decide), lookup_cur_ne (by decide)]
  rfl

theorem find_telescope : fieldsOr (ctxDict lib c) "telescope" = .ok (telEntry lib c) := by
  unfold fieldsOr
  rw [base_lookup _ (by decide) (by decide) (by decide) (by decide) (by decide)]
  unfold baseDict
  rw [lookup_cur_eq, if_neg]
  · exact opt_ne (opt_ne (opt_ne (opt_ne (opt_ne (insert_ne_nil _ _ _)))))
  · rw [lookup_cur_ne (by decide), lookup_cur_ne (by decide), lookup_cur_ne (by decide), lookup_cur_ne (by decide)]
    rfl

theorem base_none (k : Str) (h1 : k ≠ "observatory".toList) (h2 : k ≠ "submitter".toList) (h3 : k ≠ "observers".toList)
    (h4 : k ≠ "measurers".toList) (h5 : k ≠ "telescope".toList) : (baseDict lib c).lookup k = none := by
  unfold baseDict
  rw [lookup_cur_ne h5, lookup_cur_ne h4, lookup_cur_ne h3, lookup_cur_ne h2, lookup_cur_ne h1]
  rfl

theorem find_software : fieldsOr (ctxDict lib c) "software" = .ok ((c.software.map softEntry).getD []) := by
  unfold fieldsOr ctxDict comDict lastDict softDict
  rw [lookup_cur_ne (by decide), lookup_fund_ne (by decide), lookup_cur_ne (by decide), lookup_cur_ne (by decide),
    lookup_cur_eq (base_none _ (by decide) (by decide) (by decide) (by decide) (by decide))]
  by_cases h : (c.software.map softEntry).getD [] = []
  · rw [if_pos h, h]
  · rw [if_neg h]

theorem find_comment : fieldsOr (ctxDict lib c) "comment" = .ok (manyEntry "line" (c.comments.getD [])) := by
  unfold fieldsOr ctxDict comDict
  rw [lookup_cur_eq]
  · by_cases h : manyEntry "line" (c.comments.getD []) = []
    · rw [if_pos h, h]
    · rw [if_neg h]
  · unfold lastDict softDict
    rw [lookup_fund_ne (by decide), lookup_cur_ne (by decide), lookup_cur_ne (by decide), lookup_cur_ne (by decide)]
    exact base_none _ (by decide) (by decide) (by decide) (by decide) (by decide)

theorem find_funding : (ctxDict lib c).lookup "fundingSource".toList =
    (if c.fundingSource = some [] then none else c.fundingSource).map .text := by
  have h0 : (lastDict (lastDict (softDict (baseDict lib c) c.software) "coinvestigators" c.coinvestigators)
    "collaborators" c.collaborators).lookup "fundingSource".toList = none := by
    unfold lastDict softDict
    rw [lookup_cur_ne (by decide), lookup_cur_ne (by decide), lookup_cur_ne (by decide)]
    exact base_none _ (by decide) (by decide) (by decide) (by decide) (by decide)
  unfold ctxDict comDict
  rw [lookup_cur_ne (by decide)]
  unfold fundDict
  cases hf : c.fundingSource with
  | none => simpa using h0
  | some v =>
    simp only
    by_cases hv : v = []
    · subst hv
      simpa using h0
    · rw [if_neg hv, lookup_insert, if_pos rfl, if_neg (by simpa using hv)]
      rfl

theorem soft_nil (s : Software) : softEntry s = [] ↔ s = ⟨none, none, none, none⟩ := by
  obtain ⟨a, f, p, o⟩ := s
  unfold softEntry
  constructor
  · intro h
    cases o with
    | some v => exact absurd h (insert_ne_nil _ _ _)
    | none =>
      cases p with
      | some v => exact absurd h (insert_ne_nil _ _ _)
      | none =>
        cases f with
        | some v => exact absurd h (insert_ne_nil _ _ _)
        | none =>
          cases a with
          | some v => exact absurd h (insert_ne_nil _ _ _)
          | none => rfl
  · intro h
    cases h
    rfl

theorem soft_get (s : Software) : get (softEntry s) "astrometry" = s.astrometry ∧ get (softEntry s) "fitOrder" = s.fitOrder ∧
    get (softEntry s) "photometry" = s.photometry ∧ get (softEntry s) "objectDetection" = s.objectDetection := by
  obtain ⟨a, f, p, o⟩ := s
  unfold softEntry get
  simp only [lookup_opt]
  cases a <;> cases f <;> cases p <;> cases o <;> exact ⟨rfl, rfl, rfl, rfl⟩

theorem readBack_valid (h : c.valid = true) : c.readBack.valid = true := by
  unfold Ctx.valid at h ⊢
  simp only [Bool.and_eq_true] at h ⊢
  obtain ⟨⟨⟨⟨⟨⟨⟨⟨⟨⟨⟨⟨⟨⟨⟨⟨⟨⟨h1, h2⟩, h3⟩, h4⟩, h5⟩, h6⟩, h7⟩, h8⟩, h9⟩, h10⟩, h11⟩, h12⟩, h13⟩, h14⟩, h15⟩, h16⟩, h17⟩, h18⟩, h19⟩ := h
  refine ⟨⟨⟨⟨⟨⟨⟨⟨⟨⟨⟨⟨⟨⟨⟨⟨⟨⟨h1, h2⟩, h3⟩, h4⟩, h5⟩, h6⟩, h7⟩, h8⟩, h9⟩, h10⟩, h11⟩, h12⟩, ?_⟩, h14⟩, h15⟩, rfl⟩, rfl⟩, ?_⟩, ?_⟩
  · unfold Ctx.readBack
    simp only
    by_cases hs : c.software = some ⟨none, none, none, none⟩
    · rw [if_pos hs]
    · rw [if_neg hs]
      exact h13
  · unfold Ctx.readBack
    simp only
    by_cases hs : c.fundingSource = some []
    · rw [if_pos hs]
      rfl
    · rw [if_neg hs]
      exact h18
  · unfold Ctx.readBack
    simp only
    cases hc : c.comments with
    | none => rfl
    | some l =>
      rw [hc] at h19
      exact h19

theorem build_ctx (hc : c.Good lib) : build (ctxDict lib c) = .ok c.readBack := by
  have hv := hc.valid
  have ho : c.observers ≠ [] ∧ c.measurers ≠ [] := by
    unfold Ctx.valid at hv
    simp only [Bool.and_eq_true, names, decide_eq_true_eq, ne_eq] at hv
    exact ⟨by simpa using hv.1.1.1.1.1.2.1, by simpa using hv.1.1.1.1.2.1⟩
  have hnum : ∀ x ∈ c.numbers, number (lib.repr x) = some (.fin x) := hc.numbers
  have t1 : need (telEntry lib c) "design" = .ok c.design := by
    unfold need telEntry
    simp [lookup_opt, lookup_insert]
  have t2 : need (telEntry lib c) "aperture" = .ok (lib.repr c.aperture) := by
    unfold need telEntry
    simp [lookup_opt, lookup_insert]
  have t3 : getNum (telEntry lib c) "fRatio" = .ok c.fRatio := by
    unfold getNum get telEntry
    simp only [lookup_opt, lookup_insert]
    cases hf : c.fRatio with
    | none => simp
    | some x => simp [hnum x (by simp [Ctx.numbers, hf])]
  have t4 : getNum (telEntry lib c) "pixelSize" = .ok c.pixelSize := by
    unfold getNum get telEntry
    simp only [lookup_opt, lookup_insert]
    cases hf : c.pixelSize with
    | none => simp
    | some x => simp [hnum x (by simp [Ctx.numbers, hf])]
  have t5 : get (telEntry lib c) "detector" = some c.detector := by
    unfold get telEntry
    simp [lookup_opt, lookup_insert]
  have t6 : get (telEntry lib c) "name" = c.telName := by
    unfold get telEntry
    simp only [lookup_opt, lookup_insert]
    cases c.telName <;> simp
  have t7 : get (telEntry lib c) "filter" = c.filter := by
    unfold get telEntry
    simp only [lookup_opt, lookup_insert]
    cases c.filter <;> simp
  have t8 : get (telEntry lib c) "arraySize" = c.arraySize := by
    unfold get telEntry
    simp only [lookup_opt, lookup_insert]
    cases c.arraySize <;> simp
  have o1 : need (optEntry "name" c.obsName (insert "mpcCode".toList (.one c.mpcCode) [])) "mpcCode" = .ok c.mpcCode := by
    unfold need
    simp [lookup_opt, lookup_insert]
  have o2 : get (optEntry "name" c.obsName (insert "mpcCode".toList (.one c.mpcCode) [])) "name" = c.obsName := by
    unfold get
    simp only [lookup_opt, lookup_insert]
    cases c.obsName <;> simp
  have s1 : need (optEntry "institution" c.institution (insert "name".toList (.one c.subName) [])) "name" = .ok c.subName := by
    unfold need
    simp [lookup_opt, lookup_insert]
  have s2 : get (optEntry "institution" c.institution (insert "name".toList (.one c.subName) [])) "institution" = c.institution := by
    unfold get
    simp only [lookup_opt, lookup_insert]
    cases c.institution <;> simp
  have n1 : ∀ l : List Str, l ≠ [] → needMany (manyEntry "name" l) "name" = .ok l := by
    intro l hl
    unfold needMany manyEntry
    simp [hl]
  have n2 : linesIn (manyEntry "line" (c.comments.getD [])) = c.comments.getD [] := by
    unfold linesIn manyEntry
    split_ifs with h
    · rw [h]; rfl
    · simp
  have n3 : number (lib.repr c.aperture) = some (.fin c.aperture) := hnum _ (by simp [Ctx.numbers])
  have hsoft : (if (c.software.map softEntry).getD [] = [] then none else
        some (Software.mk (get ((c.software.map softEntry).getD []) "astrometry") (get ((c.software.map softEntry).getD []) "fitOrder")
          (get ((c.software.map softEntry).getD []) "photometry") (get ((c.software.map softEntry).getD []) "objectDetection"))) =
      if c.software = some ⟨none, none, none, none⟩ then none else c.software := by
    cases hs : c.software with
    | none => simp
    | some s =>
      simp only [Option.map_some, Option.getD_some, soft_nil, Option.some.injEq]
      split_ifs
      · rfl
      · obtain ⟨a1, a2, a3, a4⟩ := soft_get s
        rw [a1, a2, a3, a4]
  have hval := readBack_valid hv
  unfold build
  simp only [find_observatory, find_submitter, find_telescope, find_software, find_comment, find_observers ho.1, find_measurers ho.2,
    find_funding, bind, Except.bind, o1, s1, t1, t2, t3, t4, t5, n1 _ ho.1, n1 _ ho.2, n3, o2, s2, t6, t7, t8]
  simp only [n2, hsoft]
  unfold Ctx.readBack at hval ⊢
  generalize (if c.fundingSource = some [] then none else c.fundingSource) = f at hval ⊢
  cases f with
  | none => exact if_pos hval
  | some v => exact if_pos hval

end Verif.Ades
