import Verif.Sbdb.Parse
import Verif.Sbdb.Props
import Verif.Cov.Props
import Mathlib.Tactic.FinCases

/-! C132, C133: what is read from one answer of the Small-Body Database. -/

namespace Verif.Sbdb.Props

open Verif Cov Spec

/-! ## Specification -/

/-- A value that reads as a number. -/
def Reads (s : Scalar) (x : Val) : Prop := s = .num x ∨ s = .text (some x)

/-- The last entry of a name in a list of elements. -/
def LastEntry (l : List (Option Entry)) (n : El) (e : Entry) : Prop :=
  ∃ l₁ l₂, l = l₁ ++ some e :: l₂ ∧ e.name = n ∧ ∀ e', some e' ∈ l₂ → e'.name ≠ n

/-- The elements used: those of the covariance if it has data and elements, otherwise those of the orbit. -/
def usedElements (b : Body) : Elements :=
  match b.cov with
  | some c => (match c.elements with | .missing => b.elements | es => es)
  | none => b.elements

/-- The epoch used: that of the covariance if it has data, elements and an epoch, otherwise that of the orbit. -/
def usedEpoch (b : Body) : Scalar :=
  match b.cov with
  | some c =>
    (match c.elements, c.epoch with
      | .missing, _ => b.epoch
      | _, .null => b.epoch
      | _, s => s)
  | none => b.epoch

/-- The standard deviation of an entry: NaN unless it reads as a number. -/
def SigmaIs (e : Entry) (x : Val) : Prop := Reads e.sigma x ∨ ((∀ y, ¬ Reads e.sigma y) ∧ x = .nan)

/-- The covariance is of the right kind: the labels, if they are a list, begin with the expected ones and there are at least six
rows and columns. -/
def GoodCov (c : CovBlock) (d : Data) : Prop :=
  (∀ ls, c.labels = some ls → ls.take 6 = ["e", "q", "tp", "node", "peri", "i"]) ∧ c.data = .ok d ∧ 6 ≤ d.rows ∧ 6 ≤ d.cols

/-- The covariance matrix in the order e, q, tp, node, peri, i. -/
def MatrixIs (b : Body) (l : List (Option Entry)) (m : Mat Val) : Prop :=
  (∃ c d, b.cov = some c ∧ GoodCov c d ∧ ∀ i j : Fin 6, m i j = d.entry i.1 j.1) ∨
  (b.cov = none ∧ ∃ s : Fin 6 → Val, (∀ i, ∃ e, LastEntry l (![.e, .q, .tp, .om, .w, .i] i) e ∧ SigmaIs e (s i)) ∧
    m = sigmasToCov s)

/-! ## Lemmas -/

theorem bind_ok {α β : Type} (x : Except PyErr α) (f : α → Except PyErr β) (r : β) :
    (x >>= f) = .ok r ↔ ∃ a, x = .ok a ∧ f a = .ok r := by
  cases x <;> simp [bind, Except.bind]

theorem float_ok (s : Scalar) (x : Val) : sbdbFloat s = .ok x ↔ Reads s x := by
  unfold Reads
  cases s with
  | text v => cases v <;> simp [sbdbFloat]
  | _ => simp [sbdbFloat]

theorem find_reverse {α : Type} (l : List α) (P : α → Bool) (e : α) :
    l.reverse.find? P = some e ↔ ∃ l₁ l₂, l = l₁ ++ e :: l₂ ∧ P e = true ∧ ∀ x ∈ l₂, P x = false := by
  rw [List.find?_eq_some_iff_append]
  constructor
  · rintro ⟨hp, as, bs, h, hn⟩
    refine ⟨bs.reverse, as.reverse, ?_, hp, fun x hx => ?_⟩
    · have := congrArg List.reverse h
      simpa using this
    · have := hn x (List.mem_reverse.mp hx)
      simpa using this
  · rintro ⟨l₁, l₂, rfl, hp, hn⟩
    refine ⟨hp, l₂.reverse, l₁.reverse, by simp, fun x hx => ?_⟩
    simpa using hn x (List.mem_reverse.mp hx)

theorem lookup_last (l : List (Option Entry)) (n : El) (e : Entry) :
    lookup (l.filterMap id) n = some e ↔ LastEntry l n e := by
  unfold lookup LastEntry
  rw [find_reverse]
  constructor
  · rintro ⟨m₁, m₂, h, hn, hl⟩
    obtain ⟨l₁, l₂, rfl, h1, h2⟩ := List.filterMap_eq_append_iff.mp h
    obtain ⟨k₁, a, k₂, rfl, h3, h4, h5⟩ := List.filterMap_eq_cons_iff.mp h2
    simp only [id] at h4
    subst h4
    refine ⟨l₁ ++ k₁, k₂, by simp, by simpa using hn, fun e' he' => ?_⟩
    have : e' ∈ m₂ := by rw [← h5]; exact List.mem_filterMap.mpr ⟨some e', he', rfl⟩
    simpa using hl e' this
  · rintro ⟨l₁, l₂, rfl, hn, hl⟩
    refine ⟨l₁.filterMap id, l₂.filterMap id, by simp, by simpa using hn, fun x hx => ?_⟩
    obtain ⟨a, ha, hx⟩ := List.mem_filterMap.mp hx
    simp only [id] at hx
    subst hx
    simpa using hl x ha

theorem value_ok (l : List (Option Entry)) (n : El) (x : Val) :
    elementValue (l.filterMap id) n = .ok x ↔ ∃ e, LastEntry l n e ∧ Reads e.value x := by
  unfold elementValue
  simp only [← lookup_last, ← float_ok]
  cases lookup (l.filterMap id) n <;> simp

theorem sigma_ok (l : List (Option Entry)) (n : El) (x : Val) :
    elementSigma (l.filterMap id) n = .ok x ↔ ∃ e, LastEntry l n e ∧ SigmaIs e x := by
  unfold elementSigma SigmaIs
  simp only [← lookup_last, ← float_ok]
  cases lookup (l.filterMap id) n with
  | none => simp
  | some e =>
    cases h : sbdbFloat e.sigma with
    | error err => simp [h, eq_comm]
    | ok y =>
      simp only [Option.some.injEq, exists_eq_left', h, Except.ok.injEq]
      constructor
      · exact fun h => Or.inl h
      · rintro (h | ⟨h, _⟩)
        · exact h
        · exact absurd rfl (h y)

theorem sigmaMatrix_ok (l : List (Option Entry)) (m : Mat Val) : sigmaMatrix (l.filterMap id) = .ok m ↔
    ∃ s : Fin 6 → Val, (∀ i, ∃ e, LastEntry l (![.e, .q, .tp, .om, .w, .i] i) e ∧ SigmaIs e (s i)) ∧ m = sigmasToCov s := by
  unfold sigmaMatrix
  simp only [bind_ok, sigma_ok, Except.ok.injEq]
  constructor
  · rintro ⟨e, he, q, hq, tp, htp, om, hom, w, hw, i, hi, rfl⟩
    refine ⟨![e, q, tp, om, w, i], fun k => ?_, rfl⟩
    fin_cases k <;> assumption
  · rintro ⟨s, h, rfl⟩
    refine ⟨s 0, h 0, s 1, h 1, s 2, h 2, s 3, h 3, s 4, h 4, s 5, h 5, ?_⟩
    congr 1
    funext k
    fin_cases k <;> rfl

theorem labels_ok (o : Option (List String)) (u : Unit) : checkLabels o = .ok u ↔
    ∀ ls, o = some ls → ls.take 6 = ["e", "q", "tp", "node", "peri", "i"] := by
  cases o with
  | none => simp [checkLabels]
  | some ls =>
    unfold checkLabels expectedLabels
    by_cases h : ls.take 6 = ["e", "q", "tp", "node", "peri", "i"] <;> simp [h]

theorem size_ok (d : Data) (u : Unit) : checkSize d = .ok u ↔ 6 ≤ d.rows ∧ 6 ≤ d.cols := by
  unfold checkSize
  by_cases h : d.rows < 6 ∨ d.cols < 6
  · rw [if_pos h]
    simp only [reduceCtorEq, false_iff]
    omega
  · rw [if_neg h]
    simp only [true_iff]
    omega

theorem reads_eq {s : Scalar} {y : Val} (h : Reads s y) (x : Val) : Reads s x ↔ x = y := by
  rw [← float_ok] at h ⊢
  rw [h, Except.ok.injEq, eq_comm]

theorem prefer_ok (b : Body) (c : CovBlock) (hc : b.cov = some c) (y : Val) (hy : Reads b.epoch y) (es : Elements) (x : Val) :
    prefer b y c = .ok (es, x) ↔ es = usedElements b ∧ Reads (usedEpoch b) x := by
  have hb : ∀ es', (Except.ok (es', y) : Except PyErr (Elements × Val)) = .ok (es, x) ↔ es = es' ∧ Reads b.epoch x := by
    intro es'
    rw [reads_eq hy, Except.ok.injEq, Prod.mk.injEq]
    exact and_congr eq_comm eq_comm
  have hs : ∀ es' s, (do let z ← sbdbFloat s; Except.ok (es', z) : Except PyErr (Elements × Val)) = .ok (es, x) ↔
      es = es' ∧ Reads s x := by
    intro es' s
    simp only [bind_ok, float_ok, Except.ok.injEq, Prod.mk.injEq]
    constructor
    · rintro ⟨z, hz, rfl, rfl⟩
      exact ⟨rfl, hz⟩
    · rintro ⟨rfl, hz⟩
      exact ⟨x, hz, rfl, rfl⟩
  unfold prefer usedElements usedEpoch
  rw [hc]
  obtain ⟨labels, data, ces, cep⟩ := c
  cases ces with
  | missing => exact hb _
  | notList =>
    cases cep with
    | null => exact hb _
    | num z => exact hs _ _
    | text z => exact hs _ _
    | other => exact hs _ _
  | list l =>
    cases cep with
    | null => exact hb _
    | num z => exact hs _ _
    | text z => exact hs _ _
    | other => exact hs _ _

theorem choose_ok (b : Body) (es : Elements) (x : Val) (m : Option (Mat Val)) : choose b = .ok (es, x, m) ↔
    (∃ y, Reads b.epoch y) ∧ es = usedElements b ∧ Reads (usedEpoch b) x ∧
      ((b.cov = none ∧ m = none) ∨ ∃ c d, b.cov = some c ∧ GoodCov c d ∧ m = some (corner d)) := by
  unfold choose GoodCov
  rw [bind_ok]
  simp only [float_ok]
  cases hc : b.cov with
  | none =>
    unfold usedElements usedEpoch
    rw [hc]
    simp only [Except.ok.injEq, Prod.mk.injEq, true_and, reduceCtorEq, false_and, exists_false, or_false]
    constructor
    · rintro ⟨y, hy, h1, rfl, h3⟩
      exact ⟨⟨_, hy⟩, h1.symm, hy, h3.symm⟩
    · rintro ⟨_, h1, hy, h3⟩
      exact ⟨x, hy, h1.symm, rfl, h3.symm⟩
  | some c =>
    simp only [bind_ok, labels_ok, size_ok, Option.some.injEq, Except.ok.injEq, Prod.mk.injEq, reduceCtorEq, false_and, false_or]
    constructor
    · rintro ⟨y, hy, -, h1, d, h2, -, ⟨h3, h4⟩, ⟨es', x'⟩, h5, rfl, rfl, rfl⟩
      obtain ⟨h6, h7⟩ := (prefer_ok b c hc y hy _ _).mp h5
      exact ⟨⟨y, hy⟩, h6, h7, c, d, rfl, ⟨h1, h2, h3, h4⟩, rfl⟩
    · rintro ⟨⟨y, hy⟩, h6, h7, c', d, rfl, ⟨h1, h2, h3, h4⟩, rfl⟩
      exact ⟨y, hy, (), h1, d, h2, (), ⟨h3, h4⟩, (es, x), (prefer_ok b c hc y hy _ _).mpr ⟨h6, h7⟩, rfl, rfl, rfl⟩

theorem orbit_ok (b : Body) (u : Unit) : needOrbit b = .ok u ↔ b.hasOrbit = true := by
  unfold needOrbit
  cases b.hasOrbit <;> simp

theorem matrix_ok (b : Body) (l : List (Option Entry)) (o : Option (Mat Val)) (m : Mat Val)
    (ho : (b.cov = none ∧ o = none) ∨ ∃ c d, b.cov = some c ∧ GoodCov c d ∧ o = some (corner d)) :
    matrixOr (l.filterMap id) o = .ok m → MatrixIs b l m := by
  intro h
  rcases ho with ⟨hn, rfl⟩ | ⟨c, d, hc, hg, rfl⟩
  · obtain ⟨s, hs, rfl⟩ := (sigmaMatrix_ok l m).mp h
    exact Or.inr ⟨hn, s, hs, rfl⟩
  · obtain rfl : corner d = m := Except.ok.inj h
    exact Or.inl ⟨c, d, hc, hg, fun _ _ => rfl⟩

theorem matrix_some (b : Body) (l : List (Option Entry)) (m : Mat Val) (h : MatrixIs b l m) :
    ∃ o, ((b.cov = none ∧ o = none) ∨ ∃ c d, b.cov = some c ∧ GoodCov c d ∧ o = some (corner d)) ∧
      matrixOr (l.filterMap id) o = .ok m := by
  rcases h with ⟨c, d, hcov, hg, hmd⟩ | ⟨hn, s, hs, rfl⟩
  · obtain rfl : m = corner d := by funext i j; exact hmd i j
    exact ⟨_, Or.inr ⟨c, d, hcov, hg, rfl⟩, rfl⟩
  · exact ⟨none, Or.inl ⟨hn, rfl⟩, (sigmaMatrix_ok l _).mpr ⟨s, hs, rfl⟩⟩

/-! ## C132 -/

/-- Exactly which answers are read, and what is read from them. -/
theorem C132_accepts (b : Body) (r : Reading) : parse b = .ok r ↔
    b.hasOrbit = true ∧ (∃ y, Reads b.epoch y) ∧ Reads (usedEpoch b) r.epoch ∧ ∃ l m, usedElements b = .list l ∧ MatrixIs b l m ∧
      r.cov = convert m ∧
      ∀ p ∈ [(El.q, r.q), (El.e, r.e), (El.i, r.i), (El.om, r.om), (El.w, r.w), (El.tp, r.tp)],
        ∃ e, LastEntry l p.1 e ∧ Reads e.value p.2 := by
  unfold parse
  simp only [bind_ok, orbit_ok, List.mem_cons, List.not_mem_nil, or_false, forall_eq_or_imp, forall_eq, ← value_ok,
    Except.ok.injEq]
  constructor
  · rintro ⟨-, hb, ⟨es, x, o⟩, h1, l', h3, m, hm, q, hq, e, he, i, hi, om, hom, w, hw, tp, htp, rfl⟩
    obtain ⟨hy, rfl, hx, ho⟩ := (choose_ok b es x o).mp h1
    simp only at h3 hm
    cases hes : usedElements b with
    | missing => rw [hes] at h3; cases h3
    | notList => rw [hes] at h3; cases h3
    | list l =>
      rw [hes] at h3
      obtain rfl : l.filterMap id = l' := Except.ok.inj h3
      exact ⟨hb, hy, hx, l, m, rfl, matrix_ok b l o m ho hm, rfl, hq, he, hi, hom, hw, htp⟩
  · rintro ⟨hb, hy, hx, l, m, hl, hm, hc, hq, he, hi, hom, hw, htp⟩
    obtain ⟨o, ho, hmo⟩ := matrix_some b l m hm
    exact ⟨(), hb, (.list l, r.epoch, o), (choose_ok _ _ _ _).mpr ⟨hy, hl.symm, hx, ho⟩, _, rfl, m, hmo, _, hq, _, he, _, hi, _,
      hom, _, hw, _, htp, by rw [← hc]⟩

/-- A symmetric covariance matrix is read entry by entry by its labels. -/
theorem C132_matrix (b : Body) (c : CovBlock) (d : Data) (r : Reading) (hc : b.cov = some c) (hd : c.data = .ok d)
    (hs : ∀ i j, d.entry i j = d.entry j i) (h : parse b = .ok r) (i j : Fin 6) :
    r.cov i j = d.entry (position i).1 (position j).1 := by
  obtain ⟨-, -, -, l, m, -, hm, hcov, -⟩ := (C132_accepts b r).mp h
  rcases hm with ⟨c', d', hc', hg, hmd⟩ | ⟨hn, -⟩
  · obtain rfl : c = c' := by rw [hc] at hc'; exact Option.some.inj hc'
    obtain rfl : d = d' := by have := hg.2.1; rw [hd] at this; exact Except.ok.inj this
    rw [hcov, C63_permuted m (fun i j => by rw [hmd, hmd, hs])]
    exact hmd _ _
  · rw [hc] at hn; cases hn

theorem convert_lower : ∀ i j : Fin 6, i < j → ∃ a : Fin 6, a ≠ position i ∧ source assignments i j = some (a, position i) := by
  decide +kernel

/-- Without matrix: on the diagonal stand the squares of the standard deviations. Off the diagonal stands zero if that of the
earlier of the two elements (in the order q, e, i, raan, ap, tp) is a number, and NaN if it is not, whatever the later one is. -/
theorem C132_sigmas (s : Fin 6 → Val) (i j : Fin 6) :
    convert (sigmasToCov s) i i = (s (position i)).sq ∧
    (i < j → Cov.Props.Finite (s (position i)) → convert (sigmasToCov s) i j = .fin 0 ∧ convert (sigmasToCov s) j i = .fin 0) ∧
    (i < j → ¬ Cov.Props.Finite (s (position i)) → convert (sigmasToCov s) i j = .nan ∧ convert (sigmasToCov s) j i = .nan) := by
  have hval : i < j → ∃ a : Fin 6, a ≠ position i ∧ convert (sigmasToCov s) i j = sigmasToCov s a (position i) := by
    intro h
    obtain ⟨a, ha, hs⟩ := convert_lower i j h
    refine ⟨a, ha, ?_⟩
    unfold convert
    rw [foldl_source, hs]
  refine ⟨?_, fun h hf => ?_, fun h hf => ?_⟩
  · have : convert (sigmasToCov s) i i = sigmasToCov s (position i) (position i) := by
      unfold convert
      rw [foldl_source]
      rcases convert_source i i with h | h <;> rw [h]
    rw [this]
    unfold sigmasToCov
    rw [decide_eq_true rfl]
    cases s (position i) <;> simp [Val.sq, Val.timesBit]
  · obtain ⟨a, ha, he⟩ := hval h
    rw [C63_symmetric _ j i, he]
    exact ⟨(Cov.Props.C122_entry s a _ ha).1 hf, (Cov.Props.C122_entry s a _ ha).1 hf⟩
  · obtain ⟨a, ha, he⟩ := hval h
    rw [C63_symmetric _ j i, he]
    exact ⟨(Cov.Props.C122_entry s a _ ha).2 hf, (Cov.Props.C122_entry s a _ ha).2 hf⟩

/-- Six elements with their values. -/
def sample (x : ℝ) : List (Option Entry) :=
  [some ⟨.e, .num (.fin x), .null⟩, some ⟨.q, .text (some (.fin (x + 1))), .text none⟩, none,
   some ⟨.tp, .num (.fin (x + 2)), .num (.fin 1)⟩, some ⟨.om, .num (.fin (x + 3)), .null⟩,
   some ⟨.w, .num (.fin (x + 4)), .null⟩, some ⟨.i, .num (.fin (x + 5)), .other⟩]

/-- Elements of the covariance without an epoch there are put at the epoch of the orbit, and a covariance without a list of labels
is used in whatever order it is. -/
theorem C132_unchecked (d : Data) (h1 : 6 ≤ d.rows) (h2 : 6 ≤ d.cols) :
    parse ⟨true, .num (.fin 100), .list (sample 0), some ⟨none, .ok d, .list (sample 10), .null⟩⟩ =
      .ok ⟨.fin 100, .fin 11, .fin 10, .fin 15, .fin 13, .fin 14, .fin 12, convert (corner d)⟩ := by
  have h3 : ¬ (d.rows < 6 ∨ d.cols < 6) := by omega
  simp [parse, needOrbit, choose, checkLabels, checkSize, prefer, matrixOr, sbdbFloat, h3, bind, Except.bind, elementsMap, sample, elementValue,
    lookup]
  norm_num

theorem sample_sigmas (x : ℝ) (l : List Entry) :
    sigmaMatrix (l ++ (sample x).filterMap id) = .ok (sigmasToCov ![.nan, .nan, .fin 1, .nan, .nan, .nan]) := by
  have h : ∀ n y, elementSigma ((sample x).filterMap id) n = .ok y → elementSigma (l ++ (sample x).filterMap id) n = .ok y := by
    intro n y h
    unfold elementSigma lookup at h ⊢
    rw [List.reverse_append, List.find?_append]
    cases hf : ((sample x).filterMap id).reverse.find? fun e => decide (e.name = n) with
    | none => rw [hf] at h; cases h
    | some e => rw [hf] at h; exact h
  unfold sigmaMatrix
  rw [h .e .nan rfl, h .q .nan rfl, h .tp (.fin 1) rfl, h .om .nan rfl, h .w .nan rfl, h .i .nan rfl]
  rfl

theorem sample_values (x : ℝ) (l : List Entry) (n : El) (y : Val) (h : elementValue ((sample x).filterMap id) n = .ok y) :
    elementValue (l ++ (sample x).filterMap id) n = .ok y := by
  unfold elementValue lookup at h ⊢
  rw [List.reverse_append, List.find?_append]
  cases hf : ((sample x).filterMap id).reverse.find? fun e => decide (e.name = n) with
  | none => rw [hf] at h; cases h
  | some e => rw [hf] at h; exact h

theorem sample_parse (x : ℝ) (l : List (Option Entry)) (s : Scalar) (z : Val) (hs : Reads s z) :
    parse ⟨true, s, .list (l ++ sample x), none⟩ =
      .ok ⟨z, .fin (x + 1), .fin x, .fin (x + 5), .fin (x + 3), .fin (x + 4), .fin (x + 2),
        convert (sigmasToCov ![.nan, .nan, .fin 1, .nan, .nan, .nan])⟩ := by
  have hv := fun n y => sample_values x (l.filterMap id) n y
  rw [← float_ok] at hs
  generalize hm : sigmasToCov ![.nan, .nan, .fin 1, .nan, .nan, .nan] = m
  have hsm := sample_sigmas x (l.filterMap id)
  rw [hm] at hsm
  unfold parse
  simp only [bind_ok, orbit_ok]
  refine ⟨(), trivial, (.list (l ++ sample x), z, none), ?_, l.filterMap id ++ (sample x).filterMap id, ?_, m, hsm, _, hv _ _ rfl, _,
    hv _ _ rfl, _, hv _ _ rfl, _, hv _ _ rfl, _, hv _ _ rfl, _, hv _ _ rfl, rfl⟩
  · unfold choose
    rw [hs]
    rfl
  · simp [elementsMap]

/-- If a name occurs twice the last entry counts, and the six standard deviations need not be given. -/
theorem C132_case : ∃ m, parse ⟨true, .text (some (.fin 100)), .list (sample 0 ++ sample 20), none⟩ =
    .ok ⟨.fin 100, .fin 21, .fin 20, .fin 25, .fin 23, .fin 24, .fin 22, convert m⟩ ∧
    convert m 0 0 = .nan ∧ convert m 5 5 = .fin 1 ∧ convert m 4 5 = .nan := by
  refine ⟨sigmasToCov ![.nan, .nan, .fin 1, .nan, .nan, .nan], ?_, ?_, ?_, ?_⟩
  · rw [sample_parse 20 (sample 0) _ (.fin 100) (Or.inr rfl)]
    norm_num
  · rw [(C132_sigmas _ 0 0).1]; simp [position, Val.sq]
  · rw [(C132_sigmas _ 5 5).1]; simp [position, Val.sq]
  · exact ((C132_sigmas _ 4 5).2.2 (by decide) (by simp [position, Cov.Props.Finite])).1

/-! ## C133 -/

theorem key_ok {α : Type} (o : Option α) (x : α) : key o = .ok x ↔ o = some x := by
  cases o <;> simp [key]

theorem astro_number (s : Scalar) (x : Val) : astroNumber s = some x ↔ Reads s x := by
  unfold astroNumber
  rw [← float_ok]
  cases sbdbFloat s <;> simp

theorem astro_value (l : List (Option Entry)) (n : El) (x : Val) :
    ((lookup (l.filterMap id) n).bind fun e => astroNumber e.value) = some x ↔ ∃ e, LastEntry l n e ∧ Reads e.value x := by
  simp only [Option.bind_eq_some_iff, lookup_last, astro_number]

theorem astro_sigma (l : List (Option Entry)) (n : El) (x : Val) :
    ((lookup (l.filterMap id) n).bind fun e => astroNumber e.sigma) = some x ↔ ∃ e, LastEntry l n e ∧ Reads e.sigma x := by
  simp only [Option.bind_eq_some_iff, lookup_last, astro_number]

theorem astro_elements (es : Elements) (dict : Dict) (h : astroElements es = some dict) : ∃ l, es = .list l ∧
    (∀ n x, dict.value n = some x ↔ ∃ e, LastEntry l n e ∧ Reads e.value x) ∧
    (∀ n x, dict.sig n = some x ↔ ∃ e, LastEntry l n e ∧ Reads e.sigma x) := by
  cases es with
  | missing => cases h
  | notList => cases h
  | list l =>
    simp only [astroElements, Option.some.injEq] at h
    subst h
    exact ⟨l, rfl, fun n x => astro_value l n x, fun n x => astro_sigma l n x⟩

/-- Whatever the older query reads the newer one reads the same. -/
theorem C133_same (b : Body) (d : Data) (r : Reading) (ho : b.hasOrbit = true) (hd : ∀ c, b.cov = some c → c.data = .ok d)
    (hl : ∀ c, b.cov = some c → c.elements ≠ .notList) (h : parseOld (astro b d) = .ok r) : parse b = .ok r := by
  rw [C132_accepts]
  unfold parseOld oldChoose astro at h
  simp only [bind_ok, key_ok] at h
  obtain ⟨⟨dict', x', m⟩, ⟨dict, h1, x, h2, h3⟩, q, hq, e, he, i, hi, om, hom, w, hw, tp, htp, h4⟩ := h
  obtain rfl := Except.ok.inj h4
  obtain ⟨l, hles, hval, hsig⟩ := astro_elements _ _ h1
  rw [astro_number] at h2
  refine ⟨ho, ⟨x, h2⟩, ?_⟩
  have fin : ∀ l', (∀ n x, dict'.value n = some x ↔ ∃ e, LastEntry l' n e ∧ Reads e.value x) →
      ∀ p ∈ [(El.q, q), (El.e, e), (El.i, i), (El.om, om), (El.w, w), (El.tp, tp)],
        ∃ e, LastEntry l' p.1 e ∧ Reads e.value p.2 := by
    intro l' hv p hp
    simp only [List.mem_cons, List.not_mem_nil, or_false] at hp
    rcases hp with rfl | rfl | rfl | rfl | rfl | rfl <;> rw [← hv] <;> assumption
  cases hc : b.cov with
  | none =>
    rw [hc] at h3
    unfold oldSigmas at h3
    simp only [Option.map_none, bind_ok, key_ok, Except.ok.injEq, Prod.mk.injEq] at h3
    obtain ⟨_, ⟨se, e1, sq, e2, st, e3, so, e4, sw, e5, si, e6, rfl⟩, rfl, rfl, rfl⟩ := h3
    refine ⟨by unfold usedEpoch; rw [hc]; exact h2, l, _, by unfold usedElements; rw [hc]; exact hles,
      Or.inr ⟨hc, ![se, sq, st, so, sw, si], ?_, rfl⟩, rfl, fin l hval⟩
    rw [hsig] at e1 e2 e3 e4 e5 e6
    intro k
    have : ∀ n y, (∃ e, LastEntry l n e ∧ Reads e.sigma y) → ∃ e, LastEntry l n e ∧ SigmaIs e y :=
      fun n y ⟨e, h1, h2⟩ => ⟨e, h1, Or.inl h2⟩
    fin_cases k
    · exact this _ _ e1
    · exact this _ _ e2
    · exact this _ _ e3
    · exact this _ _ e4
    · exact this _ _ e5
    · exact this _ _ e6
  | some c =>
    rw [hc] at h3
    simp only [Option.map_some, bind_ok, size_ok, Except.ok.injEq, Prod.mk.injEq] at h3
    obtain ⟨u, h5, -, ⟨h6, h7⟩, ⟨dict'', x''⟩, h8, rfl, rfl, rfl⟩ := h3
    have hg : GoodCov c d := by
      unfold oldLabels at h5
      simp only [bind_ok, key_ok] at h5
      obtain ⟨ls, hls, h5⟩ := h5
      refine ⟨fun ls' h => ?_, hd c hc, h6, h7⟩
      rw [hls] at h
      obtain rfl := Option.some.inj h
      by_contra hne
      rw [if_neg (show ¬ ls.take 6 = expectedLabels from hne)] at h5
      cases h5
    unfold oldPrefer at h8
    simp only at h8 hq he hi hom hw htp fin ⊢
    cases hce : c.elements with
    | notList => exact absurd hce (hl c hc)
    | missing =>
      simp only [hce, astroElements, Except.ok.injEq, Prod.mk.injEq] at h8
      obtain ⟨rfl, rfl⟩ := h8
      exact ⟨by unfold usedEpoch; rw [hc]; simp only [hce]; exact h2, l, _,
        by unfold usedElements; rw [hc]; simp only [hce]; exact hles,
        Or.inl ⟨c, d, hc, hg, fun _ _ => rfl⟩, rfl, fin l hval⟩
    | list l' =>
      obtain ⟨dd, hdd⟩ : ∃ dd, astroElements (.list l') = some dd := ⟨_, rfl⟩
      simp only [hce, hdd, bind_ok, key_ok, Except.ok.injEq, Prod.mk.injEq] at h8
      obtain ⟨y, hy, rfl, rfl⟩ := h8
      obtain ⟨l'', he', hv', -⟩ := astro_elements _ _ hdd
      obtain rfl : l' = l'' := by simpa using he'
      rw [astro_number] at hy
      refine ⟨?_, l', _, by unfold usedElements; rw [hc]; simp only [hce],
        Or.inl ⟨c, d, hc, hg, fun _ _ => rfl⟩, rfl, fin l' hv'⟩
      unfold usedEpoch
      rw [hc]
      simp only [hce]
      rcases hy with hy | hy <;> rw [hy]
      · exact Or.inl rfl
      · exact Or.inr rfl

/-- The converse fails three times: a missing standard deviation, missing labels, and covariance elements without an epoch are
errors (`KeyError`) of the older query only. -/
theorem C133_newer_reads_more (d : Data) (h1 : 6 ≤ d.rows) (h2 : 6 ≤ d.cols) :
    (∀ b ∈ [(⟨true, .num (.fin 100), .list (sample 0), none⟩ : Body),
        ⟨true, .num (.fin 100), .list (sample 0), some ⟨none, .ok d, .missing, .null⟩⟩,
        ⟨true, .num (.fin 100), .list (sample 0), some ⟨some expectedLabels, .ok d, .list (sample 10), .null⟩⟩],
      (∃ r, parse b = .ok r) ∧ parseOld (astro b d) = .error .keyError) := by
  have h3 : ¬ (d.rows < 6 ∨ d.cols < 6) := by omega
  intro b hb
  simp only [List.mem_cons, List.not_mem_nil, or_false] at hb
  rcases hb with rfl | rfl | rfl
  · constructor
    · exact ⟨_, sample_parse 0 [] _ (.fin 100) (Or.inl rfl)⟩
    · simp [parseOld, oldChoose, oldSigmas, astro, astroElements, astroNumber, sbdbFloat, sample, lookup, key, bind, Except.bind]
  · constructor
    · simp [parse, needOrbit, choose, checkLabels, checkSize, prefer, matrixOr, sbdbFloat, bind, Except.bind, elementsMap, sample,
        elementValue, lookup, h3]
    · simp [parseOld, oldChoose, oldLabels, astro, astroElements, astroNumber, sbdbFloat, key, bind, Except.bind]
  · constructor
    · simp [parse, needOrbit, choose, checkLabels, checkSize, prefer, matrixOr, sbdbFloat, bind, Except.bind, elementsMap, sample,
        elementValue, lookup, h3, expectedLabels]
    · simp [parseOld, oldChoose, oldLabels, checkSize, oldPrefer, astro, astroElements, astroNumber, sbdbFloat, key, bind, Except.bind, h3,
        expectedLabels]

/-- An answer that both read: a labelled matrix of seven rows, with its own elements and epoch. -/
theorem C133_case (d : Data) (h1 : d.rows = 7) (h2 : d.cols = 7) :
    parseOld (astro ⟨true, .num (.fin 100), .list (sample 0), some ⟨some (expectedLabels ++ ["A2"]), .ok d, .list (sample 10),
      .num (.fin 200)⟩⟩ d) = .ok ⟨.fin 200, .fin 11, .fin 10, .fin 15, .fin 13, .fin 14, .fin 12, convert (corner d)⟩ := by
  simp [parseOld, oldChoose, oldLabels, checkSize, oldPrefer, astro, astroElements, astroNumber, sbdbFloat, key, bind, Except.bind, h1, h2,
    expectedLabels, sample, lookup]
  norm_num

end Verif.Sbdb.Props
