import Verif.Rot.Wrap
import Verif.Rot.EstimateProps
import Verif.AbsMag.Rows
import Mathlib.Logic.Relation

/-! # Apparitions, objects and observing nights: C115-C118 -/

namespace Verif.Rot.Props

open Verif Sched

/-! ## Apparitions -/

theorem splitRuns_head (t : Nat → ℝ) (gap : ℝ) : ∀ (l : List Nat) (j : Nat), ∃ g gs, splitRuns t gap (j :: l) = (j :: g) :: gs := by
  intro l
  induction l with
  | nil => exact fun j => ⟨[], [], rfl⟩
  | cons i l ih =>
    intro j
    obtain ⟨g, gs, h⟩ := ih i
    rw [splitRuns, h]
    dsimp only
    split_ifs
    · exact ⟨[], _, rfl⟩
    · exact ⟨_, _, rfl⟩

theorem splitRuns_spec (t : Nat → ℝ) (gap : ℝ) : ∀ l : List Nat, l.Pairwise (fun i j => t i ≤ t j) → l ≠ [] →
    (splitRuns t gap l).flatten = l ∧ (∀ g ∈ splitRuns t gap l, g ≠ []) ∧
    (splitRuns t gap l).Pairwise (fun g g' => ∀ i ∈ g, ∀ j ∈ g', gap < t j - t i) ∧
    ∀ g ∈ splitRuns t gap l, g.IsChain fun i j => t j - t i ≤ gap := by
  intro l
  induction l with
  | nil => exact fun _ h => absurd rfl h
  | cons i l ih =>
    intro hs _
    cases l with
    | nil => simp [splitRuns]
    | cons j l =>
      rw [List.pairwise_cons] at hs
      obtain ⟨h1, h2, h3, h4⟩ := ih hs.2 (by simp)
      obtain ⟨g, gs, h⟩ := splitRuns_head t gap l j
      rw [splitRuns, h]
      rw [h] at h1 h2 h3 h4
      dsimp only
      rw [List.pairwise_cons] at h3
      have hij := hs.1 j (by simp)
      split_ifs with hgap
      · refine ⟨by simpa using h1, ?_, ?_, ?_⟩
        · intro x hx
          rcases List.mem_cons.1 hx with rfl | hx
          · simp
          · exact h2 x hx
        · rw [List.pairwise_cons]
          refine ⟨?_, List.pairwise_cons.2 h3⟩
          intro g' hg' a ha b hb
          rw [List.mem_singleton] at ha
          subst ha
          have hb' : b ∈ j :: l := by
            rw [← h1]
            exact List.mem_flatten.2 ⟨g', hg', hb⟩
          have hjb : t j ≤ t b := by
            rcases List.mem_cons.1 hb' with rfl | hb'
            · exact le_refl _
            · exact (List.pairwise_cons.1 hs.2).1 b hb'
          linarith
        · intro x hx
          rcases List.mem_cons.1 hx with rfl | hx
          · simp
          · exact h4 x hx
      · refine ⟨by simpa using h1, ?_, ?_, ?_⟩
        · intro x hx
          rcases List.mem_cons.1 hx with rfl | hx
          · simp
          · exact h2 x (List.mem_cons_of_mem _ hx)
        · rw [List.pairwise_cons]
          refine ⟨?_, h3.2⟩
          intro g' hg' a ha b hb
          have hj := h3.1 g' hg' j (by simp) b hb
          rcases List.mem_cons.1 ha with rfl | ha
          · linarith
          · exact h3.1 g' hg' a ha b hb
        · intro x hx
          rcases List.mem_cons.1 hx with rfl | hx
          · rw [List.isChain_cons_cons]
            exact ⟨not_lt.1 hgap, h4 _ (by simp)⟩
          · exact h4 x (List.mem_cons_of_mem _ hx)

/-- C115: the apparitions hold every observation once. They are in the order of time and more than the gap apart, whichever observations are
taken; within one the observations are in the order of time, those at the same time in the order of the table, and no step exceeds the gap. -/
theorem C115_groups {times : List ℝ} (hne : times ≠ []) (gap : ℝ) :
    (apparitions times gap).flatten.Perm (List.range times.length) ∧ (∀ g ∈ apparitions times gap, g ≠ []) ∧
    (apparitions times gap).Pairwise (fun g g' => ∀ i ∈ g, ∀ j ∈ g', gap < times.getD j 0 - times.getD i 0) ∧
    ∀ g ∈ apparitions times gap, (g.Pairwise fun i j => times.getD i 0 < times.getD j 0 ∨ times.getD i 0 = times.getD j 0 ∧ i < j) ∧
      g.IsChain fun i j => times.getD j 0 - times.getD i 0 ≤ gap := by
  have hp := sortBy_perm (fun i => toLex (times.getD i 0, i)) (List.range times.length)
  have hs := sortBy_sorted (fun i => toLex (times.getD i 0, i)) (List.range times.length)
  have hn : (sortBy (fun i => toLex (times.getD i 0, i)) (List.range times.length)).Nodup := hp.nodup_iff.2 List.nodup_range
  have hlt : (sortBy (fun i => toLex (times.getD i 0, i)) (List.range times.length)).Pairwise
      (fun i j => times.getD i 0 < times.getD j 0 ∨ times.getD i 0 = times.getD j 0 ∧ i < j) := by
    refine (hs.and hn).imp fun {i j} h => ?_
    obtain ⟨h1, h2⟩ := h
    rw [Prod.Lex.toLex_le_toLex] at h1
    rcases h1 with h1 | ⟨h1, h3⟩
    · exact Or.inl h1
    · exact Or.inr ⟨h1, lt_of_le_of_ne h3 h2⟩
  obtain ⟨h1, h2, h3, h4⟩ := splitRuns_spec (fun i => times.getD i 0) gap (sortBy (fun i => toLex (times.getD i 0, i)) (List.range times.length))
    (hlt.imp fun {i j} h => by rcases h with h | h; exacts [h.le, h.1.le])
    (by
      intro h
      rw [h] at hp
      have := hp.length_eq
      simp at this
      exact hne (List.length_eq_zero_iff.1 this.symm))
  refine ⟨?_, h2, h3, fun g hg => ⟨?_, h4 g hg⟩⟩
  · unfold apparitions
    rw [h1]
    exact hp
  · rw [← h1] at hlt
    exact (List.pairwise_flatten.1 hlt).1 g hg

theorem chain_linked {r : Nat → Nat → Prop} : ∀ {l : List Nat} {i j : Nat}, l.IsChain r → (∀ a b, r a b → r b a) → i ∈ l → j ∈ l →
    Relation.ReflTransGen (fun a b => a ∈ l ∧ b ∈ l ∧ r a b) i j := by
  intro l
  have key : ∀ (l : List Nat) (a : Nat), (a :: l).IsChain r → (∀ a b, r a b → r b a) → ∀ x ∈ a :: l,
      Relation.ReflTransGen (fun u v => u ∈ a :: l ∧ v ∈ a :: l ∧ r u v) a x ∧ Relation.ReflTransGen (fun u v => u ∈ a :: l ∧ v ∈ a :: l ∧ r u v) x a := by
    intro l
    induction l with
    | nil =>
      intro a _ _ x hx
      rw [List.mem_singleton] at hx
      subst hx
      exact ⟨.refl, .refl⟩
    | cons b l ih =>
      intro a hc hsym x hx
      rw [List.isChain_cons_cons] at hc
      rcases List.mem_cons.1 hx with rfl | hx
      · exact ⟨.refl, .refl⟩
      · obtain ⟨h1, h2⟩ := ih b hc.2 hsym x hx
        have hmono : ∀ {u v}, Relation.ReflTransGen (fun u v => u ∈ b :: l ∧ v ∈ b :: l ∧ r u v) u v →
            Relation.ReflTransGen (fun u v => u ∈ a :: b :: l ∧ v ∈ a :: b :: l ∧ r u v) u v := by
          intro u v h
          exact Relation.ReflTransGen.mono (fun u v h => ⟨List.mem_cons_of_mem _ h.1, List.mem_cons_of_mem _ h.2.1, h.2.2⟩) _ _ h
        exact ⟨Relation.ReflTransGen.head ⟨by simp, by simp, hc.1⟩ (hmono h1), Relation.ReflTransGen.tail (hmono h2) ⟨by simp, by simp, hsym _ _ hc.1⟩⟩
  intro i j hc hsym hi hj
  cases l with
  | nil => simp at hi
  | cons a l => exact (key l a hc hsym i hi).2.trans (key l a hc hsym j hj).1

/-- C115: two observations are in the same apparition exactly if one can be reached from the other by steps of at most the gap. -/
theorem C115_same {times : List ℝ} {gap : ℝ} (hgap : 0 ≤ gap) {i j : Nat} (hi : i < times.length) (hj : j < times.length) :
    (∃ g ∈ apparitions times gap, i ∈ g ∧ j ∈ g) ↔
      Relation.ReflTransGen (fun a b => a < times.length ∧ b < times.length ∧ |times.getD a 0 - times.getD b 0| ≤ gap) i j := by
  have hne : times ≠ [] := by rintro rfl; simp at hi
  obtain ⟨h1, -, h3, h4⟩ := C115_groups hne gap
  have hmem : ∀ a, a < times.length → ∃ g ∈ apparitions times gap, a ∈ g := by
    intro a ha
    exact List.mem_flatten.1 (h1.mem_iff.2 (List.mem_range.2 ha))
  have hlt : ∀ g ∈ apparitions times gap, ∀ a ∈ g, a < times.length := fun g hg a ha =>
    List.mem_range.1 (h1.mem_iff.1 (List.mem_flatten.2 ⟨g, hg, ha⟩))
  constructor
  · rintro ⟨g, hg, hig, hjg⟩
    have hc : g.IsChain fun i j => |times.getD i 0 - times.getD j 0| ≤ gap := by
      obtain ⟨hp, hc⟩ := h4 g hg
      have hp' := hp.isChain
      rw [List.isChain_iff_getElem] at hp' hc ⊢
      intro k hk
      have h5 := hp' k hk
      have h6 := hc k hk
      rw [abs_le]
      constructor
      · linarith
      · rcases h5 with h5 | h5
        · linarith
        · linarith [h5.1]
    exact Relation.ReflTransGen.mono (fun a b h => ⟨hlt g hg a h.1, hlt g hg b h.2.1, h.2.2⟩) _ _ (chain_linked hc (fun a b h => by rwa [abs_sub_comm]) hig hjg)
  · intro h
    induction h with
    | refl =>
      obtain ⟨g, hg, hig⟩ := hmem i hi
      exact ⟨g, hg, hig, hig⟩
    | tail _ hab ih =>
      rename_i b c _
      obtain ⟨g, hg, hig, hbg⟩ := ih hab.1
      obtain ⟨g', hg', hcg'⟩ := hmem c hab.2.1
      by_cases he : g = g'
      · subst he
        exact ⟨g, hg, hig, hcg'⟩
      · exfalso
        obtain ⟨m, hm, rfl⟩ := List.getElem_of_mem hg
        obtain ⟨m', hm', rfl⟩ := List.getElem_of_mem hg'
        have hmm : m ≠ m' := fun h => he (by subst h; rfl)
        rw [List.pairwise_iff_getElem] at h3
        have hd := abs_le.1 hab.2.2
        rcases lt_or_gt_of_ne hmm with h | h
        · have := h3 m m' hm hm' h b hbg c hcg'
          linarith
        · have := h3 m' m hm' hm h c hcg' b hbg
          linarith

/-! ## The choice -/

section

variable {O α : Type} {solve : List O → Except PyErr (Res α)} {time : O → ℝ} {gap : ℝ} {obs : List O}

/-- The entry of an apparition: its result, or one that says that there is none if ValueError was raised. -/
def Candidate (solve : List O → Except PyErr (Res α)) (obs : List O) (g : List Nat) (r : Res α) : Prop :=
  solve (take obs g) = .ok r ∨ solve (take obs g) = .error .valueError ∧
    r = ⟨"insufficient_data", none, g.length, ["solve_error"], ["solve_error"], none⟩

/-- One verdict is more confident than another. -/
def MoreConfident (v w : String) : Prop :=
  (v = "single_period" ∧ w ≠ "single_period") ∨ (v = "period_family" ∧ w ≠ "single_period" ∧ w ≠ "period_family")

/-- The verdicts are equally confident. -/
def AsConfident (v w : String) : Prop := (v = "single_period" ↔ w = "single_period") ∧ (v = "period_family" ↔ w = "period_family")

/-- One ratio of signal to noise is larger than another; a missing one is smaller than every other. -/
def Larger (a b : Option ℝ) : Prop := ∃ x, a = some x ∧ ∀ y, b = some y → y < x

/-- Apparition `k` with result `a` is preferred to apparition `j` with result `b`. -/
def Preferred (k : Nat) (a : Res α) (j : Nat) (b : Res α) : Prop :=
  MoreConfident a.verdict b.verdict ∨ AsConfident a.verdict b.verdict ∧
    (Larger a.snr b.snr ∨ a.snr = b.snr ∧ (b.nObs < a.nObs ∨ b.nObs = a.nObs ∧ k < j))

theorem rank_lt {v w : String} : rank w < rank v ↔ MoreConfident v w := by
  unfold rank MoreConfident
  split_ifs <;> simp_all

theorem rank_eq {v w : String} : rank w = rank v ↔ AsConfident v w := by
  unfold rank AsConfident
  split_ifs <;> simp_all

theorem larger_iff {a b : Option ℝ} : @LT.lt (WithBot ℝ) _ b a ↔ Larger a b := by
  unfold Larger
  cases a with
  | none =>
    constructor
    · intro h
      exact absurd h (not_lt_bot (α := WithBot ℝ))
    · rintro ⟨x, hx, -⟩
      cases hx
  | some x =>
    cases b with
    | none => exact ⟨fun _ => ⟨x, rfl, fun y hy => by cases hy⟩, fun _ => WithBot.bot_lt_coe x⟩
    | some y =>
      refine ⟨fun h => ⟨x, rfl, fun z hz => ?_⟩, ?_⟩
      · cases hz
        exact WithBot.coe_lt_coe.1 h
      · rintro ⟨z, hz, h⟩
        cases hz
        exact WithBot.coe_lt_coe.2 (h y rfl)

theorem score_lt {k j : Nat} {a b : Res α} : scoreOf j b < scoreOf k a ↔ Preferred k a j b := by
  unfold scoreOf Preferred
  rw [Prod.Lex.toLex_lt_toLex, Prod.Lex.toLex_lt_toLex, Prod.Lex.toLex_lt_toLex, rank_lt, rank_eq]
  have h3 : (-(j : ℤ) < -(k : ℤ)) ↔ k < j := by omega
  dsimp only
  rw [larger_iff, h3]
  constructor
  · rintro (h | ⟨h1, h | ⟨h2, h⟩⟩)
    · exact Or.inl h
    · exact Or.inr ⟨h1, Or.inl h⟩
    · exact Or.inr ⟨h1, Or.inr ⟨h2.symm, h⟩⟩
  · rintro (h | ⟨h1, h | ⟨h2, h⟩⟩)
    · exact Or.inl h
    · exact Or.inr ⟨h1, Or.inl h⟩
    · exact Or.inr ⟨h1, Or.inr ⟨h2.symm, h⟩⟩

theorem maxBy_spec : ∀ (l : List (Nat × Res α)) (a : Nat × Res α), maxBy a l ∈ a :: l ∧ ∀ x ∈ a :: l, scoreOf x.1 x.2 ≤ scoreOf (maxBy a l).1 (maxBy a l).2 := by
  intro l
  induction l with
  | nil =>
    intro a
    exact ⟨by simp [maxBy], fun x hx => by rw [List.mem_singleton] at hx; subst hx; exact le_refl _⟩
  | cons b l ih =>
    intro a
    have he : maxBy a (b :: l) = maxBy (if scoreOf a.1 a.2 < scoreOf b.1 b.2 then b else a) l := rfl
    rw [he]
    split_ifs with h
    · obtain ⟨h1, h2⟩ := ih b
      refine ⟨List.mem_cons_of_mem _ h1, fun x hx => ?_⟩
      rcases List.mem_cons.1 hx with rfl | hx
      · exact h.le.trans (h2 b (by simp))
      · exact h2 x hx
    · obtain ⟨h1, h2⟩ := ih a
      refine ⟨?_, fun x hx => ?_⟩
      · rcases List.mem_cons.1 h1 with h1 | h1
        · rw [h1]; simp
        · simp [h1]
      · rcases List.mem_cons.1 hx with rfl | hx
        · exact h2 x (by simp)
        · rcases List.mem_cons.1 hx with rfl | hx
          · exact (not_lt.1 h).trans (h2 a (by simp))
          · exact h2 x (List.mem_cons_of_mem _ hx)

theorem caught_ok {n : Nat} {e : Except PyErr (Res α)} {r : Res α} : caught n e = .ok r ↔ e = .ok r ∨ e = .error .valueError ∧
    r = ⟨"insufficient_data", none, n, ["solve_error"], ["solve_error"], none⟩ := by
  cases e with
  | ok a => simp [caught]
  | error e =>
    cases e <;> simp [caught, unsolved, eq_comm]

theorem caught_error {n : Nat} {e : Except PyErr (Res α)} {err : PyErr} : caught n e = .error err ↔ err = .runtimeError ∧ ∃ x, x ≠ .valueError ∧ e = .error x := by
  cases e with
  | ok a => simp [caught]
  | error e =>
    cases e <;> simp [caught, eq_comm]

/-- C115: with observations of a single apparition the result is that of the estimator, with a flag; so are errors. -/
theorem C115_single (h : (apparitions (obs.map time) gap).length ≤ 1) :
    (∀ e, solve obs = .error e → bestApparition solve time gap obs = .error e) ∧
    ∀ r, solve obs = .ok r → bestApparition solve time gap obs = .ok { r with flags := r.flags ++ ["apparition_selected_1_of_1"] } := by
  unfold bestApparition
  dsimp only
  rw [if_pos (Or.inr h)]
  refine ⟨fun e he => by rw [he]; rfl, fun r hr => ?_⟩
  rw [hr]
  rfl

/-- C115: with several apparitions the result is that of the apparition which is preferred to all others, with a flag that says which; an
apparition for which the estimator raises ValueError takes part as one without a period. The only error is RuntimeError, and it is raised exactly
if the estimator raises another error for some apparition. -/
theorem C115_best (h : 2 ≤ (apparitions (obs.map time) gap).length) :
    (∀ r, bestApparition solve time gap obs = .ok r → ∃ cands : List (Res α), List.Forall₂ (Candidate solve obs) (apparitions (obs.map time) gap) cands ∧
      ∃ k a, cands[k]? = some a ∧ (∀ j b, cands[j]? = some b → j ≠ k → Preferred k a j b) ∧
        r = { a with flags := a.flags ++ [s!"apparition_selected_{k + 1}_of_{(apparitions (obs.map time) gap).length}"] }) ∧
    (bestApparition solve time gap obs = .error .runtimeError ↔
      ∃ g ∈ apparitions (obs.map time) gap, ∃ e, e ≠ .valueError ∧ solve (take obs g) = .error e) ∧
    ∀ e, bestApparition solve time gap obs = .error e → e = .runtimeError := by
  have hobs : obs ≠ [] := by
    rintro rfl
    simp [apparitions, sortBy, splitRuns] at h
  have hif : ¬ (obs = [] ∨ (apparitions (obs.map time) gap).length ≤ 1) := by
    rintro (h' | h')
    · exact hobs h'
    · omega
  unfold bestApparition
  dsimp only
  rw [if_neg hif]
  generalize apparitions (obs.map time) gap = groups at h hif
  cases hg : gather (fun idx => caught idx.length (solve (take obs idx))) groups with
  | error e =>
    dsimp only
    obtain ⟨g, hgm, hge⟩ := gather_error_of hg
    obtain ⟨rfl, x, hx, hsx⟩ := caught_error.1 hge
    exact ⟨(fun r h => by cases h), ⟨fun _ => ⟨g, hgm, x, hx, hsx⟩, fun _ => rfl⟩, fun e h => by cases h; rfl⟩
  | ok results =>
    dsimp only
    have hf := (AbsMag.gather_ok_iff _ _ _).1 hg
    have hlen : results.length = groups.length := hf.length_eq.symm
    have hnoerr : ¬ ∃ g ∈ groups, ∃ e, e ≠ .valueError ∧ solve (take obs g) = .error e := by
      rintro ⟨g, hgm, e, he, hs⟩
      clear hg hlen hif h
      induction hf with
      | nil => simp at hgm
      | cons h1 _ ih =>
        rcases List.mem_cons.1 hgm with rfl | hgm
        · rw [hs] at h1
          rw [caught_error.2 ⟨rfl, e, he, rfl⟩] at h1
          cases h1
        · exact ih hgm
    cases hz : results.zipIdx.map fun x => (x.2, x.1) with
    | nil =>
      exfalso
      have := congrArg List.length hz
      rw [List.length_map, List.length_zipIdx, hlen, List.length_nil] at this
      omega
    | cons c cs =>
      dsimp only
      refine ⟨?_, ⟨fun h => (by cases h), fun h => absurd h hnoerr⟩, fun e h => by cases h⟩
      intro r hr
      cases hr
      refine ⟨results, hf.imp fun g r h => caught_ok.1 h, ?_⟩
      obtain ⟨m1, m2⟩ := maxBy_spec cs c
      rw [← hz] at m1 m2
      obtain ⟨⟨a, k⟩, hak, he⟩ := List.mem_map.1 m1
      have hka : results[k]? = some a := by
        have := List.mem_zipIdx_iff_getElem?.1 hak
        simpa using this
      refine ⟨k, a, hka, fun j b hjb hjk => ?_, ?_⟩
      · have hmem : (b, j) ∈ results.zipIdx := List.mem_zipIdx_iff_getElem?.2 (by simpa using hjb)
        have hle := m2 (j, b) (List.mem_map.2 ⟨(b, j), hmem, rfl⟩)
        rw [← he] at hle
        dsimp only at hle
        refine score_lt.1 (lt_of_le_of_ne hle fun heq => hjk ?_)
        unfold scoreOf at heq
        have h1 := congrArg (fun x => (ofLex (ofLex (ofLex x).2).2).2) heq
        simp only [ofLex_toLex, neg_inj, Int.natCast_inj] at h1
        exact h1
      · rw [← he]
        rfl

/-- C115: not so that parameters out of range are reported: if ValueError is raised whatever the observations, with several apparitions the result
is a row without a period. -/
theorem C115_swallow_false (h : 2 ≤ (apparitions (obs.map time) gap).length) (hs : ∀ l, solve l = .error .valueError) :
    ∃ r, bestApparition solve time gap obs = .ok r ∧ r.verdict = "insufficient_data" ∧ r.reasons = ["solve_error"] := by
  obtain ⟨h1, h2, h3⟩ := C115_best (solve := solve) h
  cases hb : bestApparition solve time gap obs with
  | error e =>
    cases h3 e hb
    obtain ⟨g, -, e, he, hge⟩ := h2.1 hb
    rw [hs] at hge
    cases hge
    exact absurd rfl he
  | ok r =>
    obtain ⟨cands, hc, k, a, hka, -, rfl⟩ := h1 r hb
    obtain ⟨hk, hke⟩ := List.getElem?_eq_some_iff.1 hka
    have hk' : k < (apparitions (obs.map time) gap).length := by rw [hc.length_eq]; exact hk
    have := List.Forall₂.get hc hk' hk
    rcases this with hr | ⟨-, hr⟩
    · rw [hs] at hr
      cases hr
    · refine ⟨_, rfl, ?_⟩
      have ha : a = _ := hke.symm.trans hr
      rw [ha]
      exact ⟨rfl, rfl⟩

theorem splitRuns_map {ι κ : Type} (f : ι → κ) (t : κ → ℝ) (gap : ℝ) : ∀ l : List ι, splitRuns t gap (l.map f) = (splitRuns (fun i => t (f i)) gap l).map (List.map f) := by
  intro l
  induction l with
  | nil => rfl
  | cons i l ih =>
    cases l with
    | nil => rfl
    | cons j l =>
      rw [List.map_cons, List.map_cons, splitRuns, splitRuns, ← List.map_cons, ih]
      cases splitRuns (fun i => t (f i)) gap (j :: l) with
      | nil => rfl
      | cons g gs =>
        dsimp only [List.map_cons]
        split_ifs <;> rfl

theorem gather_map {A B C E : Type} (f : A → B) (work : B → Except E C) : ∀ l : List A, gather work (l.map f) = gather (fun a => work (f a)) l := by
  intro l
  induction l with
  | nil => rfl
  | cons a l ih =>
    rw [List.map_cons]
    unfold gather
    rw [ih]

theorem gather_congr {A C E : Type} {w w' : A → Except E C} : ∀ {l : List A}, (∀ a ∈ l, w a = w' a) → gather w l = gather w' l := by
  intro l
  induction l with
  | nil => exact fun _ => rfl
  | cons a l ih =>
    intro h
    unfold gather
    rw [ih fun b hb => h b (List.mem_cons_of_mem _ hb), h a (by simp)]

/-- The rows of the apparitions: those of the table in the order of time, divided. -/
theorem apparitions_rows (obs : List O) : (apparitions (obs.map time) gap).map (List.map fun i => obs[i]?) =
    splitRuns (fun o : Option O => (o.map time).getD 0) gap
      ((sortBy (fun i => toLex ((obs.map time).getD i 0, i)) (List.range obs.length)).map fun i => obs[i]?) := by
  rw [splitRuns_map]
  unfold apparitions
  rw [List.length_map]
  congr 2
  funext i
  rw [List.getD_eq_getElem?_getD, List.getElem?_map]

theorem sorted_rows {obs obs' : List O} (hp : obs.Perm obs') (hd : (obs.map time).Nodup) :
    ((sortBy (fun i => toLex ((obs.map time).getD i 0, i)) (List.range obs.length)).map fun i => obs[i]?) =
    (sortBy (fun i => toLex ((obs'.map time).getD i 0, i)) (List.range obs'.length)).map fun i => obs'[i]? := by
  have key : ∀ l : List O, (l.map time).Nodup →
      ((sortBy (fun i => toLex ((l.map time).getD i 0, i)) (List.range l.length)).map fun i => l[i]?).Perm (l.map some) ∧
      ((sortBy (fun i => toLex ((l.map time).getD i 0, i)) (List.range l.length)).map fun i => l[i]?).Pairwise
        fun a b => (a.map time).getD 0 ≤ (b.map time).getD 0 := by
    intro l hl
    constructor
    · refine ((sortBy_perm _ _).map _).trans (List.Perm.of_eq ?_)
      refine List.ext_getElem (by simp) fun i h1 h2 => ?_
      simp only [List.length_map, List.length_range] at h1
      simp [h1]
    · rw [List.pairwise_map]
      refine (sortBy_sorted (fun i => toLex ((l.map time).getD i 0, i)) (List.range l.length)).imp fun {i j} h => ?_
      rw [Prod.Lex.toLex_le_toLex] at h
      have he : ∀ i, (l[i]?.map time).getD 0 = (l.map time).getD i 0 := fun i => by
        rw [List.getD_eq_getElem?_getD, List.getElem?_map]
      rw [he, he]
      rcases h with h | h
      · exact h.le
      · exact h.1.le
  have hd' : (obs'.map time).Nodup := (hp.map time).nodup_iff.1 hd
  obtain ⟨p1, s1⟩ := key obs hd
  obtain ⟨p2, s2⟩ := key obs' hd'
  refine List.Perm.eq_of_pairwise ?_ s1 s2 (p1.trans ((hp.map some).trans p2.symm))
  intro a b ha hb hab hba
  have ha' := p1.mem_iff.1 ha
  have hb' := (hp.map some).mem_iff.2 (p2.mem_iff.1 hb)
  obtain ⟨x, hx, rfl⟩ := List.mem_map.1 ha'
  obtain ⟨y, hy, rfl⟩ := List.mem_map.1 hb'
  have : time x = time y := le_antisymm (by simpa using hab) (by simpa using hba)
  rw [List.inj_on_of_nodup_map hd hx hy this]

theorem best_rows (h : 2 ≤ (apparitions (obs.map time) gap).length) : bestApparition solve time gap obs =
    (match gather (fun l : List (Option O) => caught l.length (solve (l.filterMap id))) ((apparitions (obs.map time) gap).map (List.map fun i => obs[i]?)) with
    | .error e => .error e
    | .ok results =>
      match results.zipIdx.map fun x => (x.2, x.1) with
      | [] => .error .valueError
      | c :: cs => .ok (flagged (maxBy c cs).2 ((maxBy c cs).1 + 1) ((apparitions (obs.map time) gap).map (List.map fun i => obs[i]?)).length)) := by
  have hobs : obs ≠ [] := by
    rintro rfl
    simp [apparitions, sortBy, splitRuns] at h
  have hif : ¬ (obs = [] ∨ (apparitions (obs.map time) gap).length ≤ 1) := by
    rintro (h' | h')
    · exact hobs h'
    · omega
  unfold bestApparition
  dsimp only
  rw [if_neg hif, gather_map, List.length_map]
  have he : ∀ g : List Nat, caught g.length (solve (take obs g)) = caught (g.map fun i => obs[i]?).length (solve ((g.map fun i => obs[i]?).filterMap id)) := by
    intro g
    rw [List.length_map, List.filterMap_map]
    rfl
  rw [gather_congr fun g _ => he g]
  rfl

/-- C115: with several apparitions and no two observations at the same time, the order of the table does not matter. -/
theorem C115_order {obs' : List O} (hp : obs.Perm obs') (hd : (obs.map time).Nodup) (h : 2 ≤ (apparitions (obs.map time) gap).length) :
    bestApparition solve time gap obs = bestApparition solve time gap obs' := by
  have he : (apparitions (obs.map time) gap).map (List.map fun i => obs[i]?) = (apparitions (obs'.map time) gap).map (List.map fun i => obs'[i]?) := by
    rw [apparitions_rows, apparitions_rows, sorted_rows hp hd]
  have h' : 2 ≤ (apparitions (obs'.map time) gap).length := by
    have := congrArg List.length he
    rw [List.length_map, List.length_map] at this
    omega
  rw [best_rows h, best_rows h', he]

end

/-- Two observations two hundred days apart are of two apparitions, for the gap of 120 days that is used by default. -/
theorem far_apart : (apparitions [0, 200] 120).length = 2 := by
  have hs : sortBy (fun i => toLex (([0, 200] : List ℝ).getD i 0, i)) (List.range [(0 : ℝ), 200].length) = [0, 1] := by
    have : List.range [(0 : ℝ), 200].length = [0, 1] := rfl
    rw [this]
    refine sortBy_of_sorted _ ?_
    simp [Prod.Lex.toLex_le_toLex]
  unfold apparitions
  rw [hs]
  norm_num [splitRuns]

/-- C115: so with the estimator itself: a parameter out of range is an error with one apparition, and a row that says only that there are too few
data with two. -/
theorem C115_params_false {α : Type} {env : Env} {k : Knobs} (hk : ¬ Accepted k) (row : ℝ → Obs) (res : Outcome → Res α) :
    bestApparition (fun l => (estimate env k (l.map row)).map res) id 120 [0] = .error .valueError ∧
    ∃ r, bestApparition (fun l => (estimate env k (l.map row)).map res) id 120 [0, 200] = .ok r ∧ r.verdict = "insufficient_data" := by
  have hs : ∀ l : List ℝ, (estimate env k (l.map row)).map res = .error .valueError := fun l => by
    rw [C114_refused (Or.inl hk)]
    rfl
  constructor
  · refine (C115_single (solve := fun l => (estimate env k (l.map row)).map res) (time := id) (gap := 120) (obs := [0]) ?_).1 _ (hs [0])
    simp [apparitions, sortBy, splitRuns]
  · obtain ⟨r, h1, h2, -⟩ := C115_swallow_false (solve := fun l => (estimate env k (l.map row)).map res) (time := id) (gap := 120) (obs := [0, 200])
      (by rw [List.map_id, far_apart]) hs
    exact ⟨r, h1, h2⟩

example : ¬ Accepted { defaults with clip := -1 } := fun h => by
  have := h.clip
  norm_num at this

/-! ## Objects -/

/-- The name `k` is the id `s` without the zero characters at its end. -/
def Names (k s : List Char) : Prop := (∃ n, s = k ++ List.replicate n (Char.ofNat 0)) ∧ k.getLast? ≠ some (Char.ofNat 0)

theorem names_iff {k s : List Char} : npStr s = k ↔ Names k s := by
  have hspec : Names (npStr s) s := by
    unfold Names npStr
    constructor
    · refine ⟨(s.reverse.takeWhile fun c => decide (c = Char.ofNat 0)).length, ?_⟩
      have h1 : s.reverse.takeWhile (fun c => decide (c = Char.ofNat 0)) =
          List.replicate (s.reverse.takeWhile fun c => decide (c = Char.ofNat 0)).length (Char.ofNat 0) := by
        rw [List.eq_replicate_iff]
        exact ⟨rfl, fun b hb => by simpa using List.mem_takeWhile_imp hb⟩
      have h2 := congrArg List.reverse (List.takeWhile_append_dropWhile (p := fun c => decide (c = Char.ofNat 0)) (l := s.reverse))
      rw [List.reverse_append, List.reverse_reverse, h1, List.reverse_replicate] at h2
      rw [h1, List.length_replicate] at *
      exact h2.symm
    · rw [List.getLast?_reverse]
      intro h
      have := List.head?_dropWhile_not (fun c => decide (c = Char.ofNat 0)) s.reverse
      rw [h] at this
      simp at this
  constructor
  · rintro rfl
    exact hspec
  · rintro ⟨⟨n, hn⟩, hk⟩
    obtain ⟨⟨m, hm⟩, hl⟩ := hspec
    have huniq : ∀ (m n : Nat) (k l : List Char), l ++ List.replicate m (Char.ofNat 0) = k ++ List.replicate n (Char.ofNat 0) →
        k.getLast? ≠ some (Char.ofNat 0) → l.getLast? ≠ some (Char.ofNat 0) → l = k := by
      intro m
      induction m with
      | zero =>
        intro n k l h hk hl
        cases n with
        | zero => simpa using h
        | succ n =>
          exfalso
          rw [List.replicate_zero, List.append_nil, List.replicate_succ', ← List.append_assoc] at h
          rw [h] at hl
          simp at hl
      | succ m ih =>
        intro n k l h hk hl
        cases n with
        | zero =>
          exfalso
          rw [List.replicate_zero, List.append_nil, List.replicate_succ', ← List.append_assoc] at h
          rw [← h] at hk
          simp at hk
        | succ n =>
          rw [List.replicate_succ', List.replicate_succ', ← List.append_assoc, ← List.append_assoc] at h
          exact ih n k l (List.append_inj_left' h rfl) hk hl
    exact huniq m n k _ (hm.symm.trans hn) hk hl

/-- The rows of the object with name `k`, in the order of the table. -/
def RowsOf (ids : List (Option (List Char))) (k : List Char) (g : List Nat) : Prop :=
  g.Pairwise (· < ·) ∧ ∀ i, i ∈ g ↔ ∃ s, ids[i]? = some (some s) ∧ Names k s

theorem rowsOf_unique {ids : List (Option (List Char))} {k : List Char} {g g' : List Nat} (h : RowsOf ids k g) (h' : RowsOf ids k g') : g = g' := by
  refine List.Perm.eq_of_pairwise (le := (· < ·)) (fun a b _ _ h1 h2 => absurd h1 (lt_asymm h2)) h.1 h'.1 ?_
  exact (List.perm_ext_iff_of_nodup (h.1.imp fun h => h.ne) (h'.1.imp fun h => h.ne)).2 fun i => by rw [h.2, h'.2]

theorem labelled_rows (ids : List (Option (List Char))) (k : List Char) :
    RowsOf ids k (((labelled ids).filter fun r => decide (r.1 = k)).map Prod.snd) := by
  constructor
  · have h1 : (labelled ids).Pairwise fun a b => a.2 < b.2 := by
      unfold labelled
      rw [List.pairwise_filterMap]
      have hz : ids.zipIdx.Pairwise fun a b => a.2 < b.2 := by
        rw [List.pairwise_iff_getElem]
        intro i j hi hj hij
        simpa using hij
      refine hz.imp fun {a b} hab x hx y hy => ?_
      obtain ⟨s, -, rfl⟩ := Option.map_eq_some_iff.1 hx
      obtain ⟨s', -, rfl⟩ := Option.map_eq_some_iff.1 hy
      exact hab
    exact List.pairwise_map.2 (h1.filter _)
  · intro i
    simp only [List.mem_map, List.mem_filter, decide_eq_true_eq, Prod.exists, labelled, List.mem_filterMap, Option.map_eq_some_iff, Prod.mk.injEq]
    constructor
    · rintro ⟨a, b, ⟨⟨o, j, hm, s, rfl, rfl, rfl⟩, rfl⟩, rfl⟩
      exact ⟨s, by simpa using List.mem_zipIdx_iff_getElem?.1 hm, names_iff.1 rfl⟩
    · rintro ⟨s, hs, hk⟩
      refine ⟨k, i, ⟨⟨some s, i, ?_, s, rfl, names_iff.2 hk, rfl⟩, rfl⟩, rfl⟩
      exact List.mem_zipIdx_iff_getElem?.2 (by simpa using hs)

theorem groups_spec (ids : List (Option (List Char))) :
    ((AbsMag.runs (sortBy Prod.fst (labelled ids))).Pairwise fun a b => a.1 < b.1) ∧
    ∀ k g, (k, g) ∈ AbsMag.runs (sortBy Prod.fst (labelled ids)) ↔ g ≠ [] ∧ RowsOf ids k g := by
  obtain ⟨h1, h2⟩ := AbsMag.runs_spec _ (sortBy Prod.fst (labelled ids)) (le_refl _) (sortBy_sorted Prod.fst (labelled ids))
  refine ⟨h1, fun k g => ?_⟩
  rw [h2, AbsMag.sortBy_filter]
  constructor
  · rintro ⟨h3, rfl⟩
    exact ⟨h3, labelled_rows ids k⟩
  · rintro ⟨h3, h4⟩
    exact ⟨h3, rowsOf_unique h4 (labelled_rows ids k)⟩

section

variable {α : Type} {solve : List Nat → Except PyErr (Res α)} {nDet nCoords : Nat} {ids : List (Option (List Char))}

theorem map_ok {β γ : Type} {e : Except PyErr β} {f : β → γ} {c : γ} : e.map f = .ok c ↔ ∃ b, e = .ok b ∧ f b = c := by
  cases e with
  | error e => simp [Except.map]
  | ok b => simp [Except.map]

theorem map_error {β γ : Type} {e : Except PyErr β} {f : β → γ} {x : PyErr} : e.map f = .error x ↔ e = .error x := by
  cases e with
  | error e => simp [Except.map]
  | ok b => simp [Except.map]

/-- C116: the table has one row for every object that is named, in the order of the names, and none for detections without an id. The row of an
object is what the estimator says of its detections, in the order of the table; if it raises ValueError, a row without a period. -/
theorem C116_rows {out : List (List Char × Res α)} (hd : nDet ≠ 0) (h : grouped solve nDet nCoords ids = .ok out) :
    nCoords = nDet ∧ ids.length = nDet ∧ (out.Pairwise fun a b => a.1 < b.1) ∧
    (∀ k, (∃ r, (k, r) ∈ out) ↔ ∃ s, some s ∈ ids ∧ Names k s) ∧
    ∀ k r, (k, r) ∈ out → ∀ g, RowsOf ids k g → solve g = .ok r ∨ solve g = .error .valueError ∧
      r = ⟨"insufficient_data", none, g.length, ["solve_error"], ["solve_error"], none⟩ := by
  unfold grouped at h
  rw [if_neg hd] at h
  split_ifs at h with h1 h2
  refine ⟨not_not.1 h1, not_not.1 h2, ?_⟩
  have hf := (AbsMag.gather_ok_iff _ _ _).1 h
  obtain ⟨g1, g2⟩ := groups_spec ids
  have hfst : out.map Prod.fst = (AbsMag.runs (sortBy Prod.fst (labelled ids))).map Prod.fst := by
    clear g1 g2 h
    generalize AbsMag.runs (sortBy Prod.fst (labelled ids)) = gs at hf ⊢
    induction hf with
    | nil => rfl
    | cons h1 _ ih =>
      obtain ⟨r, -, rfl⟩ := map_ok.1 h1
      rw [List.map_cons, List.map_cons, ih]
  have hmem : ∀ k r, (k, r) ∈ out → ∃ g, (k, g) ∈ AbsMag.runs (sortBy Prod.fst (labelled ids)) ∧ caught g.length (solve g) = .ok r := by
    clear g1 g2 h hfst
    intro k r hkr
    generalize AbsMag.runs (sortBy Prod.fst (labelled ids)) = gs at hf ⊢
    induction hf with
    | nil => simp at hkr
    | cons h1 _ ih =>
      rcases List.mem_cons.1 hkr with he | hkr
      · obtain ⟨r', hr', he'⟩ := map_ok.1 h1
        rw [← he'] at he
        cases he
        exact ⟨_, by simp, hr'⟩
      · obtain ⟨g, hg, hc⟩ := ih hkr
        exact ⟨g, List.mem_cons_of_mem _ hg, hc⟩
  refine ⟨?_, ?_, ?_⟩
  · have : (out.map Prod.fst).Pairwise (· < ·) := by
      rw [hfst]
      exact List.pairwise_map.2 g1
    exact List.pairwise_map.1 this
  · intro k
    have h3 : (∃ r, (k, r) ∈ out) ↔ ∃ g, (k, g) ∈ AbsMag.runs (sortBy Prod.fst (labelled ids)) := by
      have h4 : k ∈ out.map Prod.fst ↔ k ∈ (AbsMag.runs (sortBy Prod.fst (labelled ids))).map Prod.fst := by rw [hfst]
      simpa using h4
    rw [h3]
    constructor
    · rintro ⟨g, hg⟩
      obtain ⟨hne, hr⟩ := (g2 k g).1 hg
      obtain ⟨i, hi⟩ := List.exists_mem_of_ne_nil _ hne
      obtain ⟨s, hs, hk⟩ := (hr.2 i).1 hi
      exact ⟨s, List.mem_of_getElem? hs, hk⟩
    · rintro ⟨s, hs, hk⟩
      obtain ⟨i, hi⟩ := List.mem_iff_getElem?.1 hs
      refine ⟨_, (g2 k _).2 ⟨?_, labelled_rows ids k⟩⟩
      exact List.ne_nil_of_mem (((labelled_rows ids k).2 i).2 ⟨s, hi, hk⟩)
  · intro k r hkr g hg
    obtain ⟨g', hg', hc⟩ := hmem k r hkr
    cases rowsOf_unique hg ((g2 k g').1 hg').2
    exact caught_ok.1 hc

/-- C116: without detections the table is empty, whatever the rest. With detections ValueError is raised exactly for lengths that differ, and
RuntimeError exactly if the lengths agree and the estimator raises something other than ValueError for some object; there is no other error. -/
theorem C116_errors : (nDet = 0 → grouped solve nDet nCoords ids = .ok []) ∧
    ∀ e, grouped solve nDet nCoords ids = .error e ↔ nDet ≠ 0 ∧
      ((nCoords ≠ nDet ∨ ids.length ≠ nDet) ∧ e = .valueError ∨
       nCoords = nDet ∧ ids.length = nDet ∧ e = .runtimeError ∧
         ∃ k g x, g ≠ [] ∧ RowsOf ids k g ∧ solve g = .error x ∧ x ≠ .valueError) := by
  refine ⟨fun h => by unfold grouped; rw [if_pos h], fun e => ?_⟩
  unfold grouped
  by_cases hd : nDet = 0
  · simp [hd]
  rw [if_neg hd]
  by_cases h1 : nCoords ≠ nDet
  · rw [if_pos h1]
    simp [hd, h1, eq_comm]
  rw [if_neg h1]
  by_cases h2 : ids.length ≠ nDet
  · rw [if_pos h2]
    simp [hd, h2, eq_comm]
  rw [if_neg h2]
  simp only [hd, not_false_eq_true, true_and, ne_eq, not_not.1 h1, not_not.1 h2, not_true_eq_false, or_false, false_and, false_or]
  obtain ⟨-, g2⟩ := groups_spec ids
  constructor
  · intro h
    obtain ⟨⟨k, g⟩, hm, he⟩ := gather_error_of h
    obtain ⟨rfl, x, hx, hs⟩ := caught_error.1 (map_error.1 he)
    obtain ⟨hne, hr⟩ := (g2 k g).1 hm
    exact ⟨rfl, k, g, x, hne, hr, hs, hx⟩
  · rintro ⟨rfl, k, g, x, hne, hr, hs, hx⟩
    have hm := (g2 k g).2 ⟨hne, hr⟩
    obtain ⟨e, he⟩ := gather_error (work := fun g : List Char × List Nat => (caught g.2.length (solve g.2)).map fun r => (g.1, r)) hm
      ⟨.runtimeError, map_error.2 (caught_error.2 ⟨rfl, x, hx, hs⟩)⟩
    obtain ⟨⟨k', g'⟩, hm', he'⟩ := gather_error_of he
    obtain ⟨rfl, -⟩ := caught_error.1 (map_error.1 he')
    exact he

/-- C116: not so that parameters out of range are reported: if ValueError is raised whatever the detections, every object has a row without a
period and nothing is raised. -/
theorem C116_swallow_false (hd : nDet ≠ 0) (h1 : nCoords = nDet) (h2 : ids.length = nDet) (hs : ∀ g, solve g = .error .valueError) :
    ∃ out, grouped solve nDet nCoords ids = .ok out ∧ ∀ x ∈ out, x.2.verdict = "insufficient_data" := by
  cases hg : grouped solve nDet nCoords ids with
  | error e =>
    rcases (C116_errors.2 e).1 hg with ⟨-, ⟨h3 | h3, -⟩ | ⟨-, -, -, k, g, x, -, -, hx, hne⟩⟩
    · exact absurd h1 h3
    · exact absurd h2 h3
    · rw [hs] at hx
      cases hx
      exact absurd rfl hne
  | ok out =>
    refine ⟨out, rfl, fun x hx => ?_⟩
    obtain ⟨-, -, -, -, h5⟩ := C116_rows hd hg
    rcases h5 x.1 x.2 hx _ (labelled_rows ids x.1) with h | ⟨-, h⟩
    · rw [hs] at h
      cases h
    · rw [h]

/-- C116: not so that different ids are different objects: ids that differ only in zero characters at the end are put together. -/
theorem C116_ids_false (r : Res α) : grouped (fun _ => .ok r) 2 2 [some ['A'], some ['A', Char.ofNat 0]] = .ok [(['A'], r)] := by
  have : AbsMag.runs (sortBy Prod.fst (labelled [some ['A'], some ['A', Char.ofNat 0]])) = [(['A'], [0, 1])] := by decide +kernel
  unfold grouped
  rw [this]
  rfl

example : Names ['A'] ['A', Char.ofNat 0] := ⟨⟨1, rfl⟩, by decide⟩

end

/-! ## Observations of detections -/

section

variable {T : Type} {W : Sites T} {dets : List Det} {exps : List (Exp T)} {body : List Body} {obs : List Obs}

/-- The exposure of a detection: the first with its id. -/
def ExposureOf (exps : List (Exp T)) (d : Det) (e : Exp T) : Prop :=
  d.exposureId = some e.id ∧ ∃ k : Nat, exps[k]? = some e ∧ ∀ j < k, ∀ e' : Exp T, exps[j]? = some e' → e'.id ≠ e.id

/-- What the row of a detection must be: its magnitude and uncertainty, the filter of its exposure, the session named by the observatory and the
night, the distances of the object from the Sun and from the observatory at the middle of the exposure, and the time of the object's state. -/
def IsRow (W : Sites T) (exps : List (Exp T)) (d : Det) (b : Body) (o : Obs) : Prop :=
  b.origin = "SUN" ∧ ∃ e p n m phase, ExposureOf exps d e ∧ W.site e.code e.mid = .ok p ∧ W.night e.code e.start = .ok n ∧ d.mag = some m ∧
    W.phase b.pos p = some phase ∧ 0 < V3.norm b.pos ∧ 0 < V3.norm (b.pos.sub p) ∧
    o = ⟨some b.time, some m, d.sigma, some e.filter, some s!"{e.code}:{n}", some (V3.norm b.pos), some (V3.norm (b.pos.sub p)), some phase⟩

theorem exposureOf_iff {d : Det} {e : Exp T} : (exps.find? fun e => decide (some e.id = d.exposureId)) = some e ↔ ExposureOf exps d e := by
  rw [List.find?_eq_some_iff_getElem]
  unfold ExposureOf
  constructor
  · rintro ⟨h1, k, hk, he, hj⟩
    rw [decide_eq_true_eq] at h1
    refine ⟨h1.symm, k, by rw [List.getElem?_eq_getElem hk, he], fun j hjk e' he' hid => ?_⟩
    obtain ⟨hj1, hj2⟩ := List.getElem?_eq_some_iff.1 he'
    have := hj j hjk
    rw [hj2, hid] at this
    simp [h1] at this
  · rintro ⟨h1, k, hk, hj⟩
    obtain ⟨hk1, hk2⟩ := List.getElem?_eq_some_iff.1 hk
    refine ⟨by simp [h1], k, hk1, hk2, fun j hjk => ?_⟩
    have := hj j hjk _ (List.getElem?_eq_getElem (by omega))
    simp [h1, this]

theorem forall₂_iff {A B : Type} {R : A → B → Prop} : ∀ {l : List A} {m : List B}, List.Forall₂ R l m ↔
    m.length = l.length ∧ ∀ (i : Nat) a b, l[i]? = some a → m[i]? = some b → R a b := by
  intro l m
  rw [List.forall₂_iff_get]
  constructor
  · rintro ⟨h1, h2⟩
    refine ⟨h1.symm, fun i a b ha hb => ?_⟩
    obtain ⟨ha1, rfl⟩ := List.getElem?_eq_some_iff.1 ha
    obtain ⟨hb1, rfl⟩ := List.getElem?_eq_some_iff.1 hb
    exact h2 i ha1 hb1
  · rintro ⟨h1, h2⟩
    exact ⟨h1.symm, fun i ha hb => h2 i _ _ (List.getElem?_eq_getElem ha) (List.getElem?_eq_getElem hb)⟩

theorem align_ok {es : List (Exp T)} : alignExposures exps dets = .ok es ↔ dets ≠ [] ∧ List.Forall₂ (ExposureOf exps) dets es := by
  unfold alignExposures
  by_cases h1 : dets = []
  · simp [h1]
  rw [if_neg h1]
  have hiff : ∀ (d : Det) (e : Exp T), (match exps.find? fun e => decide (some e.id = d.exposureId) with
      | none => (.error .valueError : Except PyErr (Exp T))
      | some e => .ok e) = .ok e ↔ ExposureOf exps d e := by
    intro d e
    rw [← exposureOf_iff]
    cases exps.find? fun e => decide (some e.id = d.exposureId) <;> simp
  by_cases h2 : (dets.any fun d => d.exposureId.isNone) = true
  · rw [if_pos h2]
    constructor
    · intro h
      cases h
    · rintro ⟨-, hf⟩
      exfalso
      obtain ⟨d, hd, hn⟩ := List.any_eq_true.1 h2
      obtain ⟨i, hi⟩ := List.mem_iff_getElem?.1 hd
      obtain ⟨hl, hr⟩ := forall₂_iff.1 hf
      obtain ⟨hi1, -⟩ := List.getElem?_eq_some_iff.1 hi
      have := hr i d _ hi (List.getElem?_eq_getElem (by rw [hl]; exact hi1))
      rw [this.1] at hn
      simp at hn
  · rw [if_neg h2, AbsMag.gather_ok_iff]
    constructor
    · intro h
      exact ⟨h1, h.imp fun d e he => (hiff d e).1 he⟩
    · rintro ⟨-, h⟩
      exact h.imp fun d e he => (hiff d e).2 he

theorem align_error {e : PyErr} (h : alignExposures exps dets = .error e) : e = .valueError := by
  unfold alignExposures at h
  split_ifs at h
  · cases h; rfl
  · cases h; rfl
  · obtain ⟨d, -, hd⟩ := gather_error_of h
    cases hf : exps.find? fun e => decide (some e.id = d.exposureId) with
    | none => rw [hf] at hd; cases hd; rfl
    | some e => rw [hf] at hd; cases hd

theorem norm_pos {v : V3} : decide (V3.norm v ≤ 0) = false ↔ 0 < V3.norm v := by simp

theorem exists_forall₂ {A B : Type} {R : A → B → Prop} : ∀ {l : List A}, (∀ a ∈ l, ∃ b, R a b) → ∃ m, List.Forall₂ R l m := by
  intro l
  induction l with
  | nil => exact fun _ => ⟨[], .nil⟩
  | cons a l ih =>
    intro h
    obtain ⟨b, hb⟩ := h a (by simp)
    obtain ⟨m, hm⟩ := ih fun x hx => h x (List.mem_cons_of_mem _ hx)
    exact ⟨b :: m, .cons hb hm⟩

theorem isRow_unique {d : Det} {b : Body} {o o' : Obs} (h : IsRow W exps d b o) (h' : IsRow W exps d b o') : o = o' := by
  obtain ⟨-, e, p, n, m, ph, h1, h2, h3, h4, h5, -, -, rfl⟩ := h
  obtain ⟨-, e', p', n', m', ph', h1', h2', h3', h4', h5', -, -, rfl⟩ := h'
  have he : e = e' := Option.some.inj ((exposureOf_iff.2 h1).symm.trans (exposureOf_iff.2 h1'))
  subst he
  have hp : p = p' := Except.ok.inj (h2.symm.trans h2')
  have hn : n = n' := Except.ok.inj (h3.symm.trans h3')
  have hm : m = m' := Option.some.inj (h4.symm.trans h4')
  subst hp hn hm
  have hph : ph = ph' := Option.some.inj (h5.symm.trans h5')
  rw [hph]

theorem zip_rows {A B C D : Type} {w : List A} {x : List B} {y : List C} {z : List D} {i : Nat} {a : A} {b : B} {c : C} {d : D}
    (h1 : w[i]? = some a) (h2 : x[i]? = some b) (h3 : y[i]? = some c) (h4 : z[i]? = some d) : (w.zip (x.zip (y.zip z)))[i]? = some (a, b, c, d) := by
  simp [List.getElem?_zip_eq_some, h1, h2, h3, h4]

theorem build_rows (h : build W dets exps body = .ok obs) : dets ≠ [] ∧ body.length = dets.length ∧ obs.length = dets.length ∧
    ∀ (i : Nat) d b o, dets[i]? = some d → body[i]? = some b → obs[i]? = some o → IsRow W exps d b o := by
  unfold build at h
  by_cases hb : body.length ≠ dets.length
  · rw [if_pos hb] at h
    cases h
  rw [if_neg hb] at h
  by_cases ho : (body.any fun b => decide (b.origin ≠ "SUN")) = true
  · rw [if_pos ho] at h
    cases h
  rw [if_neg ho] at h
  cases ha : alignExposures exps dets with
  | error e => rw [ha] at h; cases h
  | ok es =>
    rw [ha] at h
    dsimp only at h
    obtain ⟨hne, hes⟩ := align_ok.1 ha
    cases hs : gather (fun e : Exp T => W.site e.code e.mid) es with
    | error e => rw [hs] at h; cases h
    | ok sites =>
      rw [hs] at h
      dsimp only at h
      have hsf := (AbsMag.gather_ok_iff _ _ _).1 hs
      have hal : alignObservers sites exps es = .ok sites := by
        unfold alignObservers
        rw [if_pos hsf.length_eq.symm]
      rw [hal] at h
      dsimp only at h
      have hlen : sites.length = dets.length := by rw [← hsf.length_eq, ← hes.length_eq]
      rw [if_neg (not_not.2 hlen)] at h
      split_ifs at h with h1 h2 h3 h4
      cases hn : gather (fun e : Exp T => W.night e.code e.start) es with
      | error e => rw [hn] at h; cases h
      | ok nights =>
        rw [hn] at h
        cases h
        have hnf := (AbsMag.gather_ok_iff _ _ _).1 hn
        have hbl := not_not.1 hb
        have hel := hes.length_eq
        have hnl := hnf.length_eq
        refine ⟨hne, hbl, ?_, ?_⟩
        · simp only [List.length_zipWith, List.length_zip]
          omega
        · intro i d b o hi1 hi2 hi3
          obtain ⟨hi, -⟩ := List.getElem?_eq_some_iff.1 hi1
          have e1 : es[i]? = some (es[i]'(by omega)) := List.getElem?_eq_getElem (by omega)
          have e2 : sites[i]? = some (sites[i]'(by omega)) := List.getElem?_eq_getElem (by omega)
          have e3 : nights[i]? = some (nights[i]'(by omega)) := List.getElem?_eq_getElem (by omega)
          generalize es[i]'(by omega) = e at e1
          generalize sites[i]'(by omega) = p at e2
          generalize nights[i]'(by omega) = n at e3
          have hz := zip_rows hi1 e1 hi2 e2
          have hzm := List.mem_of_getElem? hz
          have hne' : ¬ (b.origin ≠ "SUN") := by
            intro hbo
            exact ho (List.any_eq_true.2 ⟨b, List.mem_of_getElem? hi2, by simpa using hbo⟩)
          have f1 : d.mag.isNone ≠ true := fun hx => h1 (List.any_eq_true.2 ⟨_, hzm, hx⟩)
          have f2 : ¬ V3.norm b.pos ≤ 0 := fun hx => h2 (List.any_eq_true.2 ⟨_, hzm, by simpa using hx⟩)
          have f3 : ¬ V3.norm (b.pos.sub p) ≤ 0 := fun hx => h3 (List.any_eq_true.2 ⟨_, hzm, by simpa using hx⟩)
          have f4 : (W.phase b.pos p).isNone ≠ true := fun hx => h4 (List.any_eq_true.2 ⟨_, hzm, hx⟩)
          obtain ⟨m, hm⟩ : ∃ m, d.mag = some m := by
            cases hm : d.mag with
            | none => rw [hm] at f1; simp at f1
            | some m => exact ⟨m, rfl⟩
          obtain ⟨ph, hph⟩ : ∃ ph, W.phase b.pos p = some ph := by
            cases hm : W.phase b.pos p with
            | none => rw [hm] at f4; simp at f4
            | some m => exact ⟨m, rfl⟩
          refine ⟨not_not.1 hne', e, p, n, m, ph, (forall₂_iff.1 hes).2 i d e hi1 e1, (forall₂_iff.1 hsf).2 i e p e1 e2,
            (forall₂_iff.1 hnf).2 i e n e1 e3, hm, hph, not_le.1 f2, not_le.1 f3, ?_⟩
          rw [List.getElem?_zipWith, hz, e3] at hi3
          cases hi3
          unfold obsRow
          dsimp only
          rw [hm, hph]

/-- C117: the table is built exactly if there are detections, as many states as detections, and every detection has a row; and it is the table of
these rows, in order. -/
theorem C117_rows : build W dets exps body = .ok obs ↔ dets ≠ [] ∧ body.length = dets.length ∧ obs.length = dets.length ∧
    ∀ (i : Nat) d b o, dets[i]? = some d → body[i]? = some b → obs[i]? = some o → IsRow W exps d b o := by
  refine ⟨build_rows, ?_⟩
  rintro ⟨hne, hbl, hol, hrow⟩
  have hall : ∀ (i : Nat) d b, dets[i]? = some d → body[i]? = some b → ∃ o, IsRow W exps d b o := by
    intro i d b h1 h2
    obtain ⟨hi, -⟩ := List.getElem?_eq_some_iff.1 h1
    exact ⟨_, hrow i d b _ h1 h2 (List.getElem?_eq_getElem (by omega))⟩
  have hex : ∃ obs', build W dets exps body = .ok obs' := by
    have hdet : ∀ d ∈ dets, ∃ b o, IsRow W exps d b o := by
      intro d hd
      obtain ⟨i, hi⟩ := List.mem_iff_getElem?.1 hd
      obtain ⟨hi', -⟩ := List.getElem?_eq_some_iff.1 hi
      exact ⟨_, hall i d _ hi (List.getElem?_eq_getElem (by omega))⟩
    obtain ⟨es, hes⟩ : ∃ es, List.Forall₂ (ExposureOf exps) dets es := exists_forall₂ fun d hd => by
      obtain ⟨b, o, -, e, p, n, m, ph, h1, -⟩ := hdet d hd
      exact ⟨e, h1⟩
    have hmem : ∀ e ∈ es, ∃ d ∈ dets, ExposureOf exps d e := by
      intro e he
      obtain ⟨i, hi⟩ := List.mem_iff_getElem?.1 he
      obtain ⟨hi', -⟩ := List.getElem?_eq_some_iff.1 hi
      have hl := hes.length_eq
      exact ⟨dets[i]'(by omega), List.getElem_mem _, (forall₂_iff.1 hes).2 i _ _ (List.getElem?_eq_getElem (by omega)) hi⟩
    have huniq : ∀ {d e e'}, ExposureOf exps d e → ExposureOf exps d e' → e = e' := fun h1 h2 =>
      Option.some.inj ((exposureOf_iff.2 h1).symm.trans (exposureOf_iff.2 h2))
    obtain ⟨sites, hsf⟩ : ∃ ps, List.Forall₂ (fun (e : Exp T) p => W.site e.code e.mid = .ok p) es ps := exists_forall₂ fun e he => by
      obtain ⟨d, hd, hde⟩ := hmem e he
      obtain ⟨b, o, -, e', p, n, m, ph, h1, h2, -⟩ := hdet d hd
      rw [huniq hde h1]
      exact ⟨p, h2⟩
    obtain ⟨nights, hnf⟩ : ∃ ns, List.Forall₂ (fun (e : Exp T) n => W.night e.code e.start = .ok n) es ns := exists_forall₂ fun e he => by
      obtain ⟨d, hd, hde⟩ := hmem e he
      obtain ⟨b, o, -, e', p, n, m, ph, h1, -, h3, -⟩ := hdet d hd
      rw [huniq hde h1]
      exact ⟨n, h3⟩
    have hel := hes.length_eq
    have hsl := hsf.length_eq
    have ho : ¬ (body.any fun b => decide (b.origin ≠ "SUN")) = true := by
      intro h
      obtain ⟨b, hb, hbo⟩ := List.any_eq_true.1 h
      obtain ⟨i, hi⟩ := List.mem_iff_getElem?.1 hb
      obtain ⟨hi', -⟩ := List.getElem?_eq_some_iff.1 hi
      obtain ⟨o, h1, -⟩ := hall i _ b (List.getElem?_eq_getElem (by omega)) hi
      simp [h1] at hbo
    have hrows : ∀ x ∈ dets.zip (es.zip (body.zip sites)), (∃ m, x.1.mag = some m) ∧ 0 < V3.norm x.2.2.1.pos ∧
        0 < V3.norm (x.2.2.1.pos.sub x.2.2.2) ∧ ∃ ph, W.phase x.2.2.1.pos x.2.2.2 = some ph := by
      rintro ⟨d, e, b, p⟩ hx
      obtain ⟨i, hi⟩ := List.mem_iff_getElem?.1 hx
      simp only [List.getElem?_zip_eq_some] at hi
      obtain ⟨h1, h2, h3, h4⟩ := hi
      obtain ⟨o, -, e', p', n, m, ph, g1, g2, g3, g4, g5, g6, g7, -⟩ := hall i d b h1 h3
      have hee : e = e' := huniq ((forall₂_iff.1 hes).2 i d e h1 h2) g1
      subst hee
      have hpp : p = p' := Except.ok.inj (((forall₂_iff.1 hsf).2 i e p h2 h4).symm.trans g2)
      subst hpp
      exact ⟨⟨m, g4⟩, g6, g7, ⟨ph, g5⟩⟩
    refine ⟨List.zipWith (obsRow W) (dets.zip (es.zip (body.zip sites))) nights, ?_⟩
    have hal : alignObservers sites exps es = .ok sites := by
      unfold alignObservers
      rw [if_pos hsl.symm]
    unfold build
    rw [if_neg (not_not.2 hbl), if_neg ho, align_ok.2 ⟨hne, hes⟩]
    dsimp only
    rw [(AbsMag.gather_ok_iff _ _ _).2 hsf]
    dsimp only
    rw [hal]
    dsimp only
    rw [if_neg (by omega), if_neg, if_neg, if_neg, if_neg, (AbsMag.gather_ok_iff _ _ _).2 hnf]
    · intro h
      obtain ⟨x, hx, hn⟩ := List.any_eq_true.1 h
      obtain ⟨-, -, -, ph, h4⟩ := hrows x hx
      rw [h4] at hn
      simp at hn
    · intro h
      obtain ⟨x, hx, hn⟩ := List.any_eq_true.1 h
      have := (hrows x hx).2.2.1
      rw [decide_eq_true_eq] at hn
      linarith
    · intro h
      obtain ⟨x, hx, hn⟩ := List.any_eq_true.1 h
      have := (hrows x hx).2.1
      rw [decide_eq_true_eq] at hn
      linarith
    · intro h
      obtain ⟨x, hx, hn⟩ := List.any_eq_true.1 h
      obtain ⟨⟨m, h4⟩, -⟩ := hrows x hx
      rw [h4] at hn
      simp at hn
  obtain ⟨obs', hobs'⟩ := hex
  obtain ⟨-, -, hol', hrow'⟩ := build_rows hobs'
  rw [hobs']
  congr 1
  refine List.ext_getElem (by omega) fun i h1 h2 => ?_
  have hd : dets[i]? = some (dets[i]'(by omega)) := List.getElem?_eq_getElem (by omega)
  have hb : body[i]? = some (body[i]'(by omega)) := List.getElem?_eq_getElem (by omega)
  exact isRow_unique (hrow' i _ _ _ hd hb (List.getElem?_eq_getElem h1)) (hrow i _ _ _ hd hb (List.getElem?_eq_getElem h2))

/-- C117: an error is ValueError, or that of the position of an observatory or of the night of an exposure. -/
theorem C117_errors {e : PyErr} (h : build W dets exps body = .error e) :
    e = .valueError ∨ ∃ x ∈ exps, W.site x.code x.mid = .error e ∨ W.night x.code x.start = .error e := by
  unfold build at h
  by_cases hb : body.length ≠ dets.length
  · rw [if_pos hb] at h
    cases h
    exact Or.inl rfl
  rw [if_neg hb] at h
  by_cases ho : (body.any fun b => decide (b.origin ≠ "SUN")) = true
  · rw [if_pos ho] at h
    cases h
    exact Or.inl rfl
  rw [if_neg ho] at h
  cases ha : alignExposures exps dets with
  | error e' =>
    rw [ha] at h
    cases h
    exact Or.inl (align_error ha)
  | ok es =>
    rw [ha] at h
    dsimp only at h
    obtain ⟨hne, hes⟩ := align_ok.1 ha
    have hmem : ∀ x ∈ es, x ∈ exps := by
      intro x hx
      obtain ⟨i, hi⟩ := List.mem_iff_getElem?.1 hx
      obtain ⟨hi', -⟩ := List.getElem?_eq_some_iff.1 hi
      have hl := hes.length_eq
      obtain ⟨-, k, hk, -⟩ := (forall₂_iff.1 hes).2 i _ _ (List.getElem?_eq_getElem (by omega)) hi
      exact List.mem_of_getElem? hk
    cases hs : gather (fun e : Exp T => W.site e.code e.mid) es with
    | error e' =>
      rw [hs] at h
      cases h
      obtain ⟨x, hx, hxe⟩ := gather_error_of hs
      exact Or.inr ⟨x, hmem x hx, Or.inl hxe⟩
    | ok sites =>
      rw [hs] at h
      dsimp only at h
      have hsf := (AbsMag.gather_ok_iff _ _ _).1 hs
      have hal : alignObservers sites exps es = .ok sites := by
        unfold alignObservers
        rw [if_pos hsf.length_eq.symm]
      rw [hal] at h
      dsimp only at h
      have hlen : sites.length = dets.length := by rw [← hsf.length_eq, ← hes.length_eq]
      rw [if_neg (not_not.2 hlen)] at h
      split_ifs at h with h1 h2 h3 h4
      · cases h; exact Or.inl rfl
      · cases h; exact Or.inl rfl
      · cases h; exact Or.inl rfl
      · cases h; exact Or.inl rfl
      · cases hn : gather (fun e : Exp T => W.night e.code e.start) es with
        | error e' =>
          rw [hn] at h
          cases h
          obtain ⟨x, hx, hxe⟩ := gather_error_of hn
          exact Or.inr ⟨x, hmem x hx, Or.inr hxe⟩
        | ok nights =>
          rw [hn] at h
          cases h

/-- C117: not so that the states of the object must be of the times of the exposures: they may be of any times, and the table has these. -/
theorem C117_time_false (h : build W dets exps body = .ok obs) (t : Body → ℝ) :
    ∃ obs', build W dets exps (body.map fun b => { b with time := t b }) = .ok obs' ∧ obs'.map Obs.time = body.map fun b => some (t b) := by
  obtain ⟨h1, h2, h3, h4⟩ := C117_rows.1 h
  refine ⟨List.zipWith (fun o b => { o with time := some (t b) }) obs body, C117_rows.2 ⟨h1, by simpa using h2, by simp; omega, ?_⟩, ?_⟩
  · intro i d b o hd hb ho
    rw [List.getElem?_map, Option.map_eq_some_iff] at hb
    obtain ⟨b', hb', rfl⟩ := hb
    rw [List.getElem?_zipWith, hb'] at ho
    cases hoi : obs[i]? with
    | none => rw [hoi] at ho; cases ho
    | some o' =>
      rw [hoi] at ho
      cases ho
      obtain ⟨g1, e, p, n, m, ph, g2, g3, g4, g5, g6, g7, g8, rfl⟩ := h4 i d b' o' hd hb' hoi
      exact ⟨g1, e, p, n, m, ph, g2, g3, g4, g5, g6, g7, g8, rfl⟩
  · refine List.ext_getElem (by simp; omega) fun i _ _ => ?_
    simp

/-- A detection of an object at opposition: the observatory is one unit from the Sun and the object two. -/
noncomputable def opposition : Sites ℝ := ⟨fun _ _ => .ok ⟨1, 0, 0⟩, fun _ _ => some 0, fun _ _ => .ok 60000⟩

example : ∃ obs, build opposition [⟨some "e", some 20, none⟩] [⟨"e", "W84", "r", 60000, 60000⟩] [⟨"SUN", 60000, ⟨2, 0, 0⟩⟩] = .ok obs ∧
    obs.map Obs.session = [some "W84:60000"] := by
  refine ⟨[⟨some 60000, some 20, none, some "r", some "W84:60000", some 2, some 1, some 0⟩], C117_rows.2 ⟨by simp, rfl, rfl, ?_⟩, rfl⟩
  intro i d b o hd hb ho
  cases i with
  | succ i => simp at hd
  | zero =>
    simp only [List.length_cons, List.length_nil, zero_add, Nat.lt_add_one, getElem?_pos, List.getElem_cons_zero, Option.some.injEq] at hd hb ho
    subst hd hb ho
    have n2 : V3.norm ⟨2, 0, 0⟩ = 2 := by
      norm_num [V3.norm, V3.dot]
      rw [show (4 : ℝ) = 2 ^ 2 by norm_num, Real.sqrt_sq (by norm_num)]
    have n1 : V3.norm (V3.sub ⟨2, 0, 0⟩ ⟨1, 0, 0⟩) = 1 := by
      norm_num [V3.norm, V3.dot, V3.sub]
    refine ⟨rfl, ⟨"e", "W84", "r", 60000, 60000⟩, ⟨1, 0, 0⟩, 60000, 20, 0, ⟨rfl, 0, rfl, fun j hj => by omega⟩, rfl, rfl, rfl, rfl, ?_, ?_, ?_⟩
    · rw [n2]; norm_num
    · rw [n1]; norm_num
    · rw [n1, n2]; rfl

end

/-! ## Observing nights -/

/-- C118: for an observatory whose clocks are never changed, the night is that which begins at the noon before, local time. -/
theorem C118_night {zone host : ℝ → ℝ} {off t : ℝ} {n : ℤ} (hz : ∀ x, zone x = off) (h0 : 1 / 2 ≤ t + off) :
    observingNight zone host t = n ↔ (n : ℝ) + 1 / 2 ≤ t + off ∧ t + off < (n : ℝ) + 1 + 1 / 2 := by
  unfold observingNight
  dsimp only
  rw [hz, if_pos (by linarith), Int.floor_eq_iff]
  constructor
  · rintro ⟨h1, h2⟩
    exact ⟨by linarith, by linarith⟩
  · rintro ⟨h1, h2⟩
    exact ⟨by linarith, by linarith⟩

/-- C118: so observations between two noons are of one night, and later observations never of an earlier night. -/
theorem C118_monotone {zone host : ℝ → ℝ} {off t t' : ℝ} (hz : ∀ x, zone x = off) (h : t ≤ t') :
    observingNight zone host t ≤ observingNight zone host t' := by
  unfold observingNight
  dsimp only
  rw [hz, hz]
  split_ifs with h1 h2 h2
  · exact Int.floor_le_floor (by linarith)
  · exfalso; linarith
  · have h3 : ⌈t + off - 1 / 2⌉ ≤ 0 := Int.ceil_le.2 (by push_cast; linarith)
    have h4 : 0 ≤ ⌊t' + off - 1 / 2⌋ := Int.le_floor.2 (by push_cast; linarith)
    omega
  · exact Int.ceil_le_ceil (by linarith)

/-- C118: not so before the origin of the modified Julian date: the first two days on its sides are one night. -/
theorem C118_early_false {zone host : ℝ → ℝ} (hz : ∀ x, zone x = 0) :
    observingNight zone host (-1 / 4) = 0 ∧ observingNight zone host (5 / 4) = 0 := by
  unfold observingNight
  constructor
  · dsimp only
    rw [hz, if_neg (by norm_num)]
    norm_num [Int.ceil_eq_iff]
  · dsimp only
    rw [hz, if_pos (by norm_num)]
    norm_num [Int.floor_eq_iff]

/-- C118: not so that the night is a matter of the observatory and the time: where clocks change it depends on the time zone of the machine. -/
theorem C118_host_false : ∃ (zone : ℝ → ℝ) (t : ℝ), observingNight zone (fun _ => 0) t ≠ observingNight zone (fun _ => 5 / 24) t := by
  refine ⟨fun x => if x < 100 + 12 / 25 then 0 else 1 / 24, 100 + 12 / 25, ?_⟩
  unfold observingNight
  dsimp only
  have h1 : ⌊(100 : ℝ) + 12 / 25 + 1 / 24 - 1 / 2⌋ = 100 := by rw [Int.floor_eq_iff]; norm_num
  have h2 : ⌊(100 : ℝ) + 12 / 25 + 0 - 1 / 2⌋ = 99 := by rw [Int.floor_eq_iff]; norm_num
  rw [if_neg (by norm_num : ¬ (100 : ℝ) + 12 / 25 - 0 < 100 + 12 / 25), if_pos (by norm_num : (100 : ℝ) + 12 / 25 - 5 / 24 < 100 + 12 / 25),
    if_pos (by norm_num), if_pos (by norm_num), h1, h2]
  decide

end Verif.Rot.Props
