import Verif.Eph2.Spec
import Verif.Sched.Props

/-! Helper lemmas for two-body ephemerides. -/

namespace Verif.Eph2

open Verif Sched Spec Chunk.Spec

section
variable {I S T M V C P : Type}

theorem firstNF_none {finite : V → Bool} {l : List V} :
    firstNonFinite finite l = none ↔ ∀ v ∈ l, finite v = true := by
  unfold firstNonFinite
  rw [List.findIdx?_eq_none_iff]
  simp

theorem flat_finite {finite : V → Bool} {g : Out V → Fin 6 → V} {rows : List (Out V)} :
    (∀ v ∈ flat g rows, finite v = true) ↔ ∀ o ∈ rows, ∀ i, finite (g o i) = true := by
  unfold flat
  constructor
  · intro h o ho i
    exact h _ (List.mem_flatMap.mpr ⟨o, ho, (List.mem_ofFn' _ _).mpr ⟨i, rfl⟩⟩)
  · intro h v hv
    obtain ⟨o, ho, hv⟩ := List.mem_flatMap.mp hv
    obtain ⟨i, rfl⟩ := (List.mem_ofFn' _ _).mp hv
    exact h o ho i

theorem batch_finite {finite : V → Bool} {rows : List (Out V)} :
    (firstNonFinite finite (rows.map Out.lt) = none ∧ firstNonFinite finite (flat Out.sph rows) = none ∧
      firstNonFinite finite (flat Out.aber rows) = none) ↔ ∀ o ∈ rows, AllFinite finite o := by
  rw [firstNF_none, firstNF_none, firstNF_none, flat_finite, flat_finite]
  simp only [List.mem_map, forall_exists_index, and_imp, forall_apply_eq_imp_iff₂, AllFinite]
  constructor
  · rintro ⟨h1, h2, h3⟩ o ho
    exact ⟨h1 o ho, fun i => ⟨h2 o ho i, h3 o ho i⟩⟩
  · intro h
    exact ⟨fun o ho => (h o ho).1, fun o ho i => ((h o ho).2 i).1, fun o ho i => ((h o ho).2 i).2⟩

/-- The rows of the batch starting at `s`. -/
def batch (L : List (Out V)) (c s : Nat) : List (Out V) := (L.drop s).take c

theorem kernel_batch {F : List (S × T × S × M) → List (Out V)} {f : S × T × S × M → Out V} (hF : Rowwise F f)
    (pad : S × T × S × M) (args : List (S × T × S × M)) (c s : Nat) :
    (F (Chunk.paddedChunk pad args c s)).take (min c (args.length - s)) = batch (args.map f) c s := by
  rw [Chunk.rowwise_eq hF, Chunk.map_paddedChunk, Chunk.slice_eq, batch]
  rw [List.take_append_of_le_length (by simp)]
  rw [List.take_of_length_le (by simp)]

theorem assign_batch {β : Type} (out L : List β) (c s : Nat) (ho : out.length = L.length) (hp : out.take s = L.take s)
    (hs : s ≤ L.length) :
    ∃ out', Chunk.assign out s ((L.drop s).take c) = .ok out' ∧ out'.length = L.length ∧
      out'.take (s + min c (L.length - s)) = L.take (s + min c (L.length - s)) := by
  have hl : ((L.drop s).take c).length = min c (L.length - s) := by simp
  refine ⟨out.take s ++ (L.drop s).take c ++ out.drop (s + ((L.drop s).take c).length), ?_, ?_, ?_⟩
  · unfold Chunk.assign
    rw [if_pos (by rw [hl, ho]; omega)]
  · simp only [List.length_append, List.length_take, List.length_drop, ho]
    omega
  · have h2 : (out.take s ++ (L.drop s).take c).length = s + min c (L.length - s) := by
      simp only [List.length_append, List.length_take, List.length_drop, ho]; omega
    rw [List.take_append_of_le_length (by omega), List.take_of_length_le (by omega), hp]
    rw [List.take_add, ← List.take_take]
    congr 1
    rw [List.take_of_length_le (i := L.length - s) (by simp)]

/-- Outcome of the loop from position `i`. -/
theorem loop_ok {F : List (S × T × S × M) → List (Out V)} {f : S × T × S × M → Out V} (hF : Rowwise F f)
    (pad : S × T × S × M) (finite : V → Bool) (ids : List (I × I)) (args : List (S × T × S × M)) {c : Nat} (hc : 0 < c)
    (hg : ∀ o ∈ args.map f, AllFinite finite o) (i : Nat) :
    ∀ out : List (Out V), i ≤ args.length → out.length = args.length → out.take i = (args.map f).take i →
      loop c args.length F finite ids out i
        ((Chunk.rangeFrom i args.length c).map fun i => Chunk.paddedChunk pad args c i) =
        .ok (args.map f, args.length) := by
  induction i using Chunk.range_induction (n := args.length) hc with
  | done i h =>
    intro out hi ho hp
    have : i = args.length := by omega
    subst this
    rw [Chunk.rangeFrom_done h]
    simp only [List.map_nil, loop]
    rw [List.take_of_length_le (by omega), List.take_of_length_le (by simp)] at hp
    rw [hp]
  | step i h ih =>
    intro out hi ho hp
    rw [Chunk.rangeFrom_step h hc, List.map_cons]
    unfold loop
    simp only
    rw [kernel_batch hF]
    have hb : ∀ o ∈ batch (args.map f) c i, AllFinite finite o :=
      fun o ho => hg o (List.mem_of_mem_drop (List.mem_of_mem_take ho))
    obtain ⟨h1, h2, h3⟩ := batch_finite.mpr hb
    rw [h1, h2, h3]
    simp only
    obtain ⟨out', e1, e2, e3⟩ := assign_batch out (args.map f) c i (by simpa using ho) hp (by simpa using hi)
    rw [batch, e1]
    simp only
    rw [List.length_map] at e2 e3
    by_cases hcl : i + c ≤ args.length
    · have hm : min c (args.length - i) = c := by omega
      rw [hm] at e3 ⊢
      exact ih out' hcl e2 e3
    · have hm : i + min c (args.length - i) = args.length := by omega
      rw [hm] at e3 ⊢
      rw [Chunk.rangeFrom_done (by omega)]
      simp only [List.map_nil, loop]
      rw [List.take_of_length_le (by omega), List.take_of_length_le (by simp)] at e3
      rw [e3]

/-- The error raised for the batch starting at `s`. -/
def BatchError (finite : V → Bool) (ids : List (I × I)) (L : List (Out V)) (times : List T) (c s : Nat)
    (e : PyErr ⊕ NumErr I T V) : Prop :=
  (∃ bad, firstNonFinite finite ((batch L c s).map Out.lt) = some bad ∧
    e = report .lightTime ids s bad times ((batch L c s).map Out.lt)) ∨
  (firstNonFinite finite ((batch L c s).map Out.lt) = none ∧
    ∃ bad, firstNonFinite finite (flat Out.sph (batch L c s)) = some bad ∧
      e = report .ephemeris ids s bad times ((batch L c s).map Out.lt)) ∨
  (firstNonFinite finite ((batch L c s).map Out.lt) = none ∧
    firstNonFinite finite (flat Out.sph (batch L c s)) = none ∧
    ∃ bad, firstNonFinite finite (flat Out.aber (batch L c s)) = some bad ∧
      e = report .aberrated ids s bad times ((batch L c s).map Out.lt))

theorem loop_error {F : List (S × T × S × M) → List (Out V)} {f : S × T × S × M → Out V} (hF : Rowwise F f)
    (pad : S × T × S × M) (finite : V → Bool) (ids : List (I × I)) (args : List (S × T × S × M)) {c : Nat} (hc : 0 < c)
    (i : Nat) :
    ∀ out : List (Out V), i ≤ args.length → out.length = args.length → out.take i = (args.map f).take i →
      (∃ o ∈ (args.map f).drop i, ¬ AllFinite finite o) →
      ∃ s e, i ≤ s ∧ (∃ q, s = i + q * c) ∧ s < args.length ∧
        (∀ (j : Nat) o, i ≤ j → j < s → (args.map f)[j]? = some o → AllFinite finite o) ∧
        (∃ o ∈ batch (args.map f) c s, ¬ AllFinite finite o) ∧
        loop c args.length F finite ids out i
          ((Chunk.rangeFrom i args.length c).map fun i => Chunk.paddedChunk pad args c i) = .error e ∧
        BatchError finite ids (args.map f) ((Chunk.paddedChunk pad args c s).map fun a => a.2.1) c s e := by
  induction i using Chunk.range_induction (n := args.length) hc with
  | done i h =>
    intro out hi ho hp hb
    rw [List.drop_of_length_le (by simpa using h)] at hb
    simp at hb
  | step i h ih =>
    intro out hi ho hp hbad
    rw [Chunk.rangeFrom_step h hc, List.map_cons]
    unfold loop
    simp only
    rw [kernel_batch hF]
    by_cases hb : ∀ o ∈ batch (args.map f) c i, AllFinite finite o
    · obtain ⟨h1, h2, h3⟩ := batch_finite.mpr hb
      rw [h1, h2, h3]
      simp only
      obtain ⟨out', e1, e2, e3⟩ := assign_batch out (args.map f) c i (by simpa using ho) hp (by simpa using hi)
      rw [show batch (args.map f) c i = ((args.map f).drop i).take c from rfl, e1]
      simp only
      rw [List.length_map] at e2 e3
      have hsplit : (args.map f).drop i = batch (args.map f) c i ++ (args.map f).drop (i + c) := by
        rw [batch, ← List.drop_drop, List.take_append_drop]
      have hbad' : ∃ o ∈ (args.map f).drop (i + c), ¬ AllFinite finite o := by
        obtain ⟨o, ho, hno⟩ := hbad
        rw [hsplit] at ho
        rcases List.mem_append.mp ho with h | h
        · exact absurd (hb o h) hno
        · exact ⟨o, h, hno⟩
      have hcl : i + c ≤ args.length := by
        obtain ⟨o, ho, _⟩ := hbad'
        by_contra hcon
        rw [List.drop_of_length_le (by simp; omega)] at ho
        simp at ho
      have hm : min c (args.length - i) = c := by omega
      rw [hm] at e3 ⊢
      obtain ⟨s, e, g1, ⟨q, g2⟩, g3, g4, g5, g6, g7⟩ := ih out' hcl e2 e3 hbad'
      refine ⟨s, e, by omega, ⟨q + 1, by rw [g2, Nat.succ_mul]; omega⟩, g3, ?_, g5, g6, g7⟩
      intro j o hij hjs hjo
      by_cases hjc : j < i + c
      · apply hb
        rw [batch, List.mem_iff_getElem?]
        refine ⟨j - i, ?_⟩
        rw [List.getElem?_take, if_pos (by omega), List.getElem?_drop, ← hjo]
        congr 1; omega
      · exact g4 j o (by omega) hjs hjo
    · have hex : ∃ o ∈ batch (args.map f) c i, ¬ AllFinite finite o := by
        push Not at hb; exact hb
      have hno : ∀ (j : Nat) (o : Out V), i ≤ j → j < i → (args.map f)[j]? = some o → AllFinite finite o := by
        intro j o h1 h2; omega
      have fin := batch_finite.not.mpr hb
      cases h1 : firstNonFinite finite ((batch (args.map f) c i).map Out.lt) with
      | some bad =>
        exact ⟨i, _, le_refl _, ⟨0, by omega⟩, h, hno, hex, rfl, .inl ⟨bad, h1, rfl⟩⟩
      | none =>
        simp only
        cases h2 : firstNonFinite finite (flat Out.sph (batch (args.map f) c i)) with
        | some bad =>
          exact ⟨i, _, le_refl _, ⟨0, by omega⟩, h, hno, hex, rfl, .inr (.inl ⟨h1, bad, h2, rfl⟩)⟩
        | none =>
          simp only
          cases h3 : firstNonFinite finite (flat Out.aber (batch (args.map f) c i)) with
          | some bad =>
            exact ⟨i, _, le_refl _, ⟨0, by omega⟩, h, hno, hex, rfl, .inr (.inr ⟨h1, h2, bad, h3, rfl⟩)⟩
          | none => exact absurd ⟨h1, h2, h3⟩ fin

end

end Verif.Eph2
