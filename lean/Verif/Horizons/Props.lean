import Verif.Horizons.Model
import Verif.Mpc.Lemmas
import Verif.Sched.Lemmas
import Verif.Sched.Orbits
import Verif.Chunk.Props
import Verif.Catalog.Props

/-! # C138, C139: queries to JPL Horizons -/

namespace Verif.Horizons.Props

open Verif Sched Horizons

variable {O L T N X Y : Type}

/-! ## Ids -/

/-- The number of an id. -/
def number (s : Str) : Nat := Nat.ofDigitChars 10 s 0

theorem number_orbitId (i : Nat) : number (orbitId i) = i := Mpc.ofDigits_zfill_dec 5 i

theorem orbitId_injective {i j : Nat} (h : orbitId i = orbitId j) : i = j := by
  rw [← number_orbitId i, h, number_orbitId]

/-! ## The loops -/

/-- The request for an object and a batch of times. -/
def make (elements : Bool) (jd : T → ℚ) (location : L) (times : List T) (o : O) : Request O L :=
  ⟨elements, o, times.map fun t => if elements then jd t - 4800001 / 2 else jd t, location⟩

theorem askAll_ok (server : Nat → Request O L → Except PyErr (List (Answer N X))) (mk : O → Request O L) (l : List (O × Nat))
    (sent : List (Request O L)) (tagged : List (Tagged N X)) (h : (askAll server mk l sent).result = .ok tagged) :
    (askAll server mk l sent).sent = sent ++ l.map (fun p => mk p.1) ∧ ∃ answers : List (List (Answer N X)),
      answers.length = l.length ∧
      (∀ k p, l[k]? = some p → ∃ a, answers[k]? = some a ∧ server (sent.length + k) (mk p.1) = .ok a) ∧
      tagged = (List.zipWith (fun p a => a.map fun r => (⟨orbitId p.2, r⟩ : Tagged N X)) l answers).flatten := by
  induction l generalizing sent tagged with
  | nil =>
    simp only [askAll, Except.ok.injEq] at h
    exact ⟨by simp [askAll], [], rfl, by simp, by simp [h]⟩
  | cons p l ih =>
    obtain ⟨o, i⟩ := p
    unfold askAll at h ⊢
    cases hs : server sent.length (mk o) with
    | error e => rw [hs] at h; simp at h
    | ok rows =>
      rw [hs] at h
      simp only at h ⊢
      cases hm : (askAll server mk l (sent ++ [mk o])).result with
      | error e => rw [hm] at h; simp at h
      | ok more =>
        rw [hm] at h
        simp only [Except.ok.injEq] at h ⊢
        obtain ⟨h1, answers, h2, h3, h4⟩ := ih _ _ hm
        refine ⟨by rw [h1]; simp, rows :: answers, by simp [h2], ?_, by rw [← h, h4]; simp⟩
        intro k q hk
        cases k with
        | zero =>
          simp only [List.getElem?_cons_zero, Option.some.injEq] at hk
          subst hk
          exact ⟨rows, rfl, hs⟩
        | succ k =>
          simp only [List.getElem?_cons_succ] at hk ⊢
          obtain ⟨a, ha1, ha2⟩ := h3 k q hk
          refine ⟨a, ha1, ?_⟩
          rw [List.length_append, List.length_singleton] at ha2
          rw [show sent.length + (k + 1) = sent.length + 1 + k by omega]
          exact ha2

theorem askAll_error (server : Nat → Request O L → Except PyErr (List (Answer N X))) (mk : O → Request O L) (l : List (O × Nat))
    (sent : List (Request O L)) (e : PyErr) (h : (askAll server mk l sent).result = .error e) :
    ∃ k p, l[k]? = some p ∧ (askAll server mk l sent).sent = sent ++ (l.take (k + 1)).map (fun p => mk p.1) ∧
      server (sent.length + k) (mk p.1) = .error e := by
  induction l generalizing sent with
  | nil => simp [askAll] at h
  | cons p l ih =>
    obtain ⟨o, i⟩ := p
    unfold askAll at h ⊢
    cases hs : server sent.length (mk o) with
    | error e' =>
      rw [hs] at h
      simp only [Except.error.injEq] at h ⊢
      subst h
      exact ⟨0, (o, i), rfl, by simp, hs⟩
    | ok rows =>
      rw [hs] at h
      simp only at h ⊢
      cases hm : (askAll server mk l (sent ++ [mk o])).result with
      | ok more => rw [hm] at h; simp at h
      | error e' =>
        rw [hm] at h
        simp only [Except.error.injEq] at h ⊢
        subst h
        obtain ⟨k, p, h1, h2, h3⟩ := ih _ hm
        refine ⟨k + 1, p, by simpa using h1, by rw [h2]; simp, ?_⟩
        rw [List.length_append, List.length_singleton] at h3
        rw [show sent.length + (k + 1) = sent.length + 1 + k by omega]
        exact h3

/-- The row of the result for a row of the answer to request `k`. -/
def rowOf (w : World T X Y) (kind : Kind) (n k : Nat) (a : Answer N X) : Orbit T N Y :=
  ⟨orbitId (k % n), a.name, w.stamp a.jd, "SUN".toList, w.cartesian kind a.state⟩

/-- All requests, in order: for every batch of times one for every object. -/
def plan (elements : Bool) (jd : T → ℚ) (location : L) (objects : List O) (chunks : List (List T)) : List (Request O L) :=
  chunks.flatMap fun c => objects.map (make elements jd location c)

theorem tagged_eq (w : World T X Y) (kind : Kind) (objects : List O) (answers : List (List (Answer N X)))
    (hl : answers.length = objects.length) (s : Nat) (hs : s % objects.length = 0) :
    orbitsOf w kind (List.zipWith (fun p a => a.map fun r => (⟨orbitId p.2, r⟩ : Tagged N X)) objects.zipIdx answers).flatten =
      (answers.zipIdx s).flatMap fun p => p.1.map (rowOf w kind objects.length p.2) := by
  have key : ∀ (n : Nat) (l : List O) (as : List (List (Answer N X))) (j : Nat), as.length = l.length → j + l.length ≤ n →
      s % n = 0 →
      orbitsOf w kind (List.zipWith (fun p a => a.map fun r => (⟨orbitId p.2, r⟩ : Tagged N X)) (l.zipIdx j) as).flatten =
        (as.zipIdx (s + j)).flatMap fun p => p.1.map (rowOf w kind n p.2) := by
    intro n l
    induction l with
    | nil => intro as j ha _ _; simp at ha; simp [ha, orbitsOf]
    | cons o l ih =>
      intro as j ha hj hsn
      cases as with
      | nil => simp at ha
      | cons a as =>
        have := ih as (j + 1) (by simpa using ha) (by simp only [List.length_cons] at hj; omega) hsn
        simp only [List.zipIdx_cons, List.zipWith_cons_cons, List.flatten_cons, List.flatMap_cons]
        rw [show s + j + 1 = s + (j + 1) by omega, ← this]
        simp only [orbitsOf, List.map_append, List.map_map]
        congr 1
        refine List.map_congr_left fun r _ => ?_
        simp only [Function.comp, rowOf]
        have : (s + j) % n = j := by
          rw [Nat.add_mod, hsn, Nat.zero_add, Nat.mod_mod]
          exact Nat.mod_eq_of_lt (by simp only [List.length_cons] at hj; omega)
        rw [this]
  have := key objects.length objects answers 0 hl (by omega) hs
  simpa using this

theorem batches_spec (w : World T X Y) (server : Nat → Request O L → Except PyErr (List (Answer N X))) (kind : Kind)
    (hk : kind ≠ .unknown) (location : L) (objects : List O) (ho : objects ≠ []) (chunks : List (List T)) (total : List (Orbit T N Y))
    (sent : List (Request O L)) (hs : sent.length % objects.length = 0) :
    (∀ rows, (batches w server kind location objects chunks total sent).result = .ok rows →
      (batches w server kind location objects chunks total sent).sent =
        sent ++ plan (decide (kind ≠ .cartesian)) w.jd location objects chunks ∧
      ∃ answers : List (List (Answer N X)),
        answers.length = (plan (decide (kind ≠ .cartesian)) w.jd location objects chunks).length ∧
        (∀ k r, (plan (decide (kind ≠ .cartesian)) w.jd location objects chunks)[k]? = some r →
          ∃ a, answers[k]? = some a ∧ server (sent.length + k) r = .ok a) ∧
        rows.Perm (total ++ (answers.zipIdx sent.length).flatMap fun p => p.1.map (rowOf w kind objects.length p.2))) ∧
    (∀ e, (batches w server kind location objects chunks total sent).result = .error e →
      ∃ k r, (plan (decide (kind ≠ .cartesian)) w.jd location objects chunks)[k]? = some r ∧
        server (sent.length + k) r = .error e ∧
        (batches w server kind location objects chunks total sent).sent =
          sent ++ (plan (decide (kind ≠ .cartesian)) w.jd location objects chunks).take (k + 1)) := by
  induction chunks generalizing total sent with
  | nil =>
    refine ⟨fun rows h => ?_, fun e h => ?_⟩
    · simp only [batches, Except.ok.injEq] at h
      exact ⟨by simp [batches, plan], [], by simp [plan], by simp [plan], by simp [h]⟩
    · simp [batches] at h
  | cons c rest ih =>
    have hplan : plan (decide (kind ≠ .cartesian)) w.jd location objects (c :: rest) =
        objects.map (make (decide (kind ≠ .cartesian)) w.jd location c) ++
          plan (decide (kind ≠ .cartesian)) w.jd location objects rest := by
      simp [plan]
    have hmap : objects.zipIdx.map (fun p => make (decide (kind ≠ .cartesian)) w.jd location c p.1) =
        objects.map (make (decide (kind ≠ .cartesian)) w.jd location c) := by
      conv_rhs => rw [← List.zipIdx_map_fst (i := 0) (l := objects), List.map_map]
      rfl
    have hbatch : batch server (decide (kind ≠ .cartesian)) w.jd location objects c sent =
        (match (askAll server (make (decide (kind ≠ .cartesian)) w.jd location c) objects.zipIdx sent).result with
          | .error e => ⟨.error e, (askAll server (make (decide (kind ≠ .cartesian)) w.jd location c) objects.zipIdx sent).sent⟩
          | .ok rows => if objects.isEmpty then
              ⟨.error .valueError, (askAll server (make (decide (kind ≠ .cartesian)) w.jd location c) objects.zipIdx sent).sent⟩
            else ⟨.ok (sortBy batchKey rows),
              (askAll server (make (decide (kind ≠ .cartesian)) w.jd location c) objects.zipIdx sent).sent⟩) := rfl
    have hne : objects.isEmpty = false := by simpa using ho
    unfold batches
    simp only [if_neg hk]
    cases ha : (askAll server (make (decide (kind ≠ .cartesian)) w.jd location c) objects.zipIdx sent).result with
    | error e =>
      rw [ha] at hbatch
      simp only at hbatch
      rw [hbatch]
      simp only
      refine ⟨by simp, fun e' he' => ?_⟩
      simp only [Except.error.injEq] at he'
      subst he'
      obtain ⟨k, p, h1, h2, h3⟩ := askAll_error server _ _ _ _ ha
      have hkl : k < objects.length := by
        have := (List.getElem?_eq_some_iff.mp h1).1
        simpa using this
      have h1' : objects[k]? = some p.1 := by
        rw [List.getElem?_zipIdx] at h1
        cases hok : objects[k]? with
        | none => rw [hok] at h1; simp at h1
        | some o => rw [hok] at h1; simp only [Option.map_some, Option.some.injEq] at h1; rw [← h1]
      refine ⟨k, make (decide (kind ≠ .cartesian)) w.jd location c p.1, ?_, h3, ?_⟩
      · rw [hplan, List.getElem?_append_left (by simpa using hkl), List.getElem?_map, h1']; rfl
      · rw [h2, hplan, List.take_append_of_le_length (by rw [List.length_map]; omega), ← hmap, List.map_take]
    | ok tagged =>
      rw [ha] at hbatch
      simp only [hne, Bool.false_eq_true, if_false] at hbatch
      rw [hbatch]
      simp only
      obtain ⟨h1, answers, h2, h3, h4⟩ := askAll_ok server _ _ _ _ ha
      rw [hmap] at h1
      rw [List.length_zipIdx] at h2
      have hlen : (askAll server (make (decide (kind ≠ .cartesian)) w.jd location c) objects.zipIdx sent).sent.length =
          sent.length + objects.length := by rw [h1]; simp
      have hmod : (askAll server (make (decide (kind ≠ .cartesian)) w.jd location c) objects.zipIdx sent).sent.length %
          objects.length = 0 := by rw [hlen, Nat.add_mod_right]; exact hs
      have hperm : (orbitsOf w kind (sortBy batchKey tagged)).Perm
          ((answers.zipIdx sent.length).flatMap fun p => p.1.map (rowOf w kind objects.length p.2)) := by
        rw [← tagged_eq w kind objects answers h2 sent.length hs, ← h4]
        exact (sortBy_perm _ _).map _
      obtain ⟨ih1, ih2⟩ := ih (orbitsOf w kind (sortBy batchKey tagged) ++ total)
        (askAll server (make (decide (kind ≠ .cartesian)) w.jd location c) objects.zipIdx sent).sent hmod
      have hget : ∀ k r, (objects.map (make (decide (kind ≠ .cartesian)) w.jd location c))[k]? = some r →
          ∃ a, answers[k]? = some a ∧ server (sent.length + k) r = .ok a := by
        intro k r hkr
        rw [List.getElem?_map] at hkr
        cases hok : objects[k]? with
        | none => rw [hok] at hkr; simp at hkr
        | some o =>
          rw [hok] at hkr
          simp only [Option.map_some, Option.some.injEq] at hkr
          subst hkr
          exact h3 k (o, k) (by rw [List.getElem?_zipIdx, hok]; simp)
      refine ⟨fun rows hr => ?_, fun e he => ?_⟩
      · obtain ⟨g1, answers', g2, g3, g4⟩ := ih1 rows hr
        refine ⟨by rw [g1, h1, hplan]; simp, answers ++ answers', by rw [hplan]; simp [h2, g2], ?_, ?_⟩
        · intro k r hkr
          rw [hplan] at hkr
          by_cases hkl : k < objects.length
          · rw [List.getElem?_append_left (by simpa using hkl)] at hkr
            obtain ⟨a, ha1, ha2⟩ := hget k r hkr
            exact ⟨a, by rw [List.getElem?_append_left (by omega)]; exact ha1, ha2⟩
          · rw [List.getElem?_append_right (by simpa using Nat.le_of_not_lt hkl), List.length_map] at hkr
            obtain ⟨a, ha1, ha2⟩ := g3 _ r hkr
            refine ⟨a, by rw [List.getElem?_append_right (by omega), h2]; exact ha1, ?_⟩
            rw [hlen] at ha2
            rw [← ha2]
            congr 1
            omega
        · refine g4.trans ?_
          rw [List.zipIdx_append, List.flatMap_append, h2, hlen, ← List.append_assoc]
          refine List.Perm.append_right _ ?_
          exact List.perm_append_comm.trans (hperm.append_left _)
      · obtain ⟨k, r, g1, g2, g3⟩ := ih2 e he
        refine ⟨objects.length + k, r, ?_, ?_, ?_⟩
        · rw [hplan, List.getElem?_append_right (by simp), List.length_map, Nat.add_sub_cancel_left]; exact g1
        · rw [hlen] at g2
          rw [← g2]; congr 1; omega
        · rw [g3, h1, hplan, List.append_assoc]
          congr 1
          rw [List.take_append, List.take_of_length_le (l := objects.map _) (by rw [List.length_map]; omega), List.length_map,
            show objects.length + k + 1 - objects.length = k + 1 by omega]

/-- A query that succeeds has asked for every object once in every batch; batches are consecutive parts of the sorted times, of at
most fifty. The result has exactly one row for each row of every answer, with the id of the object's position, and is sorted by time. -/
theorem C138_rows [LinearOrder T] (w : World T X Y) (server : Nat → Request O L → Except PyErr (List (Answer N X))) (kind : Kind)
    (location : L) (objects : List O) (times : List T) (rows : List (Orbit T N Y))
    (h : (query w server kind location objects times).result = .ok rows) :
    kind ≠ .unknown ∧ objects ≠ [] ∧ times ≠ [] ∧ ∃ chunks sorted, sorted.Perm times ∧ sorted.Pairwise (· ≤ ·) ∧
      chunks.flatten = sorted ∧ (∀ c ∈ chunks, c ≠ [] ∧ c.length ≤ 50) ∧
      (query w server kind location objects times).sent = plan (decide (kind ≠ .cartesian)) w.jd location objects chunks ∧
      ∃ answers : List (List (Answer N X)),
        answers.length = (query w server kind location objects times).sent.length ∧
        (∀ k r, (query w server kind location objects times).sent[k]? = some r →
          ∃ a, answers[k]? = some a ∧ server k r = .ok a) ∧
        rows.Perm (answers.zipIdx.flatMap fun p => p.1.map (rowOf w kind objects.length p.2)) ∧
        rows.Pairwise fun a b => a.time ≤ b.time := by
  unfold query at h ⊢
  by_cases ht : times.isEmpty = true
  · rw [if_pos ht] at h; simp at h
  · rw [if_neg ht] at h ⊢
    obtain ⟨chunks, hc, hp⟩ := Chunk.Props.C19_chunks (sortBy id times) 50 (by norm_num)
    rw [hc] at h ⊢
    simp only at h ⊢
    have hchunks : chunks ≠ [] := by
      rintro rfl
      have h0 := hp.concat
      simp only [List.flatten_nil] at h0
      have := (sortBy_perm id times).length_eq
      rw [← h0] at this
      exact ht (by simpa using (List.length_eq_zero_iff.mp this.symm))
    cases hb : (batches w server kind location objects chunks [] []).result with
    | error e => rw [hb] at h; simp at h
    | ok total =>
      rw [hb] at h
      simp only [Except.ok.injEq] at h ⊢
      obtain ⟨hk, ho⟩ : kind ≠ .unknown ∧ objects ≠ [] := by
        cases chunks with
        | nil => exact absurd rfl hchunks
        | cons c rest =>
          unfold batches at hb
          by_cases hk : kind = .unknown
          · rw [if_pos hk] at hb; simp at hb
          · refine ⟨hk, ?_⟩
            rintro rfl
            simp [if_neg hk, batch, askAll] at hb
      obtain ⟨h1, answers, h2, h3, h4⟩ := (batches_spec w server kind hk location objects ho chunks [] [] (by simp)).1 total hb
      simp only [List.nil_append] at h1
      refine ⟨hk, ho, by simpa using ht, chunks, sortBy id times, sortBy_perm id times, sortBy_sorted id times, hp.concat,
        fun c hc => ⟨hp.nonempty c hc, by simpa using hp.bounded c hc⟩, h1, answers, by rw [h1]; exact h2, ?_, ?_, ?_⟩
      · intro k r hr
        rw [h1] at hr
        simpa using h3 k r hr
      · rw [← h]
        exact (sortBy_perm _ _).trans (by simpa using h4)
      · rw [← h]
        exact sortBy_sorted _ _

/-- A query with times, objects and a known type of coordinates fails only with an exception of the server, to the last request sent. -/
theorem C138_failure [LinearOrder T] (w : World T X Y) (server : Nat → Request O L → Except PyErr (List (Answer N X))) (kind : Kind)
    (hk : kind ≠ .unknown) (location : L) (objects : List O) (ho : objects ≠ []) (times : List T) (ht : times ≠ []) (e : PyErr)
    (h : (query w server kind location objects times).result = .error e) :
    ∃ r, (query w server kind location objects times).sent.getLast? = some r ∧
      server ((query w server kind location objects times).sent.length - 1) r = .error e := by
  have hte : ¬ times.isEmpty = true := by simpa using ht
  unfold query at h ⊢
  rw [if_neg hte] at h ⊢
  obtain ⟨chunks, hc, hp⟩ := Chunk.Props.C19_chunks (sortBy id times) 50 (by norm_num)
  rw [hc] at h ⊢
  simp only at h ⊢
  cases hb : (batches w server kind location objects chunks [] []).result with
  | ok total => rw [hb] at h; simp at h
  | error e' =>
    rw [hb] at h
    simp only [Except.error.injEq] at h ⊢
    subst h
    obtain ⟨k, r, h1, h2, h3⟩ := (batches_spec w server kind hk location objects ho chunks [] [] (by simp)).2 e' hb
    rw [List.nil_append] at h3
    obtain ⟨hlt, hget⟩ := List.getElem?_eq_some_iff.mp h1
    have hlen : (batches w server kind location objects chunks [] []).sent.length = k + 1 := by
      rw [h3, List.length_take]; omega
    refine ⟨r, ?_, ?_⟩
    · rw [List.getLast?_eq_getElem?, hlen, Nat.add_sub_cancel, h3, List.getElem?_take_of_lt (by omega)]
      exact h1
    · rw [hlen, Nat.add_sub_cancel]
      simpa using h2

/-- Without times the query fails with an assertion; without objects or with an unknown type of coordinates with a `ValueError`; in all
three cases before any request. -/
theorem C138_arguments [LinearOrder T] (w : World T X Y) (server : Nat → Request O L → Except PyErr (List (Answer N X))) (kind : Kind)
    (location : L) (objects : List O) (times : List T) :
    (times = [] → query w server kind location objects times = ⟨.error .assertionError, []⟩) ∧
    (times ≠ [] → (kind = .unknown ∨ objects = []) → query w server kind location objects times = ⟨.error .valueError, []⟩) := by
  refine ⟨by rintro rfl; rfl, fun ht hbad => ?_⟩
  have hte : ¬ times.isEmpty = true := by simpa using ht
  unfold query
  rw [if_neg hte]
  obtain ⟨chunks, hc, hp⟩ := Chunk.Props.C19_chunks (sortBy id times) 50 (by norm_num)
  rw [hc]
  cases chunks with
  | nil =>
    have h0 := hp.concat
    simp only [List.flatten_nil] at h0
    have := (sortBy_perm id times).length_eq
    rw [← h0] at this
    exact absurd (List.length_eq_zero_iff.mp this.symm) ht
  | cons c rest =>
    by_cases hk : kind = .unknown
    · simp [batches, hk]
    · have ho : objects = [] := hbad.resolve_left hk
      subst ho
      simp [batches, hk, batch, askAll]

/-! ## Order -/

theorem ofDigitChars_lt : ∀ (s : Str), Mpc.Digits s → Nat.ofDigitChars 10 s 0 < 10 ^ s.length := by
  intro s
  induction s with
  | nil => intro _; simp
  | cons c s ih =>
    intro h
    have hc : c.isDigit = true := h c (by simp)
    have hd := ih fun x hx => h x (by simp [hx])
    rw [Nat.ofDigitChars_cons, Nat.ofDigitChars_eq_ofDigitChars_zero, List.length_cons, pow_succ]
    have h9 : c.toNat - '0'.toNat ≤ 9 := by
      rw [Char.isDigit_iff_toNat] at hc
      have : '0'.toNat = 48 := rfl
      have : '9'.toNat = 57 := rfl
      omega
    have : 10 ^ s.length * (10 * 0 + (c.toNat - '0'.toNat)) ≤ 10 ^ s.length * 9 := Nat.mul_le_mul_left _ (by omega)
    omega

theorem lt_of_digits : ∀ (s t : Str), s.length = t.length → Mpc.Digits s → Mpc.Digits t → ∀ a,
    Nat.ofDigitChars 10 s a < Nat.ofDigitChars 10 t a → s < t := by
  intro s
  induction s with
  | nil => intro t ht _ _ a h; rw [List.length_eq_zero_iff.mp ht.symm] at h; omega
  | cons c s ih =>
    intro t ht hs hd a h
    cases t with
    | nil => simp at ht
    | cons d t =>
      have hl : s.length = t.length := by simpa using ht
      have hsd : Mpc.Digits s := fun x hx => hs x (by simp [hx])
      have htd : Mpc.Digits t := fun x hx => hd x (by simp [hx])
      rw [List.cons_lt_cons_iff]
      by_cases hcd : c = d
      · subst hcd
        exact .inr ⟨rfl, ih t hl hsd htd _ (by simpa only [Nat.ofDigitChars_cons] using h)⟩
      · left
        by_contra hn
        have hlt : d < c := lt_of_le_of_ne (not_lt.mp hn) (Ne.symm hcd)
        have hlt' : d.toNat < c.toNat := Char.lt_def.mp hlt
        have hd0 := Char.isDigit_iff_toNat.mp (hd d (by simp))
        rw [Nat.ofDigitChars_cons, Nat.ofDigitChars_cons, Nat.ofDigitChars_eq_ofDigitChars_zero (l := s),
          Nat.ofDigitChars_eq_ofDigitChars_zero (l := t), hl] at h
        have h1 := ofDigitChars_lt t htd
        have : '0'.toNat = 48 := rfl
        have h2 : 10 ^ t.length * (10 * a + (d.toNat - '0'.toNat) + 1) ≤ 10 ^ t.length * (10 * a + (c.toNat - '0'.toNat)) :=
          Nat.mul_le_mul_left _ (by omega)
        rw [Nat.mul_add, Nat.mul_one] at h2
        omega

/-- Ids of the first hundred thousand objects are in the order of their numbers. -/
theorem orbitId_lt {i j : Nat} (hj : j < 100000) (h : i < j) : orbitId i < orbitId j := by
  refine lt_of_digits _ _ ?_ (Mpc.digits_zfill (Mpc.digits_dec i)) (Mpc.digits_zfill (Mpc.digits_dec j)) 0 ?_
  · rw [orbitId, orbitId, Mpc.length_zfill_dec (by omega) (by omega), Mpc.length_zfill_dec (by omega) (by omega)]
  · have h1 := number_orbitId i
    have h2 := number_orbitId j
    unfold number at h1 h2
    omega

theorem orbitId_le {i j : Nat} (hj : j < 100000) (h : i ≤ j) : orbitId i ≤ orbitId j := by
  rcases Nat.lt_or_eq_of_le h with h | rfl
  · exact le_of_lt (orbitId_lt hj h)
  · exact le_refl _

/-- The answer of a server that knows the objects: one row for every epoch asked for, in order. Elements are asked for with modified
Julian dates and answered with Julian dates. -/
def truthful (name : O → N) (state : O → ℚ → X) (r : Request O L) : List (Answer N X) :=
  r.epochs.map fun e => ⟨if r.elements then e + 4800001 / 2 else e, name r.object,
    state r.object (if r.elements then e + 4800001 / 2 else e)⟩

theorem truthful_make (name : O → N) (state : O → ℚ → X) (elements : Bool) (jd : T → ℚ) (location : L) (c : List T) (o : O) :
    truthful name state (make elements jd location c o) = c.map fun t => ⟨jd t, name o, state o (jd t)⟩ := by
  cases elements <;> simp [truthful, make]

theorem askAll_truthful (server : Nat → Request O L → Except PyErr (List (Answer N X))) (name : O → N) (state : O → ℚ → X)
    (hs : ∀ k r, server k r = .ok (truthful name state r)) (mk : O → Request O L) (l : List (O × Nat)) (sent : List (Request O L)) :
    (askAll server mk l sent).result = .ok (l.flatMap fun p => (truthful name state (mk p.1)).map fun r => ⟨orbitId p.2, r⟩) := by
  induction l generalizing sent with
  | nil => rfl
  | cons p l ih =>
    obtain ⟨o, i⟩ := p
    simp only [askAll, hs, ih, List.flatMap_cons]

/-- The row for an object, its number and a time. -/
def expected (w : World T X Y) (name : O → N) (state : O → ℚ → X) (kind : Kind) (t : T) (p : O × Nat) : Orbit T N Y :=
  ⟨orbitId p.2, name p.1, w.stamp (w.jd t), "SUN".toList, w.cartesian kind (state p.1 (w.jd t))⟩

theorem zipIdx_pairwise (l : List O) (n : Nat) : (l.zipIdx n).Pairwise fun p q => p.2 < q.2 := by
  induction l generalizing n with
  | nil => simp
  | cons a l ih =>
    rw [List.zipIdx_cons, List.pairwise_cons]
    refine ⟨fun q hq => ?_, ih _⟩
    have := List.le_snd_of_mem_zipIdx hq
    show n < q.2
    omega

theorem zipIdx_lt {l : List O} {p : O × Nat} (h : p ∈ l.zipIdx) : p.2 < l.length := by
  have := List.snd_lt_of_mem_zipIdx h
  simpa using this

theorem batches_truthful [LinearOrder T] (w : World T X Y) (server : Nat → Request O L → Except PyErr (List (Answer N X)))
    (name : O → N) (state : O → ℚ → X) (hs : ∀ k r, server k r = .ok (truthful name state r)) (kind : Kind) (hk : kind ≠ .unknown)
    (location : L) (objects : List O) (ho : objects ≠ []) (hlen : objects.length ≤ 100000) (chunks : List (List T))
    (hsorted : ∀ c ∈ chunks, c.Pairwise fun a b => w.jd a ≤ w.jd b) (total : List (Orbit T N Y)) (sent : List (Request O L)) :
    (batches w server kind location objects chunks total sent).result =
      .ok ((chunks.reverse.flatMap fun c => objects.zipIdx.flatMap fun p => c.map fun t => expected w name state kind t p) ++ total) := by
  induction chunks generalizing total sent with
  | nil => rfl
  | cons c rest ih =>
    have hne : objects.isEmpty = false := by simpa using ho
    have hask := askAll_truthful server name state hs (make (decide (kind ≠ Kind.cartesian)) w.jd location c) objects.zipIdx sent
    have hsort : (objects.zipIdx.flatMap fun p =>
        (truthful name state (make (decide (kind ≠ Kind.cartesian)) w.jd location c p.1)).map fun r => (⟨orbitId p.2, r⟩ : Tagged N X)).Pairwise
        fun a b => batchKey a ≤ batchKey b := by
      rw [List.pairwise_flatMap]
      constructor
      · intro p _
        rw [truthful_make, List.map_map, List.pairwise_map]
        refine (hsorted c (by simp)).imp fun h => ?_
        exact Prod.Lex.toLex_le_toLex.mpr (.inr ⟨rfl, h⟩)
      · refine (List.Pairwise.imp_of_mem ?_ (zipIdx_pairwise objects 0))
        intro p q _ hq hpq x hx y hy
        obtain ⟨x', -, rfl⟩ := List.mem_map.mp hx
        obtain ⟨y', -, rfl⟩ := List.mem_map.mp hy
        exact Prod.Lex.toLex_le_toLex.mpr (.inl (orbitId_lt (by have := zipIdx_lt hq; omega) hpq))
    have hbatch : (batch server (decide (kind ≠ Kind.cartesian)) w.jd location objects c sent).result =
        .ok (objects.zipIdx.flatMap fun p =>
          (truthful name state (make (decide (kind ≠ Kind.cartesian)) w.jd location c p.1)).map fun r => ⟨orbitId p.2, r⟩) := by
      show (match (askAll server (make (decide (kind ≠ Kind.cartesian)) w.jd location c) objects.zipIdx sent).result with
          | .error e => (⟨.error e, (askAll server (make (decide (kind ≠ Kind.cartesian)) w.jd location c) objects.zipIdx sent).sent⟩ :
              Run (List (Tagged N X)) (Request O L))
          | .ok rows => if objects.isEmpty then
              ⟨.error .valueError, (askAll server (make (decide (kind ≠ Kind.cartesian)) w.jd location c) objects.zipIdx sent).sent⟩
            else ⟨.ok (sortBy batchKey rows),
              (askAll server (make (decide (kind ≠ Kind.cartesian)) w.jd location c) objects.zipIdx sent).sent⟩).result = _
      rw [hask]
      simp only [hne, Bool.false_eq_true, if_false]
      rw [sortBy_of_sorted batchKey hsort]
    unfold batches
    simp only [if_neg hk, hbatch]
    rw [ih (fun c' hc' => hsorted c' (by simp [hc']))]
    congr 1
    rw [List.reverse_cons, List.flatMap_append, List.append_assoc]
    congr 2
    simp only [orbitsOf, List.flatMap_singleton, List.map_flatMap, List.map_map, truthful_make]
    rfl

theorem swap_perm {α β γ : Type} (l : List α) (m : List β) (f : α → β → γ) :
    (l.flatMap fun a => m.map (f a)).Perm (m.flatMap fun b => l.map fun a => f a b) := by
  induction l with
  | nil => simp
  | cons a l ih =>
    rw [List.flatMap_cons]
    simp only [List.map_cons]
    exact (ih.append_left _).trans (List.map_append_flatMap_perm m (f a) fun b => l.map fun a => f a b)

theorem pairwise_lex {α β γ : Type} [LinearOrder β] [LinearOrder γ] (f : α → β) (g : α → γ) (l : List α)
    (h1 : l.Pairwise fun a b => f a ≤ f b) (h2 : ∀ b, (l.filter fun a => decide (f a = b)).Pairwise fun a b => g a ≤ g b) :
    l.Pairwise fun a b => toLex (f a, g a) ≤ toLex (f b, g b) := by
  induction l with
  | nil => simp
  | cons a l ih =>
    obtain ⟨ha, hl⟩ := List.pairwise_cons.mp h1
    refine List.pairwise_cons.mpr ⟨fun b hb => ?_, ih hl fun b => ?_⟩
    · rw [Prod.Lex.toLex_le_toLex]
      rcases lt_or_eq_of_le (ha b hb) with h | h
      · exact .inl h
      · refine .inr ⟨h, ?_⟩
        have := h2 (f a)
        rw [List.filter_cons_of_pos (by simp)] at this
        exact (List.pairwise_cons.mp this).1 b (List.mem_filter.mpr ⟨hb, by simp [h]⟩)
    · have := h2 b
      by_cases hab : f a = b
      · rw [List.filter_cons_of_pos (by simp [hab])] at this
        exact (List.pairwise_cons.mp this).2
      · rwa [List.filter_cons_of_neg (by simp [hab])] at this

/-- For a server that knows the objects, at most 100 000 objects and distinct times that survive the conversion to Julian dates and
back in their order, the result is the table of all pairs: times in ascending order, and for every time the objects in the order asked
for. -/
theorem C138_order [LinearOrder T] (w : World T X Y) (server : Nat → Request O L → Except PyErr (List (Answer N X)))
    (name : O → N) (state : O → ℚ → X) (hs : ∀ k r, server k r = .ok (truthful name state r)) (kind : Kind) (hk : kind ≠ .unknown)
    (location : L) (objects : List O) (ho : objects ≠ []) (hlen : objects.length ≤ 100000) (times : List T) (ht : times ≠ [])
    (hn : times.Nodup) (hjd : ∀ a ∈ times, ∀ b ∈ times, a ≤ b → w.jd a ≤ w.jd b)
    (hst : ∀ a ∈ times, ∀ b ∈ times, a < b → w.stamp (w.jd a) < w.stamp (w.jd b)) :
    ∃ sorted : List T, sorted.Perm times ∧ sorted.Pairwise (· < ·) ∧
      (query w server kind location objects times).result =
        .ok (sorted.flatMap fun t => objects.zipIdx.map fun p => expected w name state kind t p) := by
  have hte : ¬ times.isEmpty = true := by simpa using ht
  obtain ⟨chunks, hc, hp⟩ := Chunk.Props.C19_chunks (sortBy id times) 50 (by norm_num)
  have hperm := sortBy_perm id times
  have hsle : (sortBy id times).Pairwise fun a b => a ≤ b := sortBy_sorted id times
  have hslt : (sortBy id times).Pairwise (· < ·) :=
    (hsle.and (hperm.nodup_iff.mpr hn)).imp fun h => lt_of_le_of_ne h.1 h.2
  have hmem : ∀ c ∈ chunks, ∀ t ∈ c, t ∈ times := fun c hc' t ht' =>
    hperm.mem_iff.mp (by rw [← hp.concat]; exact List.mem_flatten.mpr ⟨c, hc', ht'⟩)
  have hflat : chunks.flatten.Pairwise (· < ·) := by rw [hp.concat]; exact hslt
  obtain ⟨hin, hacross⟩ := List.pairwise_flatten.mp hflat
  have hb := batches_truthful w server name state hs kind hk location objects ho hlen chunks
    (fun c hc' => (hin c hc').imp_of_mem fun ha hb' h => hjd _ (hmem c hc' _ ha) _ (hmem c hc' _ hb') (le_of_lt h)) [] []
  rw [List.append_nil] at hb
  refine ⟨sortBy id times, hperm, hslt, ?_⟩
  unfold query
  rw [if_neg hte, hc]
  simp only
  rw [hb]
  simp only
  congr 1
  set total := chunks.reverse.flatMap fun c => objects.zipIdx.flatMap fun p => c.map fun t => expected w name state kind t p with htotal
  -- the same rows
  have hrows : total.Perm ((sortBy id times).flatMap fun t => objects.zipIdx.map fun p => expected w name state kind t p) := by
    rw [← hp.concat, htotal]
    refine (List.Perm.flatMap_right _ (List.reverse_perm chunks)).trans ?_
    rw [List.flatten_eq_flatMap, List.flatMap_assoc]
    refine List.Perm.flatMap_left _ fun c _ => ?_
    have := swap_perm objects.zipIdx c (fun p t => expected w name state kind t p)
    exact this
  -- order inside equal times
  have hR : total.Pairwise fun a b => a.time = b.time → number a.id ≤ number b.id := by
    rw [htotal, List.pairwise_flatMap]
    constructor
    · intro c _
      rw [List.pairwise_flatMap]
      constructor
      · intro p _
        rw [List.pairwise_map]
        exact List.pairwise_of_forall fun _ _ _ => le_refl _
      · refine (zipIdx_pairwise objects 0).imp fun {p q} hpq x hx y hy _ => ?_
        obtain ⟨x', -, rfl⟩ := List.mem_map.mp hx
        obtain ⟨y', -, rfl⟩ := List.mem_map.mp hy
        show number (orbitId p.2) ≤ number (orbitId q.2)
        rw [number_orbitId, number_orbitId]
        exact le_of_lt hpq
    · rw [List.pairwise_reverse]
      refine hacross.imp_of_mem fun {c d} hcm hdm hcd x hx y hy hxy => ?_
      obtain ⟨p, -, hx⟩ := List.mem_flatMap.mp hx
      obtain ⟨q, -, hy⟩ := List.mem_flatMap.mp hy
      obtain ⟨s, hs', rfl⟩ := List.mem_map.mp hx
      obtain ⟨t, ht', rfl⟩ := List.mem_map.mp hy
      exact absurd hxy (ne_of_gt (hst _ (hmem c hcm _ ht') _ (hmem d hdm _ hs') (hcd _ ht' _ hs')))
  have hexp : ∀ r ∈ total, ∃ t ∈ times, ∃ p ∈ objects.zipIdx, r = expected w name state kind t p := by
    intro r hr
    obtain ⟨t, ht', hr⟩ := List.mem_flatMap.mp (hrows.mem_iff.mp hr)
    obtain ⟨p, hp', rfl⟩ := List.mem_map.mp hr
    exact ⟨t, hperm.mem_iff.mp ht', p, hp', rfl⟩
  refine eq_of_sorted (fun r : Orbit T N Y => toLex (r.time, number r.id)) ((sortBy_perm _ _).trans hrows) ?_ ?_ ?_
  · intro a ha b hb' hab
    obtain ⟨s, hs', p, hp', rfl⟩ := hexp a ((sortBy_perm _ _).mem_iff.mp ha)
    obtain ⟨t, ht', q, hq', rfl⟩ := hexp b ((sortBy_perm _ _).mem_iff.mp hb')
    have h1 : w.stamp (w.jd s) = w.stamp (w.jd t) := congrArg (fun k => (ofLex k).1) hab
    have h2 : number (orbitId p.2) = number (orbitId q.2) := congrArg (fun k => (ofLex k).2) hab
    rw [number_orbitId, number_orbitId] at h2
    have hst' : s = t := by
      rcases lt_trichotomy s t with h | h | h
      · exact absurd h1 (ne_of_lt (hst _ hs' _ ht' h))
      · exact h
      · exact absurd h1 (ne_of_gt (hst _ ht' _ hs' h))
    have hpq : p = q := by
      obtain ⟨o, i⟩ := p
      obtain ⟨o', j⟩ := q
      simp only at h2
      subst h2
      have e1 := List.mem_zipIdx' hp'
      have e2 := List.mem_zipIdx' hq'
      rw [Prod.mk.injEq]
      exact ⟨e1.2.trans e2.2.symm, rfl⟩
    rw [hst', hpq]
  · refine pairwise_lex Orbit.time (fun r => number r.id) _ (sortBy_sorted _ _) fun b => ?_
    rw [Catalog.Props.sortBy_filter_key Orbit.time total _ (by
      intro x _ y _ hx hy; rw [of_decide_eq_true hx, of_decide_eq_true hy])]
    rw [List.pairwise_filter]
    exact hR.imp fun h hx hy => h ((of_decide_eq_true hx).trans (of_decide_eq_true hy).symm)
  · rw [List.pairwise_flatMap]
    constructor
    · intro t _
      rw [List.pairwise_map]
      refine (zipIdx_pairwise objects 0).imp fun {p q} hpq => ?_
      refine Prod.Lex.toLex_le_toLex.mpr (.inr ⟨rfl, ?_⟩)
      show number (orbitId p.2) ≤ number (orbitId q.2)
      rw [number_orbitId, number_orbitId]
      exact le_of_lt hpq
    · refine hslt.imp_of_mem fun {s t} hsm htm hst' x hx y hy => ?_
      obtain ⟨p, -, rfl⟩ := List.mem_map.mp hx
      obtain ⟨q, -, rfl⟩ := List.mem_map.mp hy
      exact Prod.Lex.toLex_le_toLex.mpr (.inl (hst _ (hperm.mem_iff.mp hsm) _ (hperm.mem_iff.mp htm) hst'))

/-- Every row names the Sun as origin, whatever centre was asked for. -/
theorem C138_origin [LinearOrder T] (w : World T X Y) (server : Nat → Request O L → Except PyErr (List (Answer N X))) (kind : Kind)
    (location : L) (objects : List O) (times : List T) (rows : List (Orbit T N Y))
    (h : (query w server kind location objects times).result = .ok rows) :
    (∀ r ∈ rows, r.origin = "SUN".toList) ∧ ∀ r ∈ (query w server kind location objects times).sent, r.location = location := by
  obtain ⟨-, -, -, chunks, sorted, -, -, -, -, hsent, answers, -, -, hperm, -⟩ := C138_rows w server kind location objects times rows h
  constructor
  · intro r hr
    obtain ⟨p, -, hr⟩ := List.mem_flatMap.mp (hperm.mem_iff.mp hr)
    obtain ⟨a, -, rfl⟩ := List.mem_map.mp hr
    rfl
  · intro r hr
    rw [hsent] at hr
    obtain ⟨c, -, hr⟩ := List.mem_flatMap.mp hr
    obtain ⟨o, -, rfl⟩ := List.mem_map.mp hr
    rfl

theorem ok_of_check {α : Type} [DecidableEq α] (r : Except PyErr α) (x : α)
    (h : (match r with | .ok y => decide (y = x) | .error _ => false) = true) : r = .ok x := by
  cases r with
  | error e => simp at h
  | ok y => rw [of_decide_eq_true h]

/-- So states asked for relative to different centres cannot be told apart by their origin: with a server that answers relative to
the centre, the same query for two centres gives different states under the same label. -/
theorem C138_origin_false : ∃ (w : World ℚ ℚ ℚ) (server : Nat → Request Unit ℚ → Except PyErr (List (Answer Unit ℚ)))
    (a b : Orbit ℚ Unit ℚ), (query w server .cartesian 0 [()] [0]).result = .ok [a] ∧
      (query w server .cartesian 1 [()] [0]).result = .ok [b] ∧ a.origin = b.origin ∧ a.time = b.time ∧ a.state ≠ b.state :=
  ⟨⟨id, id, fun _ x => x⟩, fun _ r => .ok (r.epochs.map fun e => ⟨e, (), 5 - r.location⟩),
    ⟨orbitId 0, (), 0, "SUN".toList, 5⟩, ⟨orbitId 0, (), 0, "SUN".toList, 4⟩,
    ok_of_check _ _ (by decide +kernel), ok_of_check _ _ (by decide +kernel), rfl, rfl, by decide +kernel⟩

/-- A query for two objects at two times, given in descending order, meets the hypotheses of `C138_order` and gives four rows. -/
theorem C138_case :
    let w : World ℚ ℚ ℚ := ⟨fun t => t + 4800001 / 2, fun j => j - 4800001 / 2, fun _ x => x⟩
    let server : Nat → Request Nat Unit → Except PyErr (List (Answer Nat ℚ)) := fun _ r => .ok (truthful id (fun o j => o + j) r)
    (query w server .keplerian () [7, 3] [60001, 60000]).result = .ok
      [⟨"00000".toList, 7, 60000, "SUN".toList, 7 + 60000 + 4800001 / 2⟩, ⟨"00001".toList, 3, 60000, "SUN".toList, 3 + 60000 + 4800001 / 2⟩,
       ⟨"00000".toList, 7, 60001, "SUN".toList, 7 + 60001 + 4800001 / 2⟩, ⟨"00001".toList, 3, 60001, "SUN".toList, 3 + 60001 + 4800001 / 2⟩] := by
  intro w server
  obtain ⟨sorted, h1, h2, h3⟩ := C138_order w server id (fun o j => o + j) (fun _ _ => rfl) .keplerian (by decide) () [7, 3] (by simp)
    (by simp) [60001, 60000] (by simp) (by norm_num) (fun a _ b _ h => by simpa [w] using h) (fun a _ b _ h => by simpa [w] using h)
  have hs : sorted = [60000, 60001] := by
    refine eq_of_sorted id (h1.trans (List.Perm.swap _ _ _)) (fun _ _ _ _ h => h) (h2.imp le_of_lt) ?_
    norm_num
  rw [h3, hs]
  simp only [List.flatMap_cons, List.flatMap_nil, List.zipIdx_cons, List.zipIdx_nil, List.map_cons, List.map_nil, expected, w]
  norm_num
  decide +kernel

end Verif.Horizons.Props
