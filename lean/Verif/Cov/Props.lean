import Verif.Cov.Model

/-! # C121 and C122: the covariance column -/

namespace Verif.Cov.Props

open Verif

variable {α : Type}

/-! ## Specification -/

/-- The matrix a row of the column stands for: NaN everywhere for a null row, else the entries row by row. -/
def rowMat (nan : α) (r : Row α) : Mat α := fun i j =>
  match r with
  | none => nan
  | some l => l.getD (6 * i.1 + j.1) nan

/-- A row is null or has 36 entries. -/
def Good (r : Row α) : Prop := ∀ l, r = some l → l.length = 36

/-- The number of entries a row takes up: a null row counts as 36. -/
def width (r : Row α) : Nat := match r with
  | none => 36
  | some l => l.length

/-! ## Lemmas -/

theorem flatMat_length (m : Mat α) : (flatMat m).length = 36 := by simp [flatMat]

theorem flatMat_getD (nan : α) (m : Mat α) (i j : Fin 6) : (flatMat m).getD (6 * i.1 + j.1) nan = m i j := by
  have h : 6 * i.1 + j.1 < 36 := by omega
  rw [List.getD_eq_getElem?_getD, List.getElem?_eq_getElem (by rw [flatMat_length]; exact h)]
  simp only [flatMat, List.getElem_ofFn, Option.getD_some]
  have h1 : (⟨(6 * i.1 + j.1) / 6, by omega⟩ : Fin 6) = i := Fin.ext (by simp; omega)
  have h2 : (⟨(6 * i.1 + j.1) % 6, by omega⟩ : Fin 6) = j := Fin.ext (by simp)
  rw [h1, h2]

theorem flatten36 (rs : List (List α)) (h : ∀ r ∈ rs, r.length = 36) : rs.flatten.length = 36 * rs.length := by
  induction rs with
  | nil => rfl
  | cons r rs ih =>
    rw [List.flatten_cons, List.length_append, h r (by simp), ih fun s hs => h s (by simp [hs])]
    simp; omega

theorem flatten36_drop (rs : List (List α)) (h : ∀ r ∈ rs, r.length = 36) (k : Nat) :
    rs.flatten.drop (36 * k) = (rs.drop k).flatten := by
  induction rs generalizing k with
  | nil => simp
  | cons r rs ih =>
    have hr := h r (by simp)
    cases k with
    | zero => simp
    | succ k =>
      rw [List.flatten_cons, List.drop_succ_cons, ← ih (fun s hs => h s (by simp [hs])) k,
        show 36 * (k + 1) = r.length + 36 * k by omega, List.drop_append]
      simp

theorem flatten36_getD (nan : α) (rs : List (List α)) (h : ∀ r ∈ rs, r.length = 36) (k : Nat) (hk : k < rs.length)
    (t : Nat) (ht : t < 36) : rs.flatten.getD (36 * k + t) nan = (rs[k]).getD t nan := by
  have h1 : rs.flatten[36 * k + t]? = (rs.flatten.drop (36 * k))[t]? := by rw [List.getElem?_drop]
  rw [List.getD_eq_getElem?_getD, h1, flatten36_drop rs h, List.drop_eq_getElem_cons hk, List.flatten_cons,
    List.getElem?_append_left (by rw [h _ (List.getElem_mem hk)]; exact ht), List.getD_eq_getElem?_getD]

theorem getD_replicate (nan x : α) (n t : Nat) (h : t < n) : (List.replicate n x).getD t nan = x := by
  rw [List.getD_eq_getElem?_getD, List.getElem?_replicate, if_pos h]; rfl

theorem reshape36 (nan : α) (rs : List (List α)) (h : ∀ r ∈ rs, r.length = 36) :
    reshape nan rs.flatten = .ok (rs.map fun l => rowMat nan (some l)) := by
  unfold reshape
  rw [if_pos (by rw [flatten36 rs h]; omega), flatten36 rs h]
  congr 1
  apply List.ext_getElem
  · simp
  · intro k h1 h2
    simp only [List.getElem_map, List.getElem_range]
    funext i j
    exact flatten36_getD nan rs h k (by simpa using h2) _ (by omega)

theorem sameLength_iff (rs : List (List α)) : sameLength rs = true ↔ ∃ L, ∀ r ∈ rs, r.length = L := by
  cases rs with
  | nil => simp [sameLength]
  | cons r rs =>
    simp only [sameLength, List.all_eq_true, beq_iff_eq]
    constructor
    · intro h
      exact ⟨r.length, fun s hs => by rcases List.mem_cons.mp hs with rfl | hs <;> [rfl; exact h s hs]⟩
    · rintro ⟨L, h⟩ s hs
      rw [h s (by simp [hs]), h r (by simp)]

theorem allSome_eq (col : List (Row α)) (rs : List (List α)) (h : allSome col = some rs) : col = rs.map some := by
  induction col generalizing rs with
  | nil => cases h; rfl
  | cons r col ih =>
    cases r with
    | none => cases h
    | some r =>
      simp only [allSome, Option.map_eq_some_iff] at h
      obtain ⟨rs', h, rfl⟩ := h
      rw [ih rs' h]; rfl

theorem fill_length (nan : α) (r : Row α) : (fill nan r).length = width r := by cases r <;> simp [fill, width]

/-- Whatever branch runs, a column with a row that is not null is filled, stacked and reshaped. -/
theorem toMatrix_eq (nan : α) (col : List (Row α)) (h : col.all Option.isNone = false) :
    toMatrix nan col = stack nan (col.map (fill nan)) := by
  unfold toMatrix
  rw [if_neg (by simp [h])]
  cases hs : allSome col with
  | none => rfl
  | some rs =>
    have := allSome_eq col rs hs
    simp only
    split
    · next hl =>
      have hf : col.map (fill nan) = rs := by
        rw [this, List.map_map]
        conv_rhs => rw [← List.map_id rs]
        rfl
      rw [hf]
      unfold stack
      rw [if_pos hl]
    · rfl

theorem good_width {r : Row α} : Good r ↔ width r = 36 := by
  cases r <;> simp [Good, width]

theorem rowMat_fill (nan : α) (r : Row α) (h : Good r) : rowMat nan (some (fill nan r)) = rowMat nan r := by
  cases r with
  | some l => rfl
  | none =>
    funext i j
    exact getD_replicate nan nan 36 _ (by omega)

theorem flatten_const (rs : List (List α)) (L : Nat) (h : ∀ r ∈ rs, r.length = L) :
    rs.flatten.length = rs.length * L := by
  induction rs with
  | nil => simp
  | cons r rs ih =>
    rw [List.flatten_cons, List.length_append, h r (by simp), ih fun s hs => h s (by simp [hs]), List.length_cons,
      Nat.succ_mul]; omega

theorem reshape_length (nan : α) (l : List α) (ms : List (Mat α)) (h : reshape nan l = .ok ms) :
    l.length = 36 * ms.length := by
  unfold reshape at h
  split at h
  · next hd => cases h; simp; omega
  · cases h

/-! ## C121 -/

/-- Arrays of any other shape than `(n, 6, 6)` are refused, also empty ones, and no other is. -/
theorem C121_shape (d₁ d₂ : Nat) (ms : List (Fin d₁ → Fin d₂ → α)) (e : PyErr) :
    fromMatrix d₁ d₂ ms = .error e ↔ e = .valueError ∧ ¬ (d₁ = 6 ∧ d₂ = 6) := by
  unfold fromMatrix
  split
  · next h => simp [h]
  · next h =>
    constructor
    · intro h'; cases h'; exact ⟨rfl, h⟩
    · rintro ⟨rfl, _⟩; rfl

/-- Every row null or 36 long: one matrix for every row, in order, each made of that row's entries alone. -/
theorem C121_rows (nan : α) (col : List (Row α)) (h : ∀ r ∈ col, Good r) :
    toMatrix nan col = .ok (col.map (rowMat nan)) := by
  by_cases hn : col.all Option.isNone = true
  · unfold toMatrix
    rw [if_pos hn]
    congr 1
    rw [eq_comm, List.eq_replicate_iff]
    refine ⟨by simp, ?_⟩
    intro m hm
    obtain ⟨r, hr, rfl⟩ := List.mem_map.mp hm
    have := List.all_eq_true.mp hn r hr
    cases r with
    | none => rfl
    | some l => cases this
  · have hw : ∀ r ∈ col.map (fill nan), r.length = 36 := by
      intro r hr
      obtain ⟨r', hr', rfl⟩ := List.mem_map.mp hr
      rw [fill_length]; exact good_width.mp (h r' hr')
    rw [toMatrix_eq nan col (by simpa using hn)]
    unfold stack
    rw [if_pos ((sameLength_iff _).mpr ⟨36, hw⟩), reshape36 nan _ hw, List.map_map]
    congr 1
    apply List.map_congr_left
    intro r hr
    exact rowMat_fill nan r (h r hr)

/-- Matrices stored are the matrices read back, whatever they contain and however many there are. -/
theorem C121_round_trip (nan : α) (ms : List (Mat α)) :
    ∃ col, fromMatrix 6 6 ms = .ok col ∧ col.length = ms.length ∧ toMatrix nan col = .ok ms := by
  have h36 : ∀ l ∈ ms.map flatMat, l.length = 36 := by
    intro l hl
    obtain ⟨m, _, rfl⟩ := List.mem_map.mp hl
    exact flatMat_length m
  have hcut : cut ms.length (ms.flatMap flatMat) = ms.map flatMat := by
    unfold cut
    apply List.ext_getElem
    · simp
    · intro k h1 h2
      have hk : k < (ms.map flatMat).length := h2
      simp only [List.getElem_map, List.getElem_range, List.flatMap_def]
      rw [flatten36_drop _ h36, List.drop_eq_getElem_cons hk, List.flatten_cons, List.take_left' (h36 _ (List.getElem_mem hk))]
      simp
  have he : fromMatrix 6 6 ms = .ok ((ms.map flatMat).map some) := by
    unfold fromMatrix
    rw [dif_pos ⟨rfl, rfl⟩]
    exact congrArg (fun l => Except.ok (l.map some)) hcut
  refine ⟨_, he, by simp, ?_⟩
  rw [C121_rows]
  · congr 1
    rw [List.map_map, List.map_map]
    conv_rhs => rw [← List.map_id ms]
    apply List.map_congr_left
    intro m _
    funext i j
    exact flatMat_getD nan m i j
  · intro r hr l hl
    obtain ⟨l', hl', rfl⟩ := List.mem_map.mp hr
    cases hl
    exact h36 l hl'

/-- Reading fails exactly when some row is not null and the rows, a null one counting as 36 numbers, have different lengths or
together no multiple of 36 numbers; the failure is a `ValueError`. -/
theorem C121_refuses (nan : α) (col : List (Row α)) (e : PyErr) :
    toMatrix nan col = .error e ↔ e = .valueError ∧ (∃ r ∈ col, r ≠ none) ∧
      ¬ ∃ L, (∀ r ∈ col, width r = L) ∧ 36 ∣ col.length * L := by
  by_cases hn : col.all Option.isNone = true
  · have hno : ¬ ∃ r ∈ col, r ≠ none := by
      rintro ⟨r, hr, h⟩
      have := List.all_eq_true.mp hn r hr
      cases r with
      | none => exact h rfl
      | some l => cases this
    unfold toMatrix
    rw [if_pos hn]
    constructor
    · intro h; cases h
    · rintro ⟨_, h, _⟩; exact absurd h hno
  · have hsome : ∃ r ∈ col, r ≠ none := by
      by_contra hc
      apply hn
      rw [List.all_eq_true]
      intro r hr
      cases r with
      | none => rfl
      | some l => exact absurd ⟨some l, hr, by simp⟩ hc
    rw [toMatrix_eq nan col (by simpa using hn)]
    have hL : ∀ L, (∀ r ∈ col.map (fill nan), r.length = L) ↔ ∀ r ∈ col, width r = L := by
      intro L
      simp [fill_length]
    unfold stack
    by_cases hs : sameLength (col.map (fill nan)) = true
    · rw [if_pos hs]
      obtain ⟨L, hl⟩ := (sameLength_iff _).mp hs
      have hlen := flatten_const _ L hl
      rw [List.length_map] at hlen
      unfold reshape
      rw [hlen]
      have huniq : ∀ L', (∀ r ∈ col, width r = L') → L' = L := by
        intro L' hL'
        obtain ⟨r, hr, _⟩ := hsome
        rw [← hL' r hr, (hL L).mp hl r hr]
      split
      · next hd =>
        constructor
        · intro h; cases h
        · rintro ⟨_, _, h⟩
          exact absurd ⟨L, (hL L).mp hl, Nat.dvd_of_mod_eq_zero hd⟩ h
      · next hd =>
        constructor
        · intro h; cases h
          refine ⟨rfl, hsome, ?_⟩
          rintro ⟨L', h1, h2⟩
          rw [huniq L' h1] at h2
          exact hd (Nat.mod_eq_zero_of_dvd h2)
        · rintro ⟨rfl, _⟩; rfl
    · rw [if_neg hs]
      constructor
      · intro h; cases h
        refine ⟨rfl, hsome, ?_⟩
        rintro ⟨L, h1, _⟩
        exact hs ((sameLength_iff _).mpr ⟨L, (hL L).mpr h1⟩)
      · rintro ⟨rfl, _⟩; rfl

/-- If reading succeeds there is one matrix per coordinate exactly when every row is null or has 36 numbers. -/
theorem C121_one_each (nan : α) (col : List (Row α)) (ms : List (Mat α)) (h : toMatrix nan col = .ok ms) :
    ms.length = col.length ↔ ∀ r ∈ col, Good r := by
  constructor
  · intro hlen
    by_cases hn : col.all Option.isNone = true
    · intro r hr l hl
      have := List.all_eq_true.mp hn r hr
      rw [hl] at this; cases this
    · rw [toMatrix_eq nan col (by simpa using hn)] at h
      unfold stack at h
      split at h
      · next hs =>
        obtain ⟨L, hl⟩ := (sameLength_iff _).mp hs
        have h1 := flatten_const _ L hl
        have h2 := reshape_length nan _ ms h
        rw [List.length_map] at h1
        intro r hr
        have hpos : 0 < col.length := List.length_pos_of_mem hr
        have : L = 36 := by
          rw [h1, hlen, Nat.mul_comm 36] at h2
          exact Nat.eq_of_mul_eq_mul_left hpos h2
        apply good_width.mpr
        rw [← fill_length nan, ← this]
        exact hl _ (List.mem_map_of_mem hr)
      · cases h
  · intro hg
    rw [C121_rows nan col hg] at h
    cases h; simp

/-- One row of 72 numbers is read as two matrices and two rows of 18 numbers as one: then the matrices no longer belong to the
coordinates, and nothing is reported. -/
theorem C121_miscut (x nan : α) :
    (∃ a b, toMatrix nan [some (List.replicate 72 x)] = .ok [a, b]) ∧
      ∃ a, toMatrix nan [some (List.replicate 18 x), some (List.replicate 18 x)] = .ok [a] := by
  constructor
  · exact ⟨matAt nan (List.replicate 72 x) 0, matAt nan (List.replicate 72 x) 1, by
      simp [toMatrix, allSome, sameLength, reshape, List.range_succ]⟩
  · exact ⟨matAt nan (List.replicate 18 x ++ List.replicate 18 x) 0, by
      simp [toMatrix, allSome, sameLength, reshape, List.range_succ]⟩

/-- The column made of nulls reads as NaN matrices, as many as asked for. -/
theorem C121_nulls (nan : α) (n : Nat) : toMatrix nan (nulls nan n) = .ok (List.replicate n fun _ _ => nan) := by
  rw [C121_rows]
  · congr 1
    unfold nulls
    rw [List.map_replicate]
    congr 1
    funext i j
    exact getD_replicate nan nan 36 _ (by omega)
  · intro r hr l hl
    rw [nulls, List.mem_replicate] at hr
    rw [hr.2] at hl
    cases hl; simp

/-- `is_all_nan` says whether every number that is there is NaN; a table without rows is all NaN. -/
theorem C121_all_nan (nan : α) (isNan : α → Bool) (hnan : isNan nan = true) (col : List (Row α)) (h : ∀ r ∈ col, Good r) :
    ∃ b, isAllNan nan isNan col = .ok b ∧ (b = true ↔ ∀ l, some l ∈ col → ∀ x ∈ l, isNan x = true) := by
  unfold isAllNan
  rw [C121_rows nan col h]
  refine ⟨_, rfl, ?_⟩
  simp only [List.all_eq_true, List.mem_map, forall_exists_index, and_imp, forall_apply_eq_imp_iff₂, List.mem_finRange,
    forall_true_left]
  constructor
  · intro hall l hl x hx
    obtain ⟨t, ht, rfl⟩ := List.mem_iff_getElem.mp hx
    have h36 := h _ hl l rfl
    have := hall (some l) hl ⟨t / 6, by omega⟩ ⟨t % 6, by omega⟩
    have e : 6 * (t / 6) + t % 6 = t := Nat.div_add_mod t 6
    simpa [rowMat, e, List.getD_eq_getElem?_getD, List.getElem?_eq_getElem ht] using this
  · intro hall r hr i j
    cases r with
    | none => exact hnan
    | some l =>
      have h36 := h _ hr l rfl
      have ht : 6 * i.1 + j.1 < l.length := by omega
      have := hall l hr _ (List.getElem_mem ht)
      simpa [rowMat, List.getD_eq_getElem?_getD, List.getElem?_eq_getElem ht] using this

/-- A column the rules above apply to: a null row between two full ones. -/
theorem C121_case : toMatrix (none : Option ℤ)
    [some (List.ofFn fun k : Fin 36 => some (k.1 : ℤ)), none, some (List.replicate 36 (some 7))] =
      .ok [fun i j => some (6 * i.1 + j.1 : ℤ), fun _ _ => none, fun _ _ => some 7] := by
  rw [C121_rows]
  · congr 1
    simp only [List.map_cons, List.map_nil]
    congr 1
    · funext i j
      have : 6 * i.1 + j.1 < 36 := by omega
      simp only [rowMat, List.getD_eq_getElem?_getD]
      rw [List.getElem?_eq_getElem (by simpa using this), List.getElem_ofFn]
      simp
    · congr 1
      congr 1
      funext i j
      exact getD_replicate none (some 7) 36 _ (by omega)
  · intro r hr l hl
    simp only [List.mem_cons, List.not_mem_nil, or_false] at hr
    rcases hr with rfl | rfl | rfl
    · cases hl; simp
    · cases hl
    · cases hl; simp

/-! ## C122 -/

/-- The value is a number. -/
def Finite : Val → Prop
  | .fin _ => True
  | _ => False

/-- The absolute value: what a standard deviation comes back as. -/
def absVal : Val → Val
  | .fin x => .fin |x|
  | .inf => .inf
  | .nan => .nan

/-- Off the diagonal the entry in column `j` is zero exactly when `sigmas[j]` is a number, else it is NaN. -/
theorem C122_entry {d : Nat} (s : Fin d → Val) (i j : Fin d) (hij : i ≠ j) :
    (Finite (s j) → sigmasToCov s i j = .fin 0) ∧ (¬ Finite (s j) → sigmasToCov s i j = .nan) := by
  unfold sigmasToCov
  have : decide (j = i) = false := by simp [Ne.symm hij]
  rw [this]
  cases s j <;> simp [Val.sq, Val.timesBit, Finite]

/-- On the diagonal stands the square. -/
theorem C122_diagonal {d : Nat} (s : Fin d → Val) (i : Fin d) :
    (∀ x, s i = .fin x → sigmasToCov s i i = .fin (x ^ 2)) ∧ (s i = .inf → sigmasToCov s i i = .inf) ∧
      (s i = .nan → sigmasToCov s i i = .nan) := by
  unfold sigmasToCov
  refine ⟨?_, ?_, ?_⟩
  · intro x h; simp [h, Val.sq, Val.timesBit, sq]
  · intro h; simp [h, Val.sq, Val.timesBit]
  · intro h; simp [h, Val.sq, Val.timesBit]

/-- All entries off the diagonal are zero exactly when all standard deviations are numbers. -/
theorem C122_zero_off_diagonal {d : Nat} (hd : 2 ≤ d) (s : Fin d → Val) :
    (∀ i j, i ≠ j → sigmasToCov s i j = .fin 0) ↔ ∀ j, Finite (s j) := by
  constructor
  · intro h j
    by_contra hc
    have : ∃ i : Fin d, i ≠ j := by
      by_cases h0 : j.1 = 0
      · exact ⟨⟨1, by omega⟩, fun h => by have := congrArg Fin.val h; simp at this; omega⟩
      · exact ⟨⟨0, by omega⟩, fun h => by have := congrArg Fin.val h; simp at this; omega⟩
    obtain ⟨i, hi⟩ := this
    have h1 := (C122_entry s i j hi).2 hc
    rw [h i j hi] at h1
    cases h1
  · intro h i j hij
    exact (C122_entry s i j hij).1 (h j)

/-- The matrix is symmetric exactly when the standard deviations are all numbers or none is: one missing value spoils its column
but not its row. -/
theorem C122_symmetric {d : Nat} (s : Fin d → Val) :
    (∀ i j, sigmasToCov s i j = sigmasToCov s j i) ↔ ((∀ j, Finite (s j)) ∨ ∀ j, ¬ Finite (s j)) := by
  constructor
  · intro h
    by_contra hc
    rw [not_or] at hc
    obtain ⟨h1, h2⟩ := hc
    obtain ⟨j, hj⟩ := not_forall.mp h1
    obtain ⟨i, hi⟩ := not_forall.mp h2
    have hi := not_not.mp hi
    have hij : i ≠ j := by rintro rfl; exact hj hi
    have a := (C122_entry s i j hij).2 hj
    have b := (C122_entry s j i (Ne.symm hij)).1 hi
    rw [h i j, b] at a
    cases a
  · intro h i j
    by_cases hij : i = j
    · rw [hij]
    · rcases h with h | h
      · rw [(C122_entry s i j hij).1 (h j), (C122_entry s j i (Ne.symm hij)).1 (h i)]
      · rw [(C122_entry s i j hij).2 (h j), (C122_entry s j i (Ne.symm hij)).2 (h i)]

theorem sqrt_diag {d : Nat} (s : Fin d → Val) (i : Fin d) : (sigmasToCov s i i).sqrt = absVal (s i) := by
  unfold sigmasToCov
  cases h : s i with
  | fin x =>
    simp only [Val.sq, Val.timesBit, decide_true, if_true, mul_one, Val.sqrt, absVal]
    rw [if_pos (mul_self_nonneg x), Real.sqrt_mul_self_eq_abs]
  | inf => simp [Val.sq, Val.timesBit, Val.sqrt, absVal]
  | nan => simp [Val.sq, Val.timesBit, Val.sqrt, absVal]

/-- The standard deviations come back as their absolute values, missing ones as missing, for every number of rows. -/
theorem C122_round_trip (ss : List (Fin 6 → Val)) :
    ∃ col, fromSigmas 6 ss = .ok col ∧ col.length = ss.length ∧ sigmas col = .ok (ss.map fun s i => absVal (s i)) := by
  obtain ⟨col, h1, h2, h3⟩ := C121_round_trip (.nan : Val) (ss.map sigmasToCov)
  refine ⟨col, h1, by simpa using h2, ?_⟩
  unfold sigmas
  rw [h3]
  simp only [List.map_map]
  congr 1
  apply List.map_congr_left
  intro s _
  funext i
  exact sqrt_diag s i

/-- Rows of another number of standard deviations than six are refused. -/
theorem C122_refuses (d : Nat) (ss : List (Fin d → Val)) (e : PyErr) :
    fromSigmas d ss = .error e ↔ e = .valueError ∧ d ≠ 6 := by
  unfold fromSigmas
  rw [C121_shape]
  simp

/-- Only the angles are known: their column has NaN where their row has zero. -/
theorem C122_case : let s : Fin 6 → Val := ![.nan, .fin 2, .fin (-3), .nan, .nan, .nan]
    sigmasToCov s 1 1 = .fin 4 ∧ sigmasToCov s 1 2 = .fin 0 ∧ sigmasToCov s 0 1 = .fin 0 ∧ sigmasToCov s 1 0 = .nan := by
  simp [sigmasToCov, Val.sq, Val.timesBit]
  norm_num

end Verif.Cov.Props
