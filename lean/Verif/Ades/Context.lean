import Verif.Ades.Data

/-! Helper lemmas on the metadata lines. -/

namespace Verif.Ades

open Verif Mpc Obs80 Sched

/-! ## Lines -/

/-- A key: one word. -/
def Word (s : Str) : Prop := s ≠ [] ∧ ∀ c ∈ s, isSpace c = false

instance (s : Str) : Decidable (Word s) := inferInstanceAs (Decidable (_ ∧ _))

theorem strip_end {s : Str} (hne : s ≠ []) (h : Trim s) : strip (s ++ [' ']) = s := by
  unfold strip
  rw [dropWhile_trim (s := s ++ [' ']), List.reverse_append]
  · have : List.reverse [' '] ++ s.reverse = ' ' :: s.reverse := rfl
    rw [this, List.dropWhile_cons_of_pos (by decide), dropWhile_trim (s := s.reverse), List.reverse_reverse]
    rw [List.head?_reverse]
    exact h.2
  · intro c hc
    obtain ⟨x, xs, rfl⟩ := List.exists_cons_of_ne_nil hne
    exact h.1 c (by simpa using hc)

theorem strip_cons {c : Char} (hc : isSpace c = false) (s : Str) : ∃ t, strip (c :: s) = c :: t := by
  unfold strip
  rw [List.dropWhile_cons_of_neg (by rw [hc]; decide), List.reverse_cons]
  have h : ∀ l : Str, ∃ t, (l ++ [c]).dropWhile isSpace = t ++ [c] := by
    intro l
    induction l with
    | nil => exact ⟨[], by rw [List.nil_append, List.dropWhile_cons_of_neg (by rw [hc]; decide)]⟩
    | cons x xs ih =>
      by_cases hx : isSpace x = true
      · obtain ⟨t, ht⟩ := ih
        exact ⟨t, by rw [List.cons_append, List.dropWhile_cons_of_pos hx, ht]⟩
      · exact ⟨x :: xs, by rw [List.cons_append, List.dropWhile_cons_of_neg hx]⟩
  obtain ⟨t, ht⟩ := h s.reverse
  exact ⟨t.reverse, by rw [ht]; simp⟩

theorem strip_space {s : Str} (h : Trim s) : strip (' ' :: s) = s := by
  have e : strip (' ' :: s) = strip s := by
    unfold strip
    rw [List.dropWhile_cons_of_pos (by decide)]
  rw [e, strip_trim h]

theorem words {v : Str} (h : Spaced v) : (splitOn ' ' v).map strip = splitOn ' ' v := by
  conv_rhs => rw [← List.map_id (splitOn ' ' v)]
  refine List.map_congr_left fun w hw => strip_trim (trim_of_noSpace fun c hc => ?_)
  obtain ⟨h1, h2⟩ := mem_of_splitOn hw c hc
  by_contra hs
  exact h2 (h.2 c h1 (by simpa using hs))

theorem trim_word {w : Str} (h : Word w) : Trim w := trim_of_noSpace h.2

theorem trim_pair {w v : Str} (hw : Word w) (hv : v ≠ []) (h : Spaced v) : Trim (w ++ ' ' :: v) := by
  have := trim_append hw.1 hv (trim_word hw) h.1 [' ']
  simpa using this

/-- The key and the words of a line with a mark, a key and a value. -/
theorem kv_line {c : Char} (hc : isSpace c = false) {w v : Str} (hw : Word w) (hv : Spaced v) :
    keyValue (strip (strip (c :: ' ' :: (w ++ ' ' :: v))).tail) = (w, if v = [] then [] else splitOn ' ' v) := by
  have hws : ' ' ∉ w := fun h => absurd (hw.2 _ h) (by decide)
  by_cases he : v = []
  · subst he
    have e : c :: ' ' :: (w ++ [' ']) = (c :: ' ' :: w) ++ [' '] := rfl
    have ht : Trim (c :: ' ' :: w) := by
      have := trim_append (a := [c]) (b := w) (by simp) hw.1 (trim_of_noSpace (by simpa using hc)) (trim_word hw) [' ']
      simpa using this
    rw [e, strip_end (by simp) ht, List.tail_cons, strip_space (trim_word hw)]
    unfold keyValue
    rw [splitOn_free hws, List.map_cons, List.map_nil, strip_trim (trim_word hw)]
    rfl
  · have ht : Trim (c :: ' ' :: (w ++ ' ' :: v)) := by
      have := trim_append (a := [c]) (b := v) (by simp) he (trim_of_noSpace (by simpa using hc)) hv.1 (' ' :: (w ++ [' ']))
      simpa using this
    rw [strip_trim ht, List.tail_cons, strip_space (trim_pair hw he hv), if_neg he]
    unfold keyValue
    rw [splitOn_cons hws, List.map_cons, strip_trim (trim_word hw), words hv]

theorem kv_section {c : Char} (hc : isSpace c = false) {w : Str} (hw : Word w) :
    strip (strip (c :: ' ' :: w)).tail = w ∧ keyValue w = (w, []) := by
  have hws : ' ' ∉ w := fun h => absurd (hw.2 _ h) (by decide)
  have ht : Trim (c :: ' ' :: w) := by
    have := trim_append (a := [c]) (b := w) (by simp) hw.1 (trim_of_noSpace (by simpa using hc)) (trim_word hw) [' ']
    simpa using this
  rw [strip_trim ht, List.tail_cons, strip_space (trim_word hw)]
  refine ⟨rfl, ?_⟩
  unfold keyValue
  rw [splitOn_free hws, List.map_cons, List.map_nil, strip_trim (trim_word hw)]

theorem join_value {v : Str} : join ' ' (if v = [] then [] else splitOn ' ' v) = v := by
  split
  · next h => rw [h]; rfl
  · exact join_splitOn ' ' v

/-! ## Dictionaries -/

theorem lookup_insert {K V : Type} [DecidableEq K] [BEq K] [LawfulBEq K] (k k' : K) (v : V) (d : List (K × V)) :
    (insert k v d).lookup k' = if k' = k then some v else d.lookup k' := by
  induction d with
  | nil =>
    simp only [insert, List.lookup_cons, List.lookup_nil]
    by_cases h : k' = k
    · simp [h]
    · rw [beq_false_of_ne h, if_neg h]
  | cons p d ih =>
    obtain ⟨a, b⟩ := p
    simp only [insert]
    by_cases ha : a = k
    · subst ha
      rw [if_pos rfl, List.lookup_cons, List.lookup_cons]
      by_cases h : k' = a
      · simp [h]
      · rw [beq_false_of_ne h, if_neg h]
    · rw [if_neg ha, List.lookup_cons, List.lookup_cons, ih]
      by_cases h : k' = a
      · subst h; simp [ha]
      · rw [beq_false_of_ne h]

theorem insert_new {K V : Type} [DecidableEq K] [BEq K] [LawfulBEq K] {k : K} (v : V) {d : List (K × V)} (h : d.lookup k = none) :
    insert k v d = d ++ [(k, v)] := by
  induction d with
  | nil => rfl
  | cons p d ih =>
    obtain ⟨a, b⟩ := p
    rw [List.lookup_cons] at h
    by_cases ha : k = a
    · subst ha; simp at h
    · rw [beq_false_of_ne ha] at h
      simp only [insert]
      rw [if_neg (fun e => ha e.symm), ih h]
      rfl

theorem insert_ne_nil {K V : Type} [DecidableEq K] [BEq K] [LawfulBEq K] (k : K) (v : V) (d : List (K × V)) : insert k v d ≠ [] := by
  cases d with
  | nil => simp [insert]
  | cons p d =>
    obtain ⟨a, b⟩ := p
    simp only [insert]
    split <;> simp

theorem insert_last {K V : Type} [DecidableEq K] [BEq K] [LawfulBEq K] {k : K} (v w : V) {d : List (K × V)} (h : d.lookup k = none) :
    insert k v (d ++ [(k, w)]) = d ++ [(k, v)] := by
  induction d with
  | nil => simp [insert]
  | cons p d ih =>
    obtain ⟨a, b⟩ := p
    rw [List.lookup_cons] at h
    by_cases ha : k = a
    · subst ha; simp at h
    · rw [beq_false_of_ne ha] at h
      rw [List.cons_append]
      simp only [insert]
      rw [if_neg (fun e => ha e.symm), ih h]
      rfl

/-- The dictionary with the entries of the current section, which is missing as long as it has none. -/
def cur (d : List (Str × Sec)) (sec : String) (l : List (Str × Field)) : List (Str × Sec) :=
  if l = [] then d else d ++ [(sec.toList, .fields l)]

theorem lookup_append {K V : Type} [DecidableEq K] [BEq K] [LawfulBEq K] (a b : List (K × V)) (k : K) : (a ++ b).lookup k = (a.lookup k).or (b.lookup k) := by
  induction a with
  | nil => simp
  | cons p a ih =>
    obtain ⟨x, y⟩ := p
    rw [List.cons_append, List.lookup_cons, List.lookup_cons, ih]
    by_cases h : k = x
    · subst h; simp
    · rw [beq_false_of_ne h]

theorem lookup_cur_ne {d : List (Str × Sec)} {sec : String} {l : List (Str × Field)} {k : Str} (h : k ≠ sec.toList) :
    (cur d sec l).lookup k = d.lookup k := by
  unfold cur
  split
  · rfl
  · rw [lookup_append, List.lookup_cons, beq_false_of_ne h]
    simp

theorem lookup_cur_eq {d : List (Str × Sec)} {sec : String} {l : List (Str × Field)} (h : d.lookup sec.toList = none) :
    (cur d sec l).lookup sec.toList = if l = [] then none else some (.fields l) := by
  unfold cur
  split
  · exact h
  · rw [lookup_append, List.lookup_cons, h]
    simp

theorem insert_cur {d : List (Str × Sec)} {sec : String} {l l' : List (Str × Field)} (h : d.lookup sec.toList = none) (hl : l' ≠ []) :
    insert sec.toList (.fields l') (cur d sec l) = cur d sec l' := by
  unfold cur
  rw [if_neg hl]
  split
  · exact insert_new _ h
  · exact insert_last _ _ h

/-- Sections whose keys are repeated. -/
abbrev Many (sec : String) : Prop := sec.toList = "observers".toList ∨ sec.toList = "measurers".toList ∨ sec.toList = "comment".toList

theorem bang_one {cs : List (Option Str × Ctx)} {d : List (Str × Sec)} {sec : String} {l : List (Str × Field)} {code : Option Str}
    {key : String} {v : Str} (hm : ¬ Many sec) (hd : d.lookup sec.toList = none) (hk : Word key.toList) (hv : Spaced v) :
    readBang ⟨cs, cur d sec l, some sec.toList, code⟩ (strip (bang key v)) =
      .ok ⟨cs, cur d sec (insert key.toList (.one v) l), some sec.toList, if key.toList = "mpcCode".toList then some v else code⟩ := by
  have e : bang key v = '!' :: ' ' :: (key.toList ++ ' ' :: v) := rfl
  unfold readBang
  rw [e, kv_line (by decide) hk hv]
  simp only [join_value, Option.getD_some]
  rw [lookup_cur_eq hd]
  by_cases hl : l = []
  · subst hl
    rw [if_pos rfl]
    simp only
    rw [if_neg hm]
    have : insert sec.toList (.fields [(key.toList, .one v)]) (cur d sec []) = cur d sec [(key.toList, .one v)] :=
      insert_cur hd (by simp)
    rw [this]
    rfl
  · rw [if_neg hl]
    simp only
    rw [if_neg hm, insert_cur hd (insert_ne_nil _ _ _)]

theorem bang_many {cs : List (Option Str × Ctx)} {d : List (Str × Sec)} {sec : String} {l : List Str} {code : Option Str}
    {key : String} {v : Str} (hm : Many sec) (hd : d.lookup sec.toList = none) (hk : Word key.toList) (hkc : key.toList ≠ "mpcCode".toList)
    (hv : Spaced v) :
    readBang ⟨cs, cur d sec (if l = [] then [] else [(key.toList, .many l)]), some sec.toList, code⟩ (strip (bang key v)) =
      .ok ⟨cs, cur d sec [(key.toList, .many (l ++ [v]))], some sec.toList, code⟩ := by
  have e : bang key v = '!' :: ' ' :: (key.toList ++ ' ' :: v) := rfl
  unfold readBang
  rw [e, kv_line (by decide) hk hv]
  simp only [join_value, Option.getD_some]
  rw [lookup_cur_eq hd, if_neg hkc]
  by_cases hl : l = []
  · subst hl
    rw [if_pos rfl]
    simp only [if_true]
    rw [if_pos hm, insert_cur hd (by simp)]
    rfl
  · rw [if_neg hl, if_neg (by simp)]
    simp only
    rw [if_pos hm, insert_cur hd (insert_ne_nil _ _ _)]
    simp [insert]

/-- The loop over some lines. -/
def steps : Meta → List Str → Except PyErr Meta
  | m, [] => .ok m
  | m, line :: rest =>
    if "#".toList.isPrefixOf line then
      match readHash m line with
      | .error e => .error e
      | .ok m => steps m rest
    else if "!".toList.isPrefixOf line then
      match readBang m line with
      | .error e => .error e
      | .ok m => steps m rest
    else steps m rest

theorem readMeta_append (lines rest : List Str) : ∀ m, readMeta m (lines ++ rest) =
    match steps m lines with
    | .error e => .error e
    | .ok m => readMeta m rest := by
  induction lines with
  | nil => intro m; rfl
  | cons l ls ih =>
    intro m
    rw [List.cons_append, readMeta, steps]
    split
    · cases readHash m l with
      | error e => rfl
      | ok m => exact ih m
    · split
      · cases readBang m l with
        | error e => rfl
        | ok m => exact ih m
      · exact ih m

theorem steps_append {m m' : Meta} {a b : List Str} (h : steps m a = .ok m') : steps m (a ++ b) = steps m' b := by
  induction a generalizing m with
  | nil =>
    cases h
    rfl
  | cons l ls ih =>
    rw [List.cons_append]
    simp only [steps] at h ⊢
    split
    · next h1 =>
      rw [if_pos h1] at h
      cases hr : readHash m l with
      | error e => rw [hr] at h; cases h
      | ok m2 =>
        rw [hr] at h
        exact ih h
    · next h1 =>
      rw [if_neg h1] at h
      split
      · next h2 =>
        rw [if_pos h2] at h
        cases hr : readBang m l with
        | error e => rw [hr] at h; cases h
        | ok m2 =>
          rw [hr] at h
          exact ih h
      · next h2 =>
        rw [if_neg h2] at h
        exact ih h

theorem steps_bang {m m' : Meta} {key : String} {v : Str} (h : readBang m (strip (bang key v)) = .ok m') :
    steps m [strip (bang key v)] = .ok m' := by
  obtain ⟨t, ht⟩ := strip_cons (c := '!') (by decide) (' ' :: (key.toList ++ ' ' :: v))
  have e : strip (bang key v) = '!' :: t := ht
  simp only [steps]
  rw [if_neg (by rw [e]; simp [List.isPrefixOf]), if_pos (by rw [e]; simp [List.isPrefixOf]), h]

/-- A section begins. -/
theorem steps_hash {cs : List (Option Str × Ctx)} {d : List (Str × Sec)} {s code : Option Str} {sec : String} (hw : Word sec.toList)
    (h1 : "version".toList.isPrefixOf sec.toList = false) (h2 : sec.toList ≠ "observatory".toList) :
    steps ⟨cs, d, s, code⟩ [strip (hash sec)] = .ok ⟨cs, d, some sec.toList, code⟩ := by
  have e : hash sec = '#' :: ' ' :: sec.toList := rfl
  obtain ⟨t, ht⟩ := strip_cons (c := '#') (by decide) (' ' :: sec.toList)
  obtain ⟨h3, h4⟩ := kv_section (c := '#') (by decide) hw
  simp only [steps]
  rw [if_pos (by rw [e, ht]; simp [List.isPrefixOf])]
  unfold readHash
  simp only [e, h3, h4, h1, Bool.false_eq_true, if_false, if_neg h2, if_true]

/-- A context begins. -/
theorem steps_observatory {m : Meta} {cs : List (Option Str × Ctx)} (h : finish m = .ok cs) :
    steps m [strip (hash "observatory")] = .ok ⟨cs, [], some "observatory".toList, none⟩ := by
  have hw : Word "observatory".toList := by decide
  have e : hash "observatory" = '#' :: ' ' :: "observatory".toList := rfl
  obtain ⟨t, ht⟩ := strip_cons (c := '#') (by decide) (' ' :: "observatory".toList)
  obtain ⟨h3, h4⟩ := kv_section (c := '#') (by decide) hw
  simp only [steps]
  rw [if_pos (by rw [e, ht]; simp [List.isPrefixOf])]
  unfold readHash
  have h1 : "version".toList.isPrefixOf "observatory".toList = false := by decide
  simp only [e, h3, h4, h1, Bool.false_eq_true, if_false, if_true, h]

/-- An optional entry. -/
def optEntry (key : String) (v : Option Str) (l : List (Str × Field)) : List (Str × Field) :=
  match v with
  | none => l
  | some v => insert key.toList (.one v) l

theorem steps_opt {cs : List (Option Str × Ctx)} {d : List (Str × Sec)} {sec : String} {l : List (Str × Field)} {code : Option Str}
    {key : String} {v : Option Str} (hm : ¬ Many sec) (hd : d.lookup sec.toList = none) (hk : Word key.toList)
    (hkc : key.toList ≠ "mpcCode".toList) (hv : ∀ s ∈ v.toList, Spaced s) :
    steps ⟨cs, cur d sec l, some sec.toList, code⟩ ((bangOpt key v).map strip) =
      .ok ⟨cs, cur d sec (optEntry key v l), some sec.toList, code⟩ := by
  cases v with
  | none => rfl
  | some v =>
    have := bang_one (cs := cs) (l := l) (code := code) hm hd hk (hv v (by simp))
    rw [if_neg hkc] at this
    exact steps_bang this

theorem steps_one {cs : List (Option Str × Ctx)} {d : List (Str × Sec)} {sec : String} {l : List (Str × Field)} {code : Option Str}
    {key : String} {v : Str} (hm : ¬ Many sec) (hd : d.lookup sec.toList = none) (hk : Word key.toList)
    (hkc : key.toList ≠ "mpcCode".toList) (hv : Spaced v) :
    steps ⟨cs, cur d sec l, some sec.toList, code⟩ [strip (bang key v)] =
      .ok ⟨cs, cur d sec (insert key.toList (.one v) l), some sec.toList, code⟩ := by
  have := bang_one (cs := cs) (l := l) (code := code) hm hd hk hv
  rw [if_neg hkc] at this
  exact steps_bang this

/-- The entry of a repeated key. -/
def manyEntry (key : String) (l : List Str) : List (Str × Field) := if l = [] then [] else [(key.toList, .many l)]

theorem steps_many {cs : List (Option Str × Ctx)} {d : List (Str × Sec)} {sec : String} {code : Option Str}
    {key : String} (hm : Many sec) (hd : d.lookup sec.toList = none) (hk : Word key.toList)
    (hkc : key.toList ≠ "mpcCode".toList) : ∀ (vs l : List Str), (∀ s ∈ vs, Spaced s) →
    steps ⟨cs, cur d sec (manyEntry key l), some sec.toList, code⟩ ((vs.map (bang key)).map strip) =
      .ok ⟨cs, cur d sec (manyEntry key (l ++ vs)), some sec.toList, code⟩ := by
  intro vs
  induction vs with
  | nil => intro l _; rw [List.append_nil]; rfl
  | cons v vs ih =>
    intro l hv
    have h1 := steps_bang (bang_many (cs := cs) (l := l) (code := code) hm hd hk hkc (hv v (by simp)))
    have h2 := ih (l ++ [v]) fun s hs => hv s (List.mem_cons_of_mem _ hs)
    have e : manyEntry key (l ++ [v]) = [(key.toList, .many (l ++ [v]))] := if_neg (by simp)
    rw [e] at h2
    have h3 := steps_append (b := (vs.map (bang key)).map strip) h1
    rw [List.append_assoc] at h2
    exact h3.trans h2

/-- The entry of a key of which the last value stays. -/
def lastEntry (key : String) (l : List Str) : List (Str × Field) :=
  match l.getLast? with
  | none => []
  | some v => [(key.toList, .one v)]

theorem steps_last {cs : List (Option Str × Ctx)} {d : List (Str × Sec)} {sec : String} {code : Option Str}
    {key : String} (hm : ¬ Many sec) (hd : d.lookup sec.toList = none) (hk : Word key.toList)
    (hkc : key.toList ≠ "mpcCode".toList) : ∀ (vs l : List Str), (∀ s ∈ vs, Spaced s) →
    steps ⟨cs, cur d sec (lastEntry key l), some sec.toList, code⟩ ((vs.map (bang key)).map strip) =
      .ok ⟨cs, cur d sec (lastEntry key (l ++ vs)), some sec.toList, code⟩ := by
  intro vs
  induction vs with
  | nil => intro l _; rw [List.append_nil]; rfl
  | cons v vs ih =>
    intro l hv
    have h1 := steps_one (cs := cs) (l := lastEntry key l) (code := code) hm hd hk hkc (hv v (by simp))
    have h2 := ih (l ++ [v]) fun s hs => hv s (List.mem_cons_of_mem _ hs)
    have e : insert key.toList (.one v) (lastEntry key l) = lastEntry key (l ++ [v]) := by
      unfold lastEntry
      rw [List.getLast?_concat]
      cases l.getLast? with
      | none => rfl
      | some w => simp [insert]
    rw [e] at h1
    have h3 := steps_append (b := (vs.map (bang key)).map strip) h1
    rw [List.append_assoc] at h2
    exact h3.trans h2

/-! ## A whole context -/

/-- The entries of the software section. -/
def softEntry (s : Software) : List (Str × Field) :=
  optEntry "objectDetection" s.objectDetection (optEntry "photometry" s.photometry (optEntry "fitOrder" s.fitOrder
    (optEntry "astrometry" s.astrometry [])))

/-- The entries of the telescope section. -/
def telEntry (lib : Lib) (c : Ctx) : List (Str × Field) :=
  optEntry "pixelSize" (c.pixelSize.map lib.repr) (optEntry "arraySize" c.arraySize (optEntry "filter" c.filter
    (optEntry "fRatio" (c.fRatio.map lib.repr) (optEntry "name" c.telName
      (insert "detector".toList (.one c.detector) (insert "aperture".toList (.one (lib.repr c.aperture))
        (insert "design".toList (.one c.design) [])))))))

/-- With the software section. -/
def softDict (d : List (Str × Sec)) (o : Option Software) : List (Str × Sec) := cur d "software" ((o.map softEntry).getD [])

/-- With a section of names of which the last stays. -/
def lastDict (d : List (Str × Sec)) (sec : String) (o : Option (List Str)) : List (Str × Sec) := cur d sec (lastEntry "name" (o.getD []))

/-- With the funding source. -/
def fundDict (d : List (Str × Sec)) (o : Option Str) : List (Str × Sec) :=
  match o with
  | none => d
  | some v => if v = [] then d else insert "fundingSource".toList (.text v) d

/-- With the comments. -/
def comDict (d : List (Str × Sec)) (o : Option (List Str)) : List (Str × Sec) := cur d "comment" (manyEntry "line" (o.getD []))

/-- The dictionary of a context up to the telescope. -/
def baseDict (lib : Lib) (c : Ctx) : List (Str × Sec) :=
  cur (cur (cur (cur (cur [] "observatory" (optEntry "name" c.obsName (insert "mpcCode".toList (.one c.mpcCode) [])))
    "submitter" (optEntry "institution" c.institution (insert "name".toList (.one c.subName) [])))
    "observers" (manyEntry "name" c.observers)) "measurers" (manyEntry "name" c.measurers)) "telescope" (telEntry lib c)

/-- The dictionary of a context. -/
def ctxDict (lib : Lib) (c : Ctx) : List (Str × Sec) :=
  comDict (fundDict (lastDict (lastDict (softDict (baseDict lib c) c.software) "coinvestigators" c.coinvestigators)
    "collaborators" c.collaborators) c.fundingSource) c.comments

theorem lookup_fund_ne {d : List (Str × Sec)} {o : Option Str} {k : Str} (h : k ≠ "fundingSource".toList) :
    (fundDict d o).lookup k = d.lookup k := by
  unfold fundDict
  split
  · rfl
  · split
    · rfl
    · rw [lookup_insert, if_neg h]

theorem cur_nil (d : List (Str × Sec)) (sec : String) : cur d sec [] = d := if_pos rfl

theorem steps_funding {cs : List (Option Str × Ctx)} {d : List (Str × Sec)} {s code : Option Str} {v : Str} (hv : Spaced v) :
    steps ⟨cs, d, s, code⟩ [strip (hash "fundingSource" ++ ' ' :: v)] =
      .ok ⟨cs, if v = [] then d else insert "fundingSource".toList (.text v) d, some "fundingSource".toList, code⟩ := by
  have hw : Word "fundingSource".toList := by decide
  have e : hash "fundingSource" ++ ' ' :: v = '#' :: ' ' :: ("fundingSource".toList ++ ' ' :: v) := rfl
  obtain ⟨t, ht⟩ := strip_cons (c := '#') (by decide) (' ' :: ("fundingSource".toList ++ ' ' :: v))
  have h4 := kv_line (c := '#') (by decide) hw hv
  simp only [steps]
  rw [if_pos (by rw [e, ht]; simp [List.isPrefixOf])]
  unfold readHash
  have h1 : "version".toList.isPrefixOf (strip (strip ('#' :: ' ' :: ("fundingSource".toList ++ ' ' :: v))).tail) = false := by
    by_cases he : v = []
    · subst he
      have e1 : strip ('#' :: ' ' :: ("fundingSource".toList ++ [' '])) = "# fundingSource".toList := by decide
      rw [e1]
      decide
    · have ht : Trim ('#' :: ' ' :: ("fundingSource".toList ++ ' ' :: v)) := by
        have := trim_append (a := ['#']) (b := v) (by simp) he (trim_of_noSpace (by decide)) hv.1 (' ' :: ("fundingSource".toList ++ [' ']))
        simpa using this
      rw [strip_trim ht, List.tail_cons, strip_space (trim_pair hw he hv)]
      rfl
  have h2 : "fundingSource".toList ≠ "observatory".toList := by decide
  simp only [e, h1, h4, Bool.false_eq_true, if_false, if_neg h2, join_value]
  by_cases he : v = []
  · subst he; rfl
  · have hs : splitOn ' ' v ≠ [] := splitOn_ne _ _
    simp only [if_neg he, if_neg hs]

theorem not_many {sec : String} (h : ¬ Many sec := by decide) : ¬ Many sec := h

section

variable {lib : Lib} {c : Ctx}

theorem spaced_repr (hc : c.Good lib) {x : ℚ} (hx : x ∈ c.numbers) : Spaced (lib.repr x) :=
  ⟨trim_of_noSpace (hc.reprs x hx).2, fun d hd hs => by rw [(hc.reprs x hx).2 d hd] at hs; cases hs⟩

theorem steps_cons {m m' : Meta} {l : Str} {b : List Str} (h : steps m [strip l] = .ok m') : steps m ((l :: b).map strip) = steps m' (b.map strip) :=
  steps_append (b := b.map strip) h

theorem steps_app {m m' : Meta} {a b : List Str} (h : steps m (a.map strip) = .ok m') : steps m ((a ++ b).map strip) = steps m' (b.map strip) := by
  rw [List.map_append]
  exact steps_append h

theorem steps_many0 {cs : List (Option Str × Ctx)} {d : List (Str × Sec)} {sec : String} {code : Option Str}
    {key : String} (hm : Many sec) (hd : d.lookup sec.toList = none) (hk : Word key.toList)
    (hkc : key.toList ≠ "mpcCode".toList) (vs : List Str) (hv : ∀ s ∈ vs, Spaced s) :
    steps ⟨cs, d, some sec.toList, code⟩ ((vs.map (bang key)).map strip) =
      .ok ⟨cs, cur d sec (manyEntry key vs), some sec.toList, code⟩ := by
  have := steps_many (cs := cs) (code := code) hm hd hk hkc vs [] hv
  rw [List.nil_append, show manyEntry key [] = [] from rfl, cur_nil] at this
  exact this

theorem steps_last0 {cs : List (Option Str × Ctx)} {d : List (Str × Sec)} {sec : String} {code : Option Str}
    {key : String} (hm : ¬ Many sec) (hd : d.lookup sec.toList = none) (hk : Word key.toList)
    (hkc : key.toList ≠ "mpcCode".toList) (vs : List Str) (hv : ∀ s ∈ vs, Spaced s) :
    steps ⟨cs, d, some sec.toList, code⟩ ((vs.map (bang key)).map strip) =
      .ok ⟨cs, cur d sec (lastEntry key vs), some sec.toList, code⟩ := by
  have := steps_last (cs := cs) (code := code) hm hd hk hkc vs [] hv
  rw [List.nil_append, show lastEntry key [] = [] from rfl, cur_nil] at this
  exact this

theorem steps_ctx (hc : c.Good lib) {m : Meta} {cs : List (Option Str × Ctx)} (h : finish m = .ok cs) :
    ∃ s, steps m ((c.lines lib).map strip) = .ok ⟨cs, ctxDict lib c, s, some c.mpcCode⟩ := by
  have ht : ∀ s, s ∈ c.texts → Spaced s := hc.texts
  unfold Ctx.texts at ht
  simp only [List.mem_append, List.mem_cons, List.not_mem_nil, or_false] at ht
  have hrep : ∀ x, x ∈ c.numbers → Spaced (lib.repr x) := fun x hx => spaced_repr hc hx
  unfold Ctx.numbers at hrep
  simp only [List.mem_append, List.mem_cons] at hrep
  have hmap : ∀ o : Option ℚ, (∀ x ∈ o.toList, Spaced (lib.repr x)) → ∀ s ∈ (o.map lib.repr).toList, Spaced s := by
    intro o ho s hs
    cases o with
    | none => simp at hs
    | some x =>
      have : s = lib.repr x := by simpa using hs
      rw [this]
      exact ho x (by simp)
  unfold Ctx.lines
  simp only [List.append_assoc, List.cons_append, List.nil_append]
  -- observatory
  rw [steps_cons (steps_observatory h), ← cur_nil [] "observatory",
    steps_cons (steps_bang (bang_one (by decide) rfl (by decide) (ht _ (by simp)))), if_pos rfl,
    steps_app (steps_opt (by decide) rfl (by decide) (by decide) fun s hs => ht s (by simp [hs]))]
  obtain ⟨d1, hd1⟩ : ∃ d, d = cur [] "observatory" (optEntry "name" c.obsName (insert "mpcCode".toList (.one c.mpcCode) [])) := ⟨_, rfl⟩
  have l1 : ∀ k : Str, k ≠ "observatory".toList → d1.lookup k = none := fun k hk => by rw [hd1, lookup_cur_ne hk]; rfl
  rw [← hd1]
  -- submitter
  rw [steps_cons (steps_hash (by decide) (by decide) (by decide)), ← cur_nil d1 "submitter",
    steps_cons (steps_one (by decide) (l1 _ (by decide)) (by decide) (by decide) (ht _ (by simp))),
    steps_app (steps_opt (by decide) (l1 _ (by decide)) (by decide) (by decide) fun s hs => ht s (by simp [hs]))]
  obtain ⟨d2, hd2⟩ : ∃ d, d = cur d1 "submitter" (optEntry "institution" c.institution (insert "name".toList (.one c.subName) [])) := ⟨_, rfl⟩
  have l2 : ∀ k : Str, k ≠ "observatory".toList → k ≠ "submitter".toList → d2.lookup k = none :=
    fun k hk h2 => by rw [hd2, lookup_cur_ne h2, l1 k hk]
  rw [← hd2]
  -- observers
  rw [steps_cons (steps_hash (by decide) (by decide) (by decide)),
    steps_app (steps_many0 (by decide) (l2 _ (by decide) (by decide)) (by decide) (by decide) c.observers fun s hs => ht s (by simp [hs]))]
  obtain ⟨d3, hd3⟩ : ∃ d, d = cur d2 "observers" (manyEntry "name" c.observers) := ⟨_, rfl⟩
  have l3 : ∀ k : Str, k ≠ "observatory".toList → k ≠ "submitter".toList → k ≠ "observers".toList → d3.lookup k = none :=
    fun k hk h2 h3 => by rw [hd3, lookup_cur_ne h3, l2 k hk h2]
  rw [← hd3]
  -- measurers
  rw [steps_cons (steps_hash (by decide) (by decide) (by decide)),
    steps_app (steps_many0 (by decide) (l3 _ (by decide) (by decide) (by decide)) (by decide) (by decide) c.measurers
      fun s hs => ht s (by simp [hs]))]
  obtain ⟨d4, hd4⟩ : ∃ d, d = cur d3 "measurers" (manyEntry "name" c.measurers) := ⟨_, rfl⟩
  have l4 : ∀ k : Str, k ≠ "observatory".toList → k ≠ "submitter".toList → k ≠ "observers".toList → k ≠ "measurers".toList →
      d4.lookup k = none :=
    fun k hk h2 h3 h4 => by rw [hd4, lookup_cur_ne h4, l3 k hk h2 h3]
  rw [← hd4]
  -- telescope
  have lt : d4.lookup "telescope".toList = none := l4 _ (by decide) (by decide) (by decide) (by decide)
  rw [steps_cons (steps_hash (by decide) (by decide) (by decide)), ← cur_nil d4 "telescope",
    steps_cons (steps_one (by decide) lt (by decide) (by decide) (ht _ (by simp))),
    steps_cons (steps_one (by decide) lt (by decide) (by decide) (hrep _ (by simp))),
    steps_cons (steps_one (by decide) lt (by decide) (by decide) (ht _ (by simp))),
    steps_app (steps_opt (by decide) lt (by decide) (by decide) fun s hs => ht s (by simp [hs])),
    steps_app (steps_opt (by decide) lt (by decide) (by decide) (hmap _ fun x hx => hrep x (by simp [hx]))),
    steps_app (steps_opt (by decide) lt (by decide) (by decide) fun s hs => ht s (by simp [hs])),
    steps_app (steps_opt (by decide) lt (by decide) (by decide) fun s hs => ht s (by simp [hs])),
    steps_app (steps_opt (by decide) lt (by decide) (by decide) (hmap _ fun x hx => hrep x (by simp [hx])))]
  obtain ⟨d5, hd5⟩ : ∃ d, d = cur d4 "telescope" (telEntry lib c) := ⟨_, rfl⟩
  have l5 : ∀ k : Str, k ≠ "observatory".toList → k ≠ "submitter".toList → k ≠ "observers".toList → k ≠ "measurers".toList →
      k ≠ "telescope".toList → d5.lookup k = none :=
    fun k hk h2 h3 h4 h5 => by rw [hd5, lookup_cur_ne h5, l4 k hk h2 h3 h4]
  have e5 : d5 = baseDict lib c := by rw [hd5, hd4, hd3, hd2, hd1]; rfl
  unfold telEntry at hd5
  rw [← hd5]
  -- software
  have hsoft : ∃ s, steps ⟨cs, d5, some "telescope".toList, some c.mpcCode⟩ ((softLines c.software).map strip) =
      .ok ⟨cs, softDict d5 c.software, s, some c.mpcCode⟩ := by
    cases hs : c.software with
    | none => exact ⟨_, by unfold softDict; rw [Option.map_none, Option.getD_none, cur_nil]; rfl⟩
    | some s =>
      rw [hs] at ht
      have l := l5 "software".toList (by decide) (by decide) (by decide) (by decide) (by decide)
      refine ⟨some "software".toList, ?_⟩
      simp only [softLines, List.append_assoc, List.cons_append]
      rw [steps_cons (steps_hash (by decide) (by decide) (by decide)), ← cur_nil d5 "software",
        steps_app (steps_opt (by decide) l (by decide) (by decide) fun x hx => ht x (by simp [hx])),
        steps_app (steps_opt (by decide) l (by decide) (by decide) fun x hx => ht x (by simp [hx])),
        steps_app (steps_opt (by decide) l (by decide) (by decide) fun x hx => ht x (by simp [hx])),
        steps_opt (by decide) l (by decide) (by decide) fun x hx => ht x (by simp [hx]), cur_nil]
      rfl
  obtain ⟨s6, h6⟩ := hsoft
  rw [steps_app h6]
  obtain ⟨d6, hd6⟩ : ∃ d, d = softDict d5 c.software := ⟨_, rfl⟩
  have l6 : ∀ k : Str, k ≠ "observatory".toList → k ≠ "submitter".toList → k ≠ "observers".toList → k ≠ "measurers".toList →
      k ≠ "telescope".toList → k ≠ "software".toList → d6.lookup k = none :=
    fun k hk h2 h3 h4 h5 h6 => by rw [hd6, softDict, lookup_cur_ne h6, l5 k hk h2 h3 h4 h5]
  rw [← hd6]
  clear h6
  -- co-investigators
  have hco : ∀ (d : List (Str × Sec)) (s0 : Option Str) (sec : String) (o : Option (List Str)), Word sec.toList →
      "version".toList.isPrefixOf sec.toList = false → sec.toList ≠ "observatory".toList → ¬ Many sec →
      d.lookup sec.toList = none → (∀ x ∈ o.getD [], Spaced x) →
      ∃ s, steps ⟨cs, d, s0, some c.mpcCode⟩ ((nameLines sec o).map strip) = .ok ⟨cs, lastDict d sec o, s, some c.mpcCode⟩ := by
    intro d s0 sec o hw hv hob hm hl hx
    cases o with
    | none => exact ⟨s0, by unfold lastDict; rw [Option.getD_none, show lastEntry "name" [] = [] from rfl, cur_nil]; rfl⟩
    | some l =>
      refine ⟨some sec.toList, ?_⟩
      simp only [nameLines]
      rw [steps_cons (steps_hash hw hv hob)]
      exact steps_last0 hm hl (by decide) (by decide) l hx
  obtain ⟨s7, h7⟩ := hco d6 s6 "coinvestigators" c.coinvestigators (by decide) (by decide) (by decide) (by decide)
    (l6 _ (by decide) (by decide) (by decide) (by decide) (by decide) (by decide)) fun x hx => ht x (by simp [hx])
  rw [steps_app h7]
  obtain ⟨d7, hd7⟩ : ∃ d, d = lastDict d6 "coinvestigators" c.coinvestigators := ⟨_, rfl⟩
  have l7 : ∀ k : Str, k ≠ "observatory".toList → k ≠ "submitter".toList → k ≠ "observers".toList → k ≠ "measurers".toList →
      k ≠ "telescope".toList → k ≠ "software".toList → k ≠ "coinvestigators".toList → d7.lookup k = none :=
    fun k hk h2 h3 h4 h5 h6 h7 => by rw [hd7, lastDict, lookup_cur_ne h7, l6 k hk h2 h3 h4 h5 h6]
  rw [← hd7]
  obtain ⟨s8, h8⟩ := hco d7 s7 "collaborators" c.collaborators (by decide) (by decide) (by decide) (by decide)
    (l7 _ (by decide) (by decide) (by decide) (by decide) (by decide) (by decide) (by decide)) fun x hx => ht x (by simp [hx])
  rw [steps_app h8]
  obtain ⟨d8, hd8⟩ : ∃ d, d = lastDict d7 "collaborators" c.collaborators := ⟨_, rfl⟩
  have l8 : d8.lookup "comment".toList = none := by
    rw [hd8, lastDict, lookup_cur_ne (by decide)]
    exact l7 _ (by decide) (by decide) (by decide) (by decide) (by decide) (by decide) (by decide)
  rw [← hd8]
  -- funding source
  have hfund : ∃ s, steps ⟨cs, d8, s8, some c.mpcCode⟩ ((fundLines c.fundingSource).map strip) = .ok ⟨cs, fundDict d8 c.fundingSource, s, some c.mpcCode⟩ := by
    cases hf : c.fundingSource with
    | none => exact ⟨_, rfl⟩
    | some v => exact ⟨_, steps_funding (ht v (by simp [hf]))⟩
  obtain ⟨s9, h9⟩ := hfund
  rw [steps_app h9]
  have l9 : (fundDict d8 c.fundingSource).lookup "comment".toList = none := by rw [lookup_fund_ne (by decide), l8]
  have hD : ctxDict lib c = comDict (fundDict d8 c.fundingSource) c.comments := by
    rw [hd8, hd7, hd6, e5]; rfl
  rw [hD]
  cases hcom : c.comments with
  | none => exact ⟨_, by unfold comDict; rw [Option.getD_none, show manyEntry "line" [] = [] from rfl, cur_nil]; rfl⟩
  | some l =>
    by_cases hl : l = []
    · subst hl
      exact ⟨s9, by unfold comDict; rw [Option.getD_some, show manyEntry "line" [] = [] from rfl, cur_nil]; rfl⟩
    · refine ⟨some "comment".toList, ?_⟩
      simp only [commentLines, if_neg hl]
      rw [steps_cons (steps_hash (by decide) (by decide) (by decide))]
      exact steps_many0 (by decide) l9 (by decide) (by decide) l fun x hx => ht x (by simp [hcom, hx])

end

end Verif.Ades
