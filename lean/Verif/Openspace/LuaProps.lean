import Verif.Openspace.Spec

/-! # Lua tables read back -/

namespace Verif.Openspace.Props

open Verif Mpc Openspace Spec

variable {K : Type}

/-- A word: not empty, without blanks, signs and quotes. -/
def Word (s : Str) : Prop := s ≠ [] ∧ ∀ c ∈ s, isWs c = false ∧ isSym c = false ∧ c ≠ '"'

/-- Text that may be put between quotes as it is. -/
def Quotable (s : Str) : Prop := ∀ c ∈ s, c ≠ '"' ∧ c ≠ '\\' ∧ c ≠ '\n'

mutual
/-- Numbers are written as words, and strings may be put between quotes. -/
def Plain (shw : K → Str) : Val K → Prop
  | .none => True
  | .bool _ => True
  | .num x => Word (shw x)
  | .enum s => Quotable s
  | .tuple xs => ∀ x ∈ xs, Word (shw x)
  | .list xs => ∀ s ∈ xs, Quotable s
  | .str s => Quotable s
  | .resource p => Quotable p
  | .dict fs => PlainFields shw fs

def PlainFields (shw : K → Str) : Fields K → Prop
  | .nil => True
  | .cons k v fs => Word (key k) ∧ Plain shw v ∧ PlainFields shw fs
end

/-- The entries of a tuple. -/
def words (shw : K → Str) : List K → Items
  | [] => .nil
  | x :: l => .item (.word (shw x)) (words shw l)

mutual
/-- What a value stands for: a list is one string. -/
def meaning (shw : K → Str) : Val K → LuaVal
  | .none => .word "nil".toList
  | .bool b => .word (if b then "true".toList else "false".toList)
  | .num x => .word (shw x)
  | .enum s => .str s
  | .tuple xs => .table (words shw xs)
  | .list xs => .table (.item (.str (join xs)) .nil)
  | .str s => .str s
  | .resource p => .call "asset.resource".toList p
  | .dict fs => .table (entries shw fs)

/-- The attributes that are not None, under their Lua names. -/
def entries (shw : K → Str) : Fields K → Items
  | .nil => .nil
  | .cons k v fs => match v with
    | .none => entries shw fs
    | v => .field (key k) (meaning shw v) (entries shw fs)
end

/-! ### tokens -/

def tupleToks (shw : K → Str) : List K → List Tok
  | [] => []
  | [x] => [.word (shw x)]
  | x :: y :: l => .word (shw x) :: .sym ',' :: tupleToks shw (y :: l)

mutual
def toks (shw : K → Str) : Val K → List Tok
  | .none => []
  | .bool b => [.word (if b then "true".toList else "false".toList)]
  | .num x => [.word (shw x)]
  | .enum s => [.str s]
  | .tuple xs => .sym '{' :: tupleToks shw xs ++ [.sym '}']
  | .list xs => [.sym '{', .str (join xs), .sym '}']
  | .str s => [.str s]
  | .resource p => [.word "asset.resource".toList, .sym '(', .str p, .sym ')']
  | .dict fs => .sym '{' :: fieldToks shw fs ++ [.sym '}']

def fieldToks (shw : K → Str) : Fields K → List Tok
  | .nil => []
  | .cons k v fs => if isNone v then fieldToks shw fs else .word (key k) :: .sym '=' :: toks shw v ++ .sym ',' :: fieldToks shw fs
end

theorem map_cons_map (o : Option (List Tok)) (a b : List Tok) : (o.map (b ++ ·)).map (a ++ ·) = o.map ((a ++ b) ++ ·) := by
  cases o <;> simp

theorem lex_ws {c : Char} (h : isWs c = true) (cs : Str) : lex .start (c :: cs) = lex .start cs := by
  rw [lex, if_pos h]

theorem lex_sym {c : Char} (h : isSym c = true) (cs : Str) : lex .start (c :: cs) = (lex .start cs).map ([Tok.sym c] ++ ·) := by
  have hw : isWs c = false := by
    unfold isSym at h
    unfold isWs
    simp only [Bool.or_eq_true, decide_eq_true_eq] at h
    rcases h with ((((h | h) | h) | h) | h) | h <;> subst h <;> decide
  rw [lex, hw, if_neg (by simp), if_pos h]
  rfl

theorem lex_spaces (n : Nat) (cs : Str) : lex .start (List.replicate n ' ' ++ cs) = lex .start cs := by
  induction n with
  | zero => rfl
  | succ n ih =>
    rw [List.replicate_succ, List.cons_append, lex_ws (by decide)]
    exact ih

theorem lex_inWord (acc : Str) (c : Char) (cs : Str) : lex (.word acc) (c :: cs) =
    if isWs c then (lex .start cs).map (Tok.word acc :: ·)
    else if isSym c then (lex .start cs).map (Tok.word acc :: Tok.sym c :: ·)
    else if c = '"' then none
    else lex (.word (acc ++ [c])) cs := by rw [lex]

theorem lex_inQuotes (acc : Str) (c : Char) (cs : Str) : lex (.quoted acc) (c :: cs) =
    if c = '"' then (lex .start cs).map (Tok.str acc :: ·)
    else if c = '\\' ∨ c = '\n' then none
    else lex (.quoted (acc ++ [c])) cs := by rw [lex]

theorem text_resource (shw : K → Str) (indent : Nat) (p : Str) :
    text shw indent (.resource p) = "asset.resource".toList ++ '(' :: '"' :: p ++ ['"', ')'] := by
  rw [text.eq_def]
  have e : "asset.resource(".toList = "asset.resource".toList ++ ['('] := by decide
  simp only
  rw [e, List.append_assoc]
  rfl

theorem text_dict (shw : K → Str) (indent : Nat) (fs : Fields K) :
    text shw indent (.dict fs) = '{' :: '\n' :: (fieldsText shw indent fs ++ (List.replicate (indent - 4) ' ' ++ ['}'])) := by
  rw [text.eq_def]
  simp only [List.cons_append, List.append_assoc]

theorem lex_word_aux (acc s : Str) (h : ∀ c ∈ s, isWs c = false ∧ isSym c = false ∧ c ≠ '"') {c : Char}
    (hc : isSym c = true ∨ isWs c = true) (rest : Str) :
    lex (.word acc) (s ++ c :: rest) = (lex .start (c :: rest)).map ([Tok.word (acc ++ s)] ++ ·) := by
  induction s generalizing acc with
  | nil =>
    rw [List.nil_append, List.append_nil]
    by_cases hw : isWs c = true
    · rw [lex_inWord, if_pos hw, lex_ws hw]
      rfl
    · have hs := hc.resolve_right hw
      rw [lex_inWord, if_neg hw, if_pos hs, lex_sym hs, Option.map_map]
      rfl
  | cons a s ih =>
    obtain ⟨h1, h2, h3⟩ := h a List.mem_cons_self
    rw [List.cons_append, lex_inWord, if_neg (by rw [h1]; simp), if_neg (by rw [h2]; simp), if_neg h3,
      ih _ (fun x hx => h x (List.mem_cons_of_mem _ hx)), List.append_assoc]
    rfl

theorem lex_word {s : Str} (h : Word s) {c : Char} (hc : isSym c = true ∨ isWs c = true) (rest : Str) :
    lex .start (s ++ c :: rest) = (lex .start (c :: rest)).map ([Tok.word s] ++ ·) := by
  obtain ⟨hne, h⟩ := h
  cases s with
  | nil => exact absurd rfl hne
  | cons a s =>
    obtain ⟨h1, h2, h3⟩ := h a List.mem_cons_self
    rw [List.cons_append, lex, if_neg (by rw [h1]; simp), if_neg (by rw [h2]; simp), if_neg h3,
      lex_word_aux [a] s (fun x hx => h x (List.mem_cons_of_mem _ hx)) hc]
    rfl

theorem lex_quoted_aux (acc s : Str) (h : Quotable s) (rest : Str) :
    lex (.quoted acc) (s ++ '"' :: rest) = (lex .start rest).map ([Tok.str (acc ++ s)] ++ ·) := by
  induction s generalizing acc with
  | nil =>
    rw [List.nil_append, List.append_nil, lex_inQuotes, if_pos rfl]
    rfl
  | cons a s ih =>
    obtain ⟨h1, h2, h3⟩ := h a List.mem_cons_self
    rw [List.cons_append, lex_inQuotes, if_neg h1, if_neg (by push Not; exact ⟨h2, h3⟩), ih _ (fun x hx => h x (List.mem_cons_of_mem _ hx)),
      List.append_assoc]
    rfl

theorem lex_quoted {s : Str} (h : Quotable s) (rest : Str) :
    lex .start ('"' :: s ++ '"' :: rest) = (lex .start rest).map ([Tok.str s] ++ ·) := by
  rw [List.cons_append, lex, if_neg (by decide), if_neg (by decide), if_pos rfl, lex_quoted_aux [] s h]
  rfl

theorem lex_tuple (shw : K → Str) : ∀ (xs : List K), (∀ x ∈ xs, Word (shw x)) → ∀ rest : Str,
    lex .start (join (xs.map shw) ++ '}' :: rest) = (lex .start ('}' :: rest)).map (tupleToks shw xs ++ ·)
  | [], _, rest => by
    show lex .start ('}' :: rest) = (lex .start ('}' :: rest)).map (fun x => x)
    rw [Option.map_id']
  | [x], h, rest => lex_word (h x (by simp)) (Or.inl (by decide)) rest
  | x :: y :: l, h, rest => by
    have ih := lex_tuple shw (y :: l) (fun z hz => h z (List.mem_cons_of_mem _ hz)) rest
    rw [List.map_cons, List.map_cons, join, List.append_assoc]
    show lex .start (shw x ++ ',' :: ' ' :: (join ((y :: l).map shw) ++ '}' :: rest)) = _
    rw [lex_word (h x (by simp)) (Or.inl (by decide)), lex_sym (by decide), lex_ws (by decide), ih, map_cons_map, map_cons_map]
    rfl

theorem quotable_join {xs : List Str} (h : ∀ s ∈ xs, Quotable s) : Quotable (join xs) := by
  match xs with
  | [] => intro c hc; cases hc
  | [a] => exact h a (by simp)
  | a :: b :: l =>
    have ih := quotable_join (xs := b :: l) fun s hs => h s (List.mem_cons_of_mem _ hs)
    intro c hc
    rw [join] at hc
    rcases List.mem_append.mp hc with hc | hc
    · exact h a (by simp) c hc
    · rcases List.mem_cons.mp hc with rfl | hc
      · decide
      · rcases List.mem_cons.mp hc with rfl | hc
        · decide
        · exact ih c hc

theorem word_true : Word "true".toList := by unfold Word; decide
theorem word_false : Word "false".toList := by unfold Word; decide
theorem word_resource : Word "asset.resource".toList := by unfold Word; decide

mutual
theorem lex_text (shw : K → Str) : ∀ (v : Val K) (indent : Nat), Plain shw v → isNone v = false → ∀ (c : Char), isSym c = true → ∀ rest : Str,
    lex .start (text shw indent v ++ c :: rest) = (lex .start (c :: rest)).map (toks shw v ++ ·)
  | .none, _, _, hn, _, _, _ => by cases hn
  | .bool b, _, _, _, c, hc, rest => by
    have key : ∀ w : Str, Word w → lex .start (w ++ c :: rest) = (lex .start (c :: rest)).map ([Tok.word w] ++ ·) :=
      fun w hw => lex_word hw (Or.inl hc) rest
    rw [text.eq_def, toks.eq_def]
    simp only
    cases b
    · exact key _ word_false
    · exact key _ word_true
  | .num x, _, h, _, c, hc, rest => by
    rw [Plain] at h
    rw [text.eq_def, toks.eq_def]
    exact lex_word h (Or.inl hc) rest
  | .enum s, _, h, _, c, hc, rest => by
    rw [Plain] at h
    rw [text.eq_def, toks.eq_def]
    simp only
    rw [List.append_assoc, List.singleton_append, lex_quoted h]
  | .str s, _, h, _, c, hc, rest => by
    rw [Plain] at h
    rw [text.eq_def, toks.eq_def]
    simp only
    rw [List.append_assoc, List.singleton_append, lex_quoted h]
  | .tuple xs, _, h, _, c, hc, rest => by
    rw [text.eq_def]
    simp only
    rw [List.append_assoc]
    show lex .start ('{' :: (join (xs.map shw) ++ '}' :: c :: rest)) = _
    rw [lex_sym (by decide), lex_tuple shw xs h, lex_sym (c := '}') (by decide), map_cons_map, map_cons_map, toks]
    rfl
  | .list xs, _, h, _, c, hc, rest => by
    rw [text.eq_def]
    simp only
    rw [List.append_assoc]
    show lex .start ('{' :: ('"' :: join xs ++ '"' :: '}' :: c :: rest)) = _
    rw [lex_sym (by decide), lex_quoted (quotable_join h), lex_sym (c := '}') (by decide), map_cons_map, map_cons_map]
    rfl
  | .resource p, _, h, _, c, hc, rest => by
    rw [text_resource, List.append_assoc, List.append_assoc]
    show lex .start ("asset.resource".toList ++ '(' :: ('"' :: p ++ '"' :: ')' :: c :: rest)) = _
    rw [lex_word word_resource (Or.inl (by decide)), lex_sym (c := '(') (by decide), lex_quoted h, lex_sym (c := ')') (by decide),
      map_cons_map, map_cons_map, map_cons_map]
    rfl
  | .dict fs, indent, h, _, c, hc, rest => by
    have ih := lex_fields shw fs indent h (List.replicate (indent - 4) ' ' ++ '}' :: c :: rest)
    rw [text_dict, List.cons_append, List.cons_append, List.append_assoc, List.append_assoc, lex_sym (by decide), lex_ws (by decide)]
    show (lex .start (fieldsText shw indent fs ++ (List.replicate (indent - 4) ' ' ++ '}' :: c :: rest))).map _ = _
    rw [ih, lex_spaces, lex_sym (c := '}') (by decide), map_cons_map, map_cons_map, toks]
    rfl

theorem lex_fields (shw : K → Str) : ∀ (fs : Fields K) (indent : Nat), PlainFields shw fs → ∀ rest : Str,
    lex .start (fieldsText shw indent fs ++ rest) = (lex .start rest).map (fieldToks shw fs ++ ·)
  | .nil, _, _, rest => by
    show lex .start rest = (lex .start rest).map (fun x => x)
    rw [Option.map_id']
  | .cons k v fs, indent, h, rest => by
    rw [PlainFields] at h
    obtain ⟨hk, hv, hfs⟩ := h
    have ih := lex_fields shw fs indent hfs rest
    rw [fieldsText, fieldToks]
    cases hn : isNone v with
    | true => simpa using ih
    | false =>
      have iv := lex_text shw v (indent + 4) hv hn ',' (by decide) ('\n' :: (fieldsText shw indent fs ++ rest))
      rw [if_neg (by simp), if_neg (by simp)]
      rw [List.append_assoc, List.append_assoc, List.append_assoc, lex_spaces]
      show lex .start (key k ++ ' ' :: '=' :: ' ' :: (text shw (indent + 4) v ++ ',' :: '\n' :: (fieldsText shw indent fs ++ rest))) = _
      rw [lex_word hk (Or.inr (by decide)), lex_ws (by decide), lex_sym (c := '=') (by decide), lex_ws (by decide), iv,
        lex_sym (c := ',') (by decide), lex_ws (by decide), ih, map_cons_map, map_cons_map, map_cons_map, map_cons_map]
      congr 1
      funext l
      simp
end

/-! ### values from tokens -/

theorem readItems_word (n : Nat) (w : Str) (rest : List Tok) :
    readItems (n + 1) (.word w :: .sym ',' :: rest) =
      (readVal n (.word w :: .sym ',' :: rest)).bind fun r => (readNext n r.2).map fun q => (.item r.1 q.1, q.2) := by
  rw [readItems]
  · intro ts h
    cases h
  · intro k ts h
    simp at h

theorem tuple_read (shw : K → Str) : ∀ (xs : List K) (n : Nat) (rest : List Tok), (tupleToks shw xs).length + 2 ≤ n →
    readItems n (tupleToks shw xs ++ .sym '}' :: rest) = some (words shw xs, rest)
  | [], n, rest, h => by
    obtain ⟨n, rfl⟩ : ∃ m, n = m + 1 := ⟨n - 1, by omega⟩
    rfl
  | [x], n, rest, h => by
    obtain ⟨n, rfl⟩ : ∃ m, n = m + 2 := ⟨n - 2, by omega⟩
    obtain ⟨n, rfl⟩ : ∃ m, n = m + 1 := ⟨n - 1, by simp [tupleToks] at h; omega⟩
    rfl
  | x :: y :: l, n, rest, h => by
    simp only [tupleToks, List.length_cons] at h
    obtain ⟨n, rfl⟩ : ∃ m, n = m + 3 := ⟨n - 3, by omega⟩
    have ih := tuple_read shw (y :: l) (n + 1) rest (by omega)
    have h1 : readVal (n + 2) (.word (shw x) :: .sym ',' :: (tupleToks shw (y :: l) ++ .sym '}' :: rest)) =
        some (.word (shw x), .sym ',' :: (tupleToks shw (y :: l) ++ .sym '}' :: rest)) := rfl
    have h2 : readNext (n + 2) (.sym ',' :: (tupleToks shw (y :: l) ++ .sym '}' :: rest)) = some (words shw (y :: l), rest) := ih
    rw [tupleToks, List.cons_append, List.cons_append, readItems_word, h1, Option.bind_some, h2]
    rfl

mutual
theorem read_toks (shw : K → Str) : ∀ (v : Val K), isNone v = false → ∀ (n : Nat) (c : Char) (rest : List Tok),
    (c = ',' ∨ c = '}') → (toks shw v).length + 1 ≤ n →
    readVal n (toks shw v ++ .sym c :: rest) = some (meaning shw v, .sym c :: rest)
  | .none, hn, _, _, _, _, _ => by cases hn
  | .bool b, _, n, c, rest, hc, h => by
    obtain ⟨n, rfl⟩ : ∃ m, n = m + 1 := ⟨n - 1, by omega⟩
    rcases hc with rfl | rfl <;> rfl
  | .num x, _, n, c, rest, hc, h => by
    obtain ⟨n, rfl⟩ : ∃ m, n = m + 1 := ⟨n - 1, by omega⟩
    rcases hc with rfl | rfl <;> rfl
  | .enum s, _, n, c, rest, hc, h => by
    obtain ⟨n, rfl⟩ : ∃ m, n = m + 1 := ⟨n - 1, by omega⟩
    rfl
  | .str s, _, n, c, rest, hc, h => by
    obtain ⟨n, rfl⟩ : ∃ m, n = m + 1 := ⟨n - 1, by omega⟩
    rfl
  | .resource p, _, n, c, rest, hc, h => by
    obtain ⟨n, rfl⟩ : ∃ m, n = m + 1 := ⟨n - 1, by omega⟩
    rfl
  | .tuple xs, _, n, c, rest, hc, h => by
    simp only [toks, List.length_cons, List.length_append, List.length_nil] at h
    obtain ⟨n, rfl⟩ : ∃ m, n = m + 1 := ⟨n - 1, by omega⟩
    have := tuple_read shw xs n (.sym c :: rest) (by omega)
    rw [toks, List.append_assoc]
    show (readItems n (tupleToks shw xs ++ .sym '}' :: .sym c :: rest)).map _ = _
    rw [this]
    rfl
  | .list xs, _, n, c, rest, hc, h => by
    simp only [toks, List.length_cons, List.length_nil] at h
    obtain ⟨n, rfl⟩ : ∃ m, n = m + 3 := ⟨n - 3, by omega⟩
    rfl
  | .dict fs, _, n, c, rest, hc, h => by
    simp only [toks, List.length_cons, List.length_append, List.length_nil] at h
    obtain ⟨n, rfl⟩ : ∃ m, n = m + 1 := ⟨n - 1, by omega⟩
    have := read_fields shw fs n (.sym c :: rest) (by omega)
    rw [toks, List.append_assoc]
    show (readItems n (fieldToks shw fs ++ .sym '}' :: .sym c :: rest)).map _ = _
    rw [this]
    rfl

theorem read_fields (shw : K → Str) : ∀ (fs : Fields K) (n : Nat) (rest : List Tok), (fieldToks shw fs).length + 1 ≤ n →
    readItems n (fieldToks shw fs ++ .sym '}' :: rest) = some (entries shw fs, rest)
  | .nil, n, rest, h => by
    obtain ⟨n, rfl⟩ : ∃ m, n = m + 1 := ⟨n - 1, by omega⟩
    rfl
  | .cons k v fs, n, rest, h => by
    rw [fieldToks] at h ⊢
    cases hn : isNone v with
    | true =>
      rw [hn, if_pos rfl] at h
      rw [if_pos rfl, read_fields shw fs n rest h]
      cases v <;> first | rfl | cases hn
    | false =>
      rw [hn, if_neg (by simp)] at h
      rw [if_neg (by simp)]
      simp only [List.length_cons, List.length_append] at h
      obtain ⟨n, rfl⟩ : ∃ m, n = m + 2 := ⟨n - 2, by omega⟩
      have i1 := read_toks shw v hn (n + 1) ',' (fieldToks shw fs ++ .sym '}' :: rest) (Or.inl rfl) (by omega)
      have i2 := read_fields shw fs n rest (by omega)
      rw [List.append_assoc]
      show (readVal (n + 1) (toks shw v ++ .sym ',' :: (fieldToks shw fs ++ .sym '}' :: rest))).bind _ = _
      rw [i1]
      show (readItems n (fieldToks shw fs ++ .sym '}' :: rest)).map _ = _
      rw [i2]
      cases v <;> first | rfl | cases hn
end

/-- The text of a dictionary is a Lua table with exactly the attributes that are not None, under their names in Pascal case, with their
values: strings, numbers, truth values, tuples, resources and dictionaries, at any depth and indentation. -/
theorem C159_read (shw : K → Str) (indent : Nat) (fs : Fields K) (h : PlainFields shw fs) :
    Spec.read (text shw indent (.dict fs)) = some (.table (entries shw fs)) := by
  have h1 := lex_fields shw fs indent h (List.replicate (indent - 4) ' ' ++ ['}'])
  have h2 : lex .start (text shw indent (.dict fs)) = some (.sym '{' :: (fieldToks shw fs ++ [.sym '}'])) := by
    rw [text_dict, lex_sym (by decide), lex_ws (by decide), h1, lex_spaces]
    rfl
  unfold Spec.read
  rw [h2]
  have h3 := read_fields shw fs ((fieldToks shw fs).length + 2) [] (by omega)
  show (readVal ((.sym '{' :: (fieldToks shw fs ++ [.sym '}']) : List Tok).length + 1) _).bind _ = _
  have e : (.sym '{' :: (fieldToks shw fs ++ [.sym '}']) : List Tok).length + 1 = (fieldToks shw fs).length + 2 + 1 := by simp
  rw [e]
  show ((readItems ((fieldToks shw fs).length + 2) (fieldToks shw fs ++ .sym '}' :: [])).map _).bind _ = _
  rw [h3]
  rfl

/-- The entries are those of the attributes: `k` has value `v` under its Lua name, in order. -/
theorem C159_entries (shw : K → Str) (l : List (Str × Val K)) :
    entries shw (Fields.of l) = (l.filter fun p => !isNone p.2).foldr (fun p r => .field (key p.1) (meaning shw p.2) r) .nil := by
  induction l with
  | nil => rfl
  | cons p l ih =>
    obtain ⟨k, v⟩ := p
    rw [Fields.of, List.filter_cons]
    cases v <;> first | exact ih | exact congrArg _ ih

/-- A list of strings is not written as a list of these strings: the text has one string, the same for different lists. -/
theorem C159_list_false :
    ¬ ∀ xs : List Str, (∀ s ∈ xs, Quotable s) →
      Spec.read (text (K := Nat) dec 0 (.dict (.cons "tag".toList (.list xs) .nil))) =
        some (.table (.field "Tag".toList (.table (xs.foldr (fun s r => .item (.str s) r) .nil)) .nil)) := by
  intro h
  have := h ["a".toList, "b".toList] (by unfold Quotable; decide)
  revert this
  decide +kernel

/-- A string with quotes in it is not written as this string: it can add attributes of its own. -/
theorem C159_quote_false :
    ¬ ∀ s : Str, Spec.read (text (K := Nat) dec 0 (.dict (.cons "name".toList (.str s) .nil))) =
      some (.table (.field "Name".toList (.str s) .nil)) := by
  intro h
  have := h "a\", Parent = \"b".toList
  revert this
  decide +kernel

/-- A case: two levels, with an attribute that is None. -/
example : Spec.read (text (K := Nat) dec 4 (.dict (Fields.of [("identifier".toList, .str "A".toList), ("parent".toList, .none),
    ("gui".toList, .dict (Fields.of [("line_width".toList, .num 3), ("color".toList, .tuple [1, 2])]))]))) =
    some (.table (.field "Identifier".toList (.str "A".toList) (.field "GUI".toList (.table (.field "LineWidth".toList (.word "3".toList)
      (.field "Color".toList (.table (.item (.word "1".toList) (.item (.word "2".toList) .nil))) .nil))) .nil))) := by decide +kernel

end Verif.Openspace.Props
