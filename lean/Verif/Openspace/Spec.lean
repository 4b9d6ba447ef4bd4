import Verif.Openspace.Model

/-! # A reader of Lua tables

Tables with fields and items, strings without escapes, words (numbers, names, true and false) and calls with one string. -/

namespace Verif.Openspace.Spec

open Verif Mpc Openspace

inductive Tok
  | sym (c : Char)
  | word (s : Str)
  | str (s : Str)
  deriving DecidableEq

def isSym (c : Char) : Bool := c = '{' || c = '}' || c = '=' || c = ',' || c = '(' || c = ')'

def isWs (c : Char) : Bool := c = ' ' || c = '\n'

inductive Mode
  | start
  | word (acc : Str)
  | quoted (acc : Str)

/-- The tokens of a text. -/
def lex : Mode → Str → Option (List Tok)
  | .start, [] => some []
  | .word acc, [] => some [.word acc]
  | .quoted _, [] => none
  | .start, c :: cs =>
    if isWs c then lex .start cs
    else if isSym c then (lex .start cs).map (Tok.sym c :: ·)
    else if c = '"' then lex (.quoted []) cs
    else lex (.word [c]) cs
  | .word acc, c :: cs =>
    if isWs c then (lex .start cs).map (Tok.word acc :: ·)
    else if isSym c then (lex .start cs).map (Tok.word acc :: Tok.sym c :: ·)
    else if c = '"' then none
    else lex (.word (acc ++ [c])) cs
  | .quoted acc, c :: cs =>
    if c = '"' then (lex .start cs).map (Tok.str acc :: ·)
    else if c = '\\' ∨ c = '\n' then none
    else lex (.quoted (acc ++ [c])) cs

mutual
inductive LuaVal
  | str (s : Str)
  | word (s : Str)
  | call (f arg : Str)
  | table (items : Items)
  deriving DecidableEq

inductive Items
  | nil
  | item (v : LuaVal) (rest : Items)
  | field (k : Str) (v : LuaVal) (rest : Items)
  deriving DecidableEq
end

mutual
/-- A value, and the tokens after it. -/
def readVal : Nat → List Tok → Option (LuaVal × List Tok)
  | 0, _ => none
  | n + 1, ts =>
    match ts with
    | .str s :: ts => some (.str s, ts)
    | .word f :: .sym '(' :: .str a :: .sym ')' :: ts => some (.call f a, ts)
    | .word w :: ts => some (.word w, ts)
    | .sym '{' :: ts => (readItems n ts).map fun r => (.table r.1, r.2)
    | _ => none

/-- The entries of a table up to its end. -/
def readItems : Nat → List Tok → Option (Items × List Tok)
  | 0, _ => none
  | n + 1, ts =>
    match ts with
    | .sym '}' :: ts => some (.nil, ts)
    | .word k :: .sym '=' :: ts =>
      (readVal n ts).bind fun r => (readNext n r.2).map fun q => (.field k r.1 q.1, q.2)
    | ts => (readVal n ts).bind fun r => (readNext n r.2).map fun q => (.item r.1 q.1, q.2)

/-- What follows an entry. -/
def readNext : Nat → List Tok → Option (Items × List Tok)
  | 0, _ => none
  | n + 1, ts =>
    match ts with
    | .sym ',' :: ts => readItems n ts
    | .sym '}' :: ts => some (.nil, ts)
    | _ => none
end

/-- The value that a text denotes. -/
def read (s : Str) : Option LuaVal :=
  (lex .start s).bind fun ts => (readVal (ts.length + 1) ts).bind fun r => if r.2 = [] then some r.1 else none

end Verif.Openspace.Spec
