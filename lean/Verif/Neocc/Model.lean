import Verif.Ades.Model
import Verif.Tri.Model

/-! # Queries of the NEOCC database (orbits/query/neocc.py)

Text is a list of characters, white space is ASCII. `float` is an arbitrary partial function `num`; requests are answered by an arbitrary
server. The derived parameters (the lines beginning with an exclamation mark) are read by the code but used nowhere; reading them cannot
fail, and they are left out. -/

namespace Verif.Neocc

open Verif

/-- Used for neocc.py:39-93. -/
abbrev Str := List Char

/-- The pieces between white space characters, empty ones included. Used for neocc.py:119. -/
def splitWs : Str → List Str
  | [] => [[]]
  | x :: xs =>
    if Mpc.isSpace x then [] :: splitWs xs
    else match splitWs xs with
      | [] => [[x]]
      | w :: ws => (x :: w) :: ws

/-- `s.split()`. Used for neocc.py:119, 132, 139, 161, 179. -/
def words (s : Str) : List Str := (splitWs s).filter fun w => w ≠ []

/-- `line.strip().startswith(tag)`. neocc.py:118, 131, 138, 160, 178. -/
def starts (tag line : Str) : Bool := tag.isPrefixOf (Mpc.strip line)

/-- `s.strip("'")`. Used for neocc.py:105. -/
def unquote (s : Str) : Str := ((s.dropWhile (· = '\'')).reverse.dropWhile (· = '\'')).reverse

/-- The header: the entries in their order, a later one with the same key counts. neocc.py:97-106. -/
def headerOf : List Str → List (Str × Str)
  | [] => []
  | line :: ls =>
    let l := Mpc.strip line
    if l = "END_OF_HEADER".toList then []
    else if '=' ∈ l then
      (Mpc.strip (l.takeWhile (· ≠ '=')),
        unquote (Mpc.strip (((l.dropWhile (· ≠ '=')).drop 1).takeWhile (· ≠ '!')))) :: headerOf ls
    else headerOf ls

/-- `header[key]`. Used for neocc.py:268. -/
def lookup (key : Str) (h : List (Str × Str)) : Option Str := h.reverse.lookup key

/-- The beginnings of lines that are not the name of the object. neocc.py:110-112. -/
def notName : List Str := ["!".toList, " ".toList, "format".toList, "rectype".toList, "refsys".toList, "END_OF_HEADER".toList]

/-- The name of the object. neocc.py:108-114. -/
def objectId (lines : List Str) : Option Str :=
  (lines.find? fun l => !(notName.any fun p => p.isPrefixOf l)).map Mpc.strip

/-- `float(words[0]), ..., float(words[n - 1])`: a missing word is an IndexError, an unreadable one a ValueError. Used for
neocc.py:119-127, 139-143. -/
def readN {K : Type} (num : Str → Option K) : Nat → List Str → Except PyErr (List K)
  | 0, _ => .ok []
  | _ + 1, [] => .error .indexError
  | n + 1, w :: ws =>
    match num w with
    | none => .error .valueError
    | some x =>
      match readN num n ws with
      | .error e => .error e
      | .ok xs => .ok (x :: xs)

/-- `[float(x) for x in words]`. neocc.py:161, 179. -/
def readAll {K : Type} (num : Str → Option K) : List Str → Except PyErr (List K)
  | [] => .ok []
  | w :: ws =>
    match num w with
    | none => .error .valueError
    | some x =>
      match readAll num ws with
      | .error e => .error e
      | .ok xs => .ok (x :: xs)

/-- The line of the epoch: `float(words[1])` and `words[2]`. neocc.py:132-133. -/
def readEpoch {K : Type} (num : Str → Option K) : List Str → Except PyErr (K × Str)
  | [] => .error .indexError
  | w :: ws =>
    match num w with
    | none => .error .valueError
    | some x =>
      match ws with
      | [] => .error .indexError
      | s :: _ => .ok (x, s)

/-- A loop over the lines that keeps what it reads from the last line with a tag; any line that cannot be read ends it.
neocc.py:117-127, 130-133, 137-143. -/
def lastOf {α : Type} (tag : Str) (f : List Str → Except PyErr α) : List Str → Except PyErr (Option α)
  | [] => .ok none
  | l :: ls =>
    if starts tag l then
      match f ((words l).drop 1) with
      | .error e => .error e
      | .ok a =>
        match lastOf tag f ls with
        | .error e => .error e
        | .ok none => .ok (some a)
        | .ok (some b) => .ok (some b)
    else lastOf tag f ls

/-- The numbers of all lines with a tag. neocc.py:158-161, 176-179. -/
def allOf {K : Type} (tag : Str) (num : Str → Option K) : List Str → Except PyErr (List K)
  | [] => .ok []
  | l :: ls =>
    if starts tag l then
      match readAll num ((words l).drop 1) with
      | .error e => .error e
      | .ok xs =>
        match allOf tag num ls with
        | .error e => .error e
        | .ok ys => .ok (xs ++ ys)
    else allOf tag num ls

/-- What is read from a file. neocc.py:39-185. -/
structure Oef (K : Type) where
  header : List (Str × Str)
  id : Option Str
  elements : Option (List K)
  epoch : Option (K × Str)
  magnitude : Option (List K)
  covariance : Option (Nat → Nat → K)

/-- `data.strip().split("\n")`. neocc.py:94. -/
def linesOf (text : Str) : List Str := Ades.splitOn '\n' (Mpc.strip text)

/-- The matrix of the lines with a tag. neocc.py:157-173, 175-183. -/
def matrixOf {K : Type} [Zero K] (tag : Str) (num : Str → Option K) (lines : List Str) : Except PyErr (Option (Nat → Nat → K)) :=
  match allOf tag num lines with
  | .error e => .error e
  | .ok v => Tri.oefCovariance v

/-- `_parse_oef`. neocc.py:39-185. -/
def parse {K : Type} [Zero K] (num : Str → Option K) (text : Str) : Except PyErr (Oef K) :=
  let lines := linesOf text
  match lastOf "KEP".toList (readN num 6) lines with
  | .error e => .error e
  | .ok elements =>
    match lastOf "MJD".toList (readEpoch num) lines with
    | .error e => .error e
    | .ok epoch =>
      match lastOf "MAG".toList (readN num 2) lines with
      | .error e => .error e
      | .ok magnitude =>
        match matrixOf "COV".toList num lines with
        | .error e => .error e
        | .ok covariance =>
          match matrixOf "COR".toList num lines with
          | .error e => .error e
          | .ok _ => .ok ⟨headerOf lines, objectId lines, elements, epoch, magnitude, covariance⟩

/-- What the orbit is made of: name, elements, epoch (a TT date), covariance, and absolute magnitude with slope if there are any.
neocc.py:188-210, 273-297. -/
structure Record (K : Type) where
  id : Str
  elements : List K
  epoch : K
  covariance : Nat → Nat → K
  magnitude : Option (List K)

/-- The checks on a file; `none`: no orbit is added. neocc.py:261-297. -/
def recordOf {K : Type} (d : Oef K) : Except PyErr (Option (Record K)) :=
  match d.epoch with
  | none => .ok none
  | some (t, scale) =>
    if scale ≠ "TDT".toList then .error .valueError
    else match lookup "refsys".toList d.header with
      | none => .error .keyError
      | some r =>
        if r ≠ "ECLM J2000".toList then .error .valueError
        else match d.id, d.elements, d.covariance with
          | some id, some el, some cov => .ok (some ⟨id, el, t, cov, d.magnitude⟩)
          | _, _, _ => .error .keyError

/-- `params["file"]`. neocc.py:240-245, 252-254. -/
def fileName (present : Bool) (object : Str) : Str :=
  object.filter (· ≠ ' ') ++ ".ke".toList ++ (if present then "1".toList else "0".toList)

/-- One object: the request, the reading, the checks and the construction of the orbit (`make`, which may fail). neocc.py:249-298. -/
def one {K Y : Type} [Zero K] (num : Str → Option K) (make : Record K → Except PyErr Y) (server : Str → Except PyErr Str) (present : Bool)
    (object : Str) : Except PyErr (Option Y) :=
  match server (fileName present object) with
  | .error e => .error e
  | .ok text =>
    match parse num text with
    | .error e => .error e
    | .ok d =>
      match recordOf d with
      | .error e => .error e
      | .ok none => .ok none
      | .ok (some r) =>
        match make r with
        | .error e => .error e
        | .ok y => .ok (some y)

/-- The loop over the objects. neocc.py:247-300. -/
def all {K Y : Type} [Zero K] (num : Str → Option K) (make : Record K → Except PyErr Y) (server : Str → Except PyErr Str) (present : Bool) :
    List Str → Except PyErr (List Y)
  | [] => .ok []
  | o :: os =>
    match one num make server present o with
    | .error e => .error e
    | .ok y =>
      match all num make server present os with
      | .error e => .error e
      | .ok ys => .ok (y.toList ++ ys)

/-- `query_neocc`. The server answers by the name of the file; `NotImplementedError` is a RuntimeError. Types other than the two documented
ones are left out. neocc.py:213-300. -/
def query {K Y : Type} [Zero K] (num : Str → Option K) (make : Record K → Except PyErr Y) (server : Str → Except PyErr Str)
    (equinoctial : Bool) (epoch : Str) (objects : List Str) : Except PyErr (List Y) :=
  if equinoctial then .error .runtimeError
  else if epoch = "middle".toList then all num make server false objects
  else if epoch = "present-day".toList then all num make server true objects
  else .error .valueError

end Verif.Neocc
