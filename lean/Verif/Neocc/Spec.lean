import Verif.Neocc.Model
import Verif.Ades.Spec

/-! # What an OEF file says

A document and its text, as in the example in the documentation of the reader: header lines with an entry, an optional pair of quotes and a
comment, the end of the header, the name of the object, then comment lines and records. The number of blanks is free everywhere. -/

namespace Verif.Neocc.Spec

open Verif Verif.Neocc

/-- A header line. -/
structure Entry where
  key : Str
  value : Str
  quoted : Bool
  comment : Str
  blanks : Nat × Nat × Nat

/-- A line after the name: a comment, or a tag with words, each with the number of blanks (less one) before it. -/
inductive Line
  | comment (text : Str)
  | record (blanks : Nat) (tag : Str) (values : List (Nat × Str))

structure Document where
  header : List Entry
  name : Str
  body : List Line

def blank (n : Nat) : Str := List.replicate n ' '

def quote (e : Entry) : Str := if e.quoted then '\'' :: e.value ++ ['\''] else e.value

def Entry.text (e : Entry) : Str :=
  e.key ++ blank e.blanks.1 ++ '=' :: (blank e.blanks.2.1 ++ quote e ++ blank e.blanks.2.2 ++ '!' :: e.comment)

def Line.text : Line → Str
  | .comment t => '!' :: t
  | .record n tag vs => blank (n + 1) ++ tag ++ vs.flatMap fun v => blank (v.1 + 1) ++ v.2

def Document.lines (d : Document) : List Str :=
  d.header.map Entry.text ++ ["END_OF_HEADER".toList, d.name] ++ d.body.map Line.text

/-- The text, with any white space after the last line. -/
def Document.text (d : Document) (tail : Str) : Str := Ades.join '\n' d.lines ++ tail

/-- The words of the records with a tag, in order. -/
def Document.records (d : Document) (tag : Str) : List (List Str) :=
  d.body.filterMap fun l => match l with
    | .comment _ => none
    | .record _ t vs => if t = tag then some (vs.map Prod.snd) else none

/-- A word: not empty, no white space. -/
def Word (w : Str) : Prop := w ≠ [] ∧ ∀ c ∈ w, Mpc.isSpace c = false

/-- The tags the reader looks for. -/
def tags : List Str := ["KEP".toList, "MJD".toList, "MAG".toList, "COV".toList, "COR".toList]

/-- A header line of the format: its key is (or begins with) one of the three names, and the parts can be told apart. -/
structure Entry.Ok (e : Entry) : Prop where
  name : ∃ p ∈ ["format".toList, "rectype".toList, "refsys".toList], p <+: e.key
  key : Ades.Trim e.key ∧ '=' ∉ e.key ∧ '\n' ∉ e.key
  value : Ades.Trim e.value ∧ e.value ≠ [] ∧ '!' ∉ e.value ∧ '\n' ∉ e.value ∧ e.value.head? ≠ some '\'' ∧ e.value.getLast? ≠ some '\''
  comment : Ades.Trim ('!' :: e.comment) ∧ '\n' ∉ e.comment

def Line.Ok : Line → Prop
  | .comment t => Ades.Trim ('!' :: t) ∧ '\n' ∉ t
  | .record _ tag vs => Word tag ∧ tag.head? ≠ some '!' ∧ (∀ v ∈ vs, Word v.2) ∧ ∀ k ∈ tags, k <+: tag → tag = k

/-- A document of the format. -/
structure Document.Ok (d : Document) : Prop where
  header : ∀ e ∈ d.header, e.Ok
  name : Ades.Trim d.name ∧ d.name ≠ [] ∧ '\n' ∉ d.name ∧ ∀ p ∈ notName ++ tags, ¬ p <+: d.name
  body : ∀ l ∈ d.body, l.Ok

/-- The first `n` words are there and are these numbers. -/
def First {K : Type} (num : Str → Option K) (n : Nat) (vs : List Str) (xs : List K) : Prop :=
  xs.length = n ∧ ∀ i < n, ∃ v x, vs[i]? = some v ∧ xs[i]? = some x ∧ num v = some x

/-- All words are these numbers. -/
def Every {K : Type} (num : Str → Option K) (vs : List Str) (xs : List K) : Prop := List.Forall₂ (fun v x => num v = some x) vs xs

/-- A date and the name of a time scale. -/
def Date {K : Type} (num : Str → Option K) (vs : List Str) (t : K × Str) : Prop :=
  ∃ v, vs[0]? = some v ∧ num v = some t.1 ∧ vs[1]? = some t.2

/-- The matrix of the numbers of an upper triangle, row by row, of six or of seven parameters; of seven, the last is left out. -/
def Triangle {K : Type} (v : List K) (m : Option (Nat → Nat → K)) : Prop :=
  (v = [] ∧ m = none) ∨
  ∃ full, m = some full ∧ (∀ i < 6, ∀ j < 6, full i j = full j i) ∧
    ((v.length = 21 ∧ ∀ i < 6, ∀ j < 6, i ≤ j → v[i * (11 - i) / 2 + j]? = some (full i j)) ∨
     (v.length = 28 ∧ ∀ i < 6, ∀ j < 6, i ≤ j → v[i * (13 - i) / 2 + j]? = some (full i j)))

end Verif.Neocc.Spec
