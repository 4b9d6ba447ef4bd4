import Verif.Scout.Model
import Verif.Obs80.Spec

/-! # What queries to Scout are compared with -/

namespace Verif.Scout

/-- A failure worth another attempt: no status at all, 429, or 500 and above. -/
def Transient : Option Nat → Prop
  | none => True
  | some s => s = 429 ∨ 500 ≤ s

/-- A reply after which another request is sent if the limit allows it. -/
def Again {J : Type} (r : Reply J) : Prop := ∃ s, r = .failed s ∧ Transient s

/-- The result that belongs to the last reply. -/
def Ends {J : Type} : Reply J → Except Fail J → Prop
  | .json j, r => r = .ok j
  | .failed s, r => r = .error (.request s)
  | .foreign, r => r = .error .foreign

/-- A message that says the object is gone, or that the service is busy. -/
def SaysGone (text : Str) : Prop :=
  "not found".toList <:+: text ∨ "no object".toList <:+: text ∨ "does not exist".toList <:+: text ∨
    "unknown object".toList <:+: text ∨ "invalid designation".toList <:+: text

def SaysBusy (text : Str) : Prop :=
  "temporar".toList <:+: text ∨ "service unavailable".toList <:+: text ∨ "timeout".toList <:+: text ∨
    "try again".toList <:+: text ∨ "rate limit".toList <:+: text ∨ "internal server".toList <:+: text

/-- The signature names version 1.3, as text or as a number. -/
def Signed {C : Type} (o : Obj C) : Prop := ∃ v s, o.signature = some (v, s) ∧ shown v = "1.3".toList

/-- The sample that a row of an answer describes: the fields are number, epoch, e, q, tp, node, argument, inclination. -/
def Reads {C V : Type} (cells : Cells C V) (row : List C) (s : Sample C V) : Prop :=
  row[0]? = some s.idx ∧ row[1]?.bind cells.number = some s.epoch ∧ row[2]?.bind cells.number = some s.e ∧
    row[3]?.bind cells.number = some s.q ∧ row[4]?.bind cells.number = some s.tp ∧ row[5]?.bind cells.number = some s.raan ∧
    row[6]?.bind cells.number = some s.ap ∧ row[7]?.bind cells.number = some s.i

/-- An answer whose first fifteen fields have the types they must have; one row has no more fields than that. -/
def WellFormed {C V : Type} (cells : Cells C V) (rows : List (List C)) : Prop :=
  (∀ r ∈ rows, 15 ≤ r.length) ∧ (∃ r ∈ rows, r.length = 15) ∧ ∀ r ∈ rows, ∀ k < 15, ∀ c, r[k]? = some c → cells.fits k c = true

/-- Every number in every row can be read. -/
def Numbers {C V : Type} (cells : Cells C V) (rows : List (List C)) : Prop := ∀ r ∈ rows, ∃ s, Reads cells r s

/-- The request number `k` was for `a` and its answer gave the rows `part`. -/
def Served {I C R : Type} (reply : I → Nat → Reply (Payload C)) (rowsOf : I → Obj C → Except Err (List R)) (a : I) (k : Nat)
    (part : List R) : Prop :=
  ∃ o, reply a k = .json (.object o) ∧ o.error = none ∧ rowsOf a o = .ok part

/-- The exception that belongs to the last reply for `a`. -/
inductive Refused {I C R : Type} (fold : Str → Str) (rowsOf : I → Obj C → Except Err (List R)) (a : I) :
    Reply (Payload C) → Err → Prop
  | gone : Refused fold rowsOf a (.failed (some 404)) .notFound
  | busy (s : Option Nat) : Transient s → Refused fold rowsOf a (.failed s) .unavailable
  | other (s : Nat) : s ≠ 404 → ¬ Transient (some s) → Refused fold rowsOf a (.failed (some s)) .query
  | foreign : Refused fold rowsOf a .foreign .escaped
  | notObject : Refused fold rowsOf a (.json .notObject) .response
  | saysGone (o : Obj C) (d : Str) : o.error = some d → SaysGone (fold d) → Refused fold rowsOf a (.json (.object o)) .notFound
  | saysBusy (o : Obj C) (d : Str) : o.error = some d → ¬ SaysGone (fold d) → SaysBusy (fold d) →
      Refused fold rowsOf a (.json (.object o)) .unavailable
  | says (o : Obj C) (d : Str) : o.error = some d → ¬ SaysGone (fold d) → ¬ SaysBusy (fold d) →
      Refused fold rowsOf a (.json (.object o)) .response
  | content (o : Obj C) (e : Err) : o.error = none → rowsOf a o = .error e → Refused fold rowsOf a (.json (.object o)) e

/-- A value that a text column takes, and what it holds then. -/
def Text : Field → Option Str → Prop
  | .null, t => t = none
  | .text s, t => t = some s
  | .other _, _ => False

/-- The declared number of observations: missing and unreadable ones are null. -/
def Declared : Count → Option Int → Prop
  | .null, n => n = none
  | .unreadable, n => n = none
  | .escapes, _ => False
  | .number k, n => -2 ^ 63 ≤ k ∧ k < 2 ^ 63 ∧ n = some k

/-- The file is there, every line that is not blank is an observation, there is one, and all are of the object. -/
def Snapshot {C : Type} (object : Str) (o : Obj C) (hash : Str) (obs : List Obs80.Obs) : Prop :=
  ∃ lines, o.file = some (lines, hash) ∧
    List.Forall₂ (fun p r => Obs80.parseLine p.2 = .ok r) (Obs80.Spec.nonBlank 1 lines) obs ∧ obs ≠ [] ∧
    ∀ r ∈ obs, r.designation = object

end Verif.Scout
