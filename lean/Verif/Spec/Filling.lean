import Verif.Model.Filling
import Verif.Spec.Threads
import Verif.Spec.Templates
/-! # What filling templates while words are added should give -/

namespace Utg.Spec
open Py

/-- The registrations in a schedule. -/
def registrations : List FillEvent → List DictEvent
  | [] => []
  | .dict e :: es => e :: registrations es
  | _ :: es => registrations es

/-- The dictionary after the first `n` events. -/
def dictionaryAt (d : Dictionary) (events : List FillEvent) (n : Nat) : Dictionary :=
  (dictionaryAfter d (registrations (events.take n))).dictionary

/-- The calls of `substitute` in a schedule, each with the position of its beginning. -/
def callsFrom (n : Nat) : List FillEvent → List (Nat × Template × Externals)
  | [] => []
  | .fill t externals :: es => (n, t, externals) :: callsFrom (n + 1) es
  | _ :: es => callsFrom (n + 1) es

/-- How many steps call `i` is given. -/
def turnsOf (i : Nat) : List FillEvent → Nat
  | [] => 0
  | .turn j :: es => (if j = i then 1 else 0) + turnsOf i es
  | _ :: es => turnsOf i es

/-- The text of a template if each variable is looked up in a dictionary of its own. -/
def fillWith (U : PyUni) (t : Template) (externals : Externals) (ds : List Dictionary) : Except PyErr Str := do
  let texts ← (t.substitutions.zip ds).mapM fun p => p.1.getText U externals p.2
  match t.template with
  | none => .error .TypeError
  | some template => pyFormat U template texts

end Utg.Spec
