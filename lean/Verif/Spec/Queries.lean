import Verif.Model.Queries
import Verif.Spec.Threads
import Verif.Spec.Templates
/-! # What asking a dictionary while words are added should give -/

namespace Utg.Spec
open Py

/-- The registrations in a schedule. -/
def registering : List QueryEvent → List DictEvent
  | [] => []
  | .dict e :: es => e :: registering es
  | _ :: es => registering es

/-- The dictionary after the first `n` events. -/
def dictionaryWhen (d : Dictionary) (events : List QueryEvent) (n : Nat) : Dictionary :=
  (dictionaryAfter d (registering (events.take n))).dictionary

/-- The requests in a schedule, each with the position of its beginning. -/
def asked (n : Nat) : List QueryEvent → List (Nat × Query)
  | [] => []
  | .ask q :: es => (n, q) :: asked (n + 1) es
  | _ :: es => asked (n + 1) es

/-- How many steps request `i` is given. -/
def turnsGiven (i : Nat) : List QueryEvent → Nat
  | [] => 0
  | .turn j :: es => (if j = i then 1 else 0) + turnsGiven i es
  | _ :: es => turnsGiven i es

/-- How many steps a request needs if the dictionary does not get more than `n` texts: making the iterator, one for each text and one to
find the end; one for each variable and one to return. -/
def turnsNeeded (n : Nat) : Query → Nat
  | .words => n + 2
  | .check t _ => t.substitutions.length + 1

/-- A proper dictionary: no text twice, and words with a form for every slot. -/
def ProperDictionary (d : Dictionary) : Prop := (Dict.keys d).Nodup ∧ ∀ x f, (x, f) ∈ d → Accepted f.word

end Utg.Spec
