import Verif.Model.LexReads
/-! # What asking a lexicon while templates are added should give -/

namespace Utg.Spec
open Py

variable {K T R : Type} [DecidableEq K] [DecidableEq R]

/-- The steps of `add_template` in a schedule. -/
def additions : List (AskEvent K T R) → List (LexEvent K T R)
  | [] => []
  | .lex e :: es => e :: additions es
  | _ :: es => additions es

/-- The lexicon and the calls of `add_template` after the first `n` events. -/
def lexAt (events : List (AskEvent K T R)) (n : Nat) : LexThreads K T R := LexThreads.after (additions (events.take n))

/-- A shared lexicon as a plain one: each key with the templates it has now. -/
def snapshot (l : SharedLexicon K T R) : Lexicon K T R := l.data.map fun p => (p.1, l.lists[p.2]?.getD [])

/-- The requests in a schedule, each with the position of its beginning. -/
def requestsFrom (n : Nat) : List (AskEvent K T R) → List (Nat × Request K R)
  | [] => []
  | .ask q :: es => (n, q) :: requestsFrom (n + 1) es
  | _ :: es => requestsFrom (n + 1) es

/-- How many steps request `i` is given. -/
def turnsAsked (i : Nat) : List (AskEvent K T R) → Nat
  | [] => 0
  | .turn j :: es => (if j = i then 1 else 0) + turnsAsked i es
  | _ :: es => turnsAsked i es

/-- How many templates are to be added in a schedule. -/
def additionsBegun : List (AskEvent K T R) → Nat
  | [] => 0
  | .lex (.call _) :: es => additionsBegun es + 1
  | _ :: es => additionsBegun es

/-- Whenever a second call of `add_template` for the key has begun, the first one has finished. -/
def FirstAlone (key : K) (events : List (LexEvent K T R)) : Prop :=
  ∀ before later, events = before ++ later → ∀ c rest,
    (LexThreads.after before).threads.filter (fun x => decide (x.1.key = key)) = c :: rest → rest ≠ [] → c.2 = .done

end Utg.Spec
