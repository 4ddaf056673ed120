import Verif.Model.Threads
import Verif.Model.Templates
/-!
# Asking a dictionary while words are added in other threads

`Dictionary.get_words` walks over the dictionary (`self._data.values()`, utg/dictionary.py:65); CPython's iterator of a dictionary
remembers the number of items and raises `RuntimeError` as soon as it finds another number. `Template.get_undictionaried_words` looks at
the dictionary once for every variable that is no external. Registering word forms is modelled in `Verif.Model.Threads`.
-/

namespace Utg
open Py

/-- What is asked. -/
inductive Query where
  /-- `dictionary.get_words()` (utg/dictionary.py:64-65) -/
  | words
  /-- `template.get_undictionaried_words(externals, dictionary)` (utg/templates.py:142-155) -/
  | check (t : Template) (externals : List Str)

/-- Where a request is. -/
inductive QueryPC where
  /-- before the iterator of `self._data.values()` is made (utg/dictionary.py:65) -/
  | begun
  /-- before the next item is fetched: the number of items the iterator remembers, its position, the set so far -/
  | next (size position : Nat) (seen : List Word)
  /-- `get_words` has returned -/
  | listed (words : List Word)
  /-- `RuntimeError: dictionary changed size during iteration` -/
  | changed
  /-- before the look at the dictionary for the next variable (utg/templates.py:145-153): variables to come, words so far -/
  | checking (externals : List Str) (pending : List Substitution) (missing : List Str)
  /-- `get_undictionaried_words` has returned -/
  | checked (missing : List Str)
  deriving DecidableEq

/-- A request begins. -/
def Query.begin : Query → QueryPC
  | .words => .begun
  | .check t externals => .checking externals t.substitutions []

/-- One step of a request. -/
def QueryPC.step (d : Dictionary) : QueryPC → QueryPC
  | .begun => .next d.length 0 []
  | .next size position seen =>
    if d.length ≠ size then .changed
    else match d[position]? with
      | some entry => .next size (position + 1) (setAdd seen entry.2.word)
      | none => .listed seen
  | .listed ws => .listed ws
  | .changed => .changed
  | .checking externals [] missing => .checked missing
  | .checking externals (s :: ss) missing =>
    if s.id ∈ externals then .checking externals ss missing
    else if d.hasWord s.id then .checking externals ss missing
    else .checking externals ss (missing ++ [s.id])
  | .checked missing => .checked missing

/-- A dictionary, the word forms being registered, and the requests. -/
structure Queries where
  dict : DictThreads
  requests : List QueryPC

/-- What can happen. -/
inductive QueryEvent where
  /-- a word form is registered: begin or step -/
  | dict (e : DictEvent)
  /-- a request begins -/
  | ask (q : Query)
  /-- request number `i` makes a step -/
  | turn (i : Nat)

/-- The effect of an event. -/
def Queries.step (s : Queries) : QueryEvent → Queries
  | .dict e => { s with dict := s.dict.step e }
  | .ask q => { s with requests := s.requests ++ [q.begin] }
  | .turn i => { s with requests := s.requests.modify i (QueryPC.step s.dict.dictionary) }

/-- The system after a schedule that begins with the dictionary `d`. -/
def Queries.after (d : Dictionary) (events : List QueryEvent) : Queries := events.foldl Queries.step ⟨⟨d, []⟩, []⟩

end Utg
