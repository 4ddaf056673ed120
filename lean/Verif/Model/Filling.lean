import Verif.Model.Threads
import Verif.Model.Templates
/-!
# Filling templates while words are added in other threads

A call of `Template.substitute` looks at the dictionary once for every variable that is no external (`self._data.get(text)`,
utg/dictionary.py:57). Everything else it does depends on the words, the externals and the template only, which nobody changes here, so
one variable is one step. Registering word forms is modelled in `Verif.Model.Threads`.
-/

namespace Utg
open Py

/-- A call of `template.substitute(externals, dictionary)` (utg/templates.py:169-172): the variables to come, the texts so far, and
the result. -/
structure Fill where
  template : Template
  externals : Externals
  pending : List Substitution
  texts : List Str
  result : Option (Except PyErr Str)

/-- The call begins. -/
def Fill.begin (t : Template) (externals : Externals) : Fill := ⟨t, externals, t.substitutions, [], none⟩

/-- One step: the text of the next variable (utg/templates.py:170-171), or the final text (line 172). -/
def Fill.step (U : PyUni) (d : Dictionary) (c : Fill) : Fill :=
  match c.result, c.pending with
  | some _, _ => c
  | none, s :: ss => match s.getText U c.externals d with
    | .ok text => { c with pending := ss, texts := c.texts ++ [text] }
    | .error e => { c with result := some (.error e) }
  | none, [] => match c.template.template with
    | none => { c with result := some (.error .TypeError) }
    | some template => { c with result := some (pyFormat U template c.texts) }

/-- A dictionary, the word forms being registered, and the templates being filled. -/
structure Filling where
  dict : DictThreads
  fills : List Fill

/-- What can happen. -/
inductive FillEvent where
  /-- a word form is registered: begin or step -/
  | dict (e : DictEvent)
  /-- `template.substitute(externals, dictionary)` begins -/
  | fill (t : Template) (externals : Externals)
  /-- call number `i` makes a step -/
  | turn (i : Nat)

/-- The effect of an event. -/
def Filling.step (U : PyUni) (s : Filling) : FillEvent → Filling
  | .dict e => { s with dict := s.dict.step e }
  | .fill t externals => { s with fills := s.fills ++ [Fill.begin t externals] }
  | .turn i => { s with fills := s.fills.modify i (Fill.step U s.dict.dictionary) }

/-- The system after a schedule that begins with the dictionary `d`. -/
def Filling.after (U : PyUni) (d : Dictionary) (events : List FillEvent) : Filling := events.foldl (Filling.step U) ⟨⟨d, []⟩, []⟩

end Utg
