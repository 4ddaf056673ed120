import Verif.Model.Templates
/-!
# A template that is used while it is parsed in another thread

`Template.parse` appends the substitutions to the list of the template one by one and stores the text at the end. `substitute`,
`serialize` and `get_undictionaried_words` iterate over the same list, one look at a time, and look at the stored text once. The dictionary and
the externals are not changed here.
-/

namespace Utg
open Py

/-- A call of `template.parse(text, externals)` (utg/templates.py:157-167): before the next variable, with the text so far; or ended,
with the exception if one was raised. -/
inductive ParsePc where
  | loop (externals : List Str) (rest : List Str) (text : Str)
  | ended (exception : Option PyErr)

/-- `text.replace('%', '%%')`, `findall` (utg/templates.py:159-161): nothing of the template is looked at. -/
def ParsePc.begin (text : Str) (externals : List Str) : ParsePc :=
  let text := replaceChar '%' (str! "%%") text
  .loop externals (findall text) text

/-- One step of `parse`: a substitution is appended (utg/templates.py:163-165), or the text is stored (line 167). -/
def ParsePc.step (U : PyUni) (t : Template) : ParsePc → Template × ParsePc
  | .loop externals (v :: vs) text => match Substitution.parse U v externals with
    | .error e => (t, .ended (some e))
    | .ok s => ({ t with substitutions := t.substitutions ++ [s] }, .loop externals vs (replaceFirst v (str! "%s") text))
  | .loop _ [] text => ({ t with template := some text }, .ended none)
  | .ended e => (t, .ended e)

/-- A call that reads the template. -/
inductive ReadPc where
  /-- `substitute` (utg/templates.py:169-171) before the `i`-th substitution, with the texts so far -/
  | fill (externals : Externals) (i : Nat) (texts : List Str)
  /-- `substitute` before line 172 -/
  | format (externals : Externals) (texts : List Str)
  /-- `substitute` has ended -/
  | filled (externals : Externals) (result : Except PyErr Str)
  /-- `serialize` (utg/templates.py:130-132) at its beginning -/
  | save
  /-- `serialize` before the `i`-th substitution, with the text that was stored when it looked, and the data so far -/
  | saving (template : Option Str) (i : Nat) (substitutions : List SubstitutionData)
  /-- `serialize` has ended -/
  | saved (data : TemplateData)
  /-- `get_undictionaried_words` (utg/templates.py:142-155) before the `i`-th substitution, with the words so far -/
  | ask (externals : List Str) (i : Nat) (words : List Str)
  /-- `get_undictionaried_words` has ended -/
  | asked (externals : List Str) (words : List Str)

/-- One step of a call that reads the template. -/
def ReadPc.step (U : PyUni) (d : Dictionary) (t : Template) : ReadPc → ReadPc
  | .fill ext i texts => match t.substitutions[i]? with
    | none => .format ext texts
    | some s => match s.getText U ext d with
      | .error e => .filled ext (.error e)
      | .ok text => .fill ext (i + 1) (texts ++ [text])
  | .format ext texts => match t.template with
    | none => .filled ext (.error .TypeError)
    | some template => .filled ext (pyFormat U template texts)
  | .filled ext r => .filled ext r
  | .save => .saving t.template 0 []
  | .saving template i subs => match t.substitutions[i]? with
    | none => .saved ⟨template, subs⟩
    | some s => .saving template (i + 1) (subs ++ [s.serialize])
  | .saved data => .saved data
  | .ask ext i words => match t.substitutions[i]? with
    | none => .asked ext words
    | some s => .ask ext (i + 1)
        (if s.id ∈ ext then words else if d.hasWord s.id then words else words ++ [s.id])
  | .asked ext words => .asked ext words

/-- A template object and the calls on it. -/
structure ParseThreads where
  template : Template
  parses : List ParsePc
  reads : List ReadPc

/-- What can happen. -/
inductive ParseEvent where
  /-- `template.parse(text, externals)` begins -/
  | parse (text : Str) (externals : List Str)
  /-- `parse` number `i` makes a step -/
  | runParse (i : Nat)
  /-- `template.substitute(externals, dictionary)` begins -/
  | substitute (externals : Externals)
  /-- `template.serialize()` begins -/
  | serialize
  /-- `template.get_undictionaried_words(externals, dictionary)` begins -/
  | undictionaried (externals : List Str)
  /-- reading call number `i` makes a step -/
  | runRead (i : Nat)

/-- The effect of an event. -/
def ParseThreads.step (U : PyUni) (d : Dictionary) (s : ParseThreads) : ParseEvent → ParseThreads
  | .parse text externals => { s with parses := s.parses ++ [.begin text externals] }
  | .runParse i => match s.parses[i]? with
    | none => s
    | some pc => { s with template := (pc.step U s.template).1, parses := s.parses.set i (pc.step U s.template).2 }
  | .substitute externals => { s with reads := s.reads ++ [.fill externals 0 []] }
  | .serialize => { s with reads := s.reads ++ [.save] }
  | .undictionaried externals => { s with reads := s.reads ++ [.ask externals 0 []] }
  | .runRead i => match s.reads[i]? with
    | none => s
    | some pc => { s with reads := s.reads.set i (pc.step U d s.template) }

/-- The system after a schedule that begins with `Template()`. -/
def ParseThreads.after (U : PyUni) (d : Dictionary) (events : List ParseEvent) : ParseThreads :=
  events.foldl (ParseThreads.step U d) ⟨Template.empty, [], []⟩

end Utg
