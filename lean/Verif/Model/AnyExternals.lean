import Verif.Model.Templates
/-!
# `utg/templates.py`: externals that are no word forms

`substitute` takes a dictionary of externals and does not check what is in it. Here its values are word forms, words (which have the
attribute `properties` but not `word`), or other objects (numbers, strings, `None`: neither attribute).
-/

namespace Utg
open Py

/-- What is given for a name. -/
inductive Given where
  | form (f : WordForm)
  | word (w : Word)
  | other
  deriving DecidableEq

/-- `x.properties` (utg/templates.py:83). -/
def Given.properties : Given → Except PyErr Properties
  | .form f => .ok f.properties
  | .word w => .ok w.properties
  | .other => .error .AttributeError

/-- The first use of `x.word` (utg/templates.py:106, utg/transformators.py:10): only word forms have it. -/
def Given.asForm : Given → Except PyErr WordForm
  | .form f => .ok f
  | .word _ => .error .AttributeError
  | .other => .error .AttributeError

/-- Externals as a program may give them. -/
abbrev AnyExternals := Dict Str Given

/-- `s._list_propeties(externals)` (utg/templates.py:77-93). -/
def listPropertiesAny (externals : AnyExternals) : List Dep → Except PyErr (List Properties × List Given)
  | [] => .ok ([], [])
  | .ext n :: deps =>
    match externals.get? n with
    | none => .error (.ExternalDependecyNotFoundError n)
    | some x => do
      let p ← x.properties
      let (ps, xs) ← listPropertiesAny externals deps
      .ok (p :: ps, x :: xs)
  | .props p :: deps => do
    let (ps, xs) ← listPropertiesAny externals deps
    .ok (p :: ps, xs)

/-- The base form of a substitution (utg/templates.py:98-102). -/
def Substitution.baseAny (s : Substitution) (externals : AnyExternals) (dictionary : Dictionary) : Except PyErr Given :=
  match externals.get? s.id with
  | some x => .ok x
  | none => do .ok (.form (← dictionary.getWord s.id))

/-- `s.get_text(externals, dictionary)` (utg/templates.py:96-116). -/
def Substitution.getTextAny (U : PyUni) (s : Substitution) (externals : AnyExternals) (dictionary : Dictionary) : Except PyErr Str := do
  let base ← s.baseAny externals dictionary
  let (propertiesList, given) ← listPropertiesAny externals s.dependencies
  let baseForm ← base.asForm                                                       -- line 106: `base_form.word`
  let properties := baseForm.properties.clone ((propertiesList ++ [baseForm.word.properties]).map .props)
  let formProperties ← given.foldlM (fun ps x => do
    let f ← x.asForm                                                               -- transformators.py:10: `master_form.word`
    transform U baseForm.word ps f) properties
  WordForm.getForm U baseForm.word formProperties

/-- `t.substitute(externals, dictionary)` (utg/templates.py:169-172). -/
def Template.substituteAny (U : PyUni) (t : Template) (externals : AnyExternals) (dictionary : Dictionary) : Except PyErr Str := do
  let texts ← t.substitutions.mapM fun s => s.getTextAny U externals dictionary
  match t.template with
  | none => .error .TypeError
  | some template => pyFormat U template texts

end Utg
