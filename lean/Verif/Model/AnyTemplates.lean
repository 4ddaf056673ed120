import Verif.Model.AnyJson
/-!
# A template loaded from any JSON document, in use

`substitute` and `get_undictionaried_words` of templates whose text and whose ids are whatever `json.loads` gave. The keys of `externals` and of
the dictionary are texts, as elsewhere.
-/

namespace Utg
open Py

/-- What can be raised. -/
inductive UseErr where
  | TypeError
  /-- utg/exceptions.py:34-35, raised at utg/dictionary.py:60, with a text that is none -/
  | NoWordsFoundError (id : Json)
  /-- anything that is raised for proper templates -/
  | other (e : PyErr)

/-- `x in d` for a dictionary (utg/templates.py:94,147, utg/dictionary.py:52,56): lists and objects have no hash. -/
def Json.hashable : Json → Bool
  | .arr _ => false
  | .obj _ => false
  | _ => true

/-- `substitution.get_text(externals, dictionary)` (utg/templates.py:92-115): the id is looked up in `externals` and then in the dictionary,
where only texts are found. -/
def LoadedSubstitution.getText (U : PyUni) (externals : Externals) (dictionary : Dictionary) (s : LoadedSubstitution) : Except UseErr Str :=
  if s.id.hashable then
    match s.id with
    | .str name => match Substitution.getText U ⟨name, s.dependencies⟩ externals dictionary with
      | .error e => .error (.other e)
      | .ok text => .ok text
    | id => .error (.NoWordsFoundError id)
  else .error .TypeError

/-- `template.substitute(externals, dictionary)` (utg/templates.py:169-172): only a text can be formatted with the operator `%` and a tuple. -/
def LoadedTemplate.substitute (U : PyUni) (t : LoadedTemplate) (externals : Externals) (dictionary : Dictionary) : Except UseErr Str := do
  let texts ← t.substitutions.mapM (LoadedSubstitution.getText U externals dictionary)
  match t.template with
  | .str template => match pyFormat U template texts with
    | .error e => .error (.other e)
    | .ok text => .ok text
  | _ => .error .TypeError

/-- The loop of `get_undictionaried_words` (utg/templates.py:142-155). -/
def undictionariedLoop (externals : List Str) (dictionary : Dictionary) : List LoadedSubstitution → Except UseErr (List Json)
  | [] => .ok []
  | s :: rest =>
    if s.id.hashable then
      match s.id with
      | .str name =>
        if name ∈ externals then undictionariedLoop externals dictionary rest
        else if dictionary.hasWord name then undictionariedLoop externals dictionary rest
        else do .ok (.str name :: (← undictionariedLoop externals dictionary rest))
      | id => do .ok (id :: (← undictionariedLoop externals dictionary rest))
    else .error .TypeError

/-- `template.get_undictionaried_words(externals, dictionary)` (utg/templates.py:142-155). -/
def LoadedTemplate.getUndictionariedWords (t : LoadedTemplate) (externals : List Str) (dictionary : Dictionary) : Except UseErr (List Json) :=
  undictionariedLoop externals dictionary t.substitutions

end Utg
