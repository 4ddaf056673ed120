import Verif.Model.Dictionary
import Verif.Model.Transformators
/-!
# `utg/templates.py`
-/

namespace Utg
open Py

/-- A dependency of a substitution: the name of an external, or properties (utg/templates.py:48,50,53). -/
inductive Dep where
  | ext (name : Str)
  | props (p : Properties)
  deriving DecidableEq, Repr

/-- `Substitution` (utg/templates.py:15-20). -/
structure Substitution where
  id : Str
  dependencies : List Dep
  deriving DecidableEq, Repr

/-- A serialized dependency (utg/templates.py:24). -/
inductive DepData where
  | ext (name : Str)
  | props (data : Dict JKey Int)
  deriving DecidableEq, Repr

/-- A serialized substitution (utg/templates.py:23-24). -/
structure SubstitutionData where
  id : Str
  dependencies : List DepData
  deriving DecidableEq, Repr

/-- One item of the comprehension in `Substitution.serialize` (utg/templates.py:24). -/
def Dep.serialize : Dep → DepData
  | .ext n => .ext n
  | .props p => .props p.serialize

/-- `s.serialize()` (utg/templates.py:22-24). -/
def Substitution.serialize (s : Substitution) : SubstitutionData := ⟨s.id, s.dependencies.map Dep.serialize⟩

/-- One item of the comprehension in `Substitution.deserialize` (utg/templates.py:30). -/
def DepData.deserialize : DepData → Except PyErr Dep
  | .ext n => .ok (.ext n)
  | .props d => do .ok (.props (← Properties.deserialize d))

/-- `Substitution.deserialize(data)` (utg/templates.py:26-32). -/
def Substitution.deserialize (data : SubstitutionData) : Except PyErr Substitution := do
  .ok ⟨data.id, ← data.dependencies.mapM DepData.deserialize⟩

/-- The loop of `Substitution.parse_properties` (utg/templates.py:62-72). `slug.strip()` on line 64 discards its result. -/
def parsePropertiesLoop : List Str → Except PyErr (List Rec)
  | [] => .ok []
  | slug :: slugs =>
    if slug = [] then parsePropertiesLoop slugs
    else match verboseToProperties.get? slug with
      | none => .error (.UnknownVerboseIdError slug)
      | some r => do .ok (r :: (← parsePropertiesLoop slugs))

/-- `Substitution.parse_properties(text)` (utg/templates.py:60-74). -/
def parseProperties (text : Str) : Except PyErr Properties := do
  let rs ← parsePropertiesLoop (split ',' text)
  .ok (.new (rs.map .record))

/-- One round of the loop in `Substitution.parse` (utg/templates.py:45-50). -/
def parseDependency (U : PyUni) (externals : List Str) (slug : Str) : Except PyErr Dep :=
  let slug := strip U (U.lower slug)
  if slug ∈ externals then .ok (.ext slug)
  else do .ok (.props (← parseProperties slug))

/-- `Substitution.parse(variable, externals)` (utg/templates.py:34-57). -/
def Substitution.parse (U : PyUni) (variable_ : Str) (externals : List Str) : Except PyErr Substitution :=
  match split '|' (slice1m1 variable_) with
  | [] => .error .IndexError                 -- `slugs[0]`; unreachable, `split` is never empty
  | head :: slugs =>
    if head = [] then .error (.WrongDependencyFormatError variable_)
    else do
      let id := strip U head
      let deps ← slugs.mapM (parseDependency U externals)
      let c ← Py.first id                    -- line 52: `s.id[0]`
      let deps := if U.isUpper c then deps ++ [.props (.new [.record .WORD_CASE_UPPER])] else deps
      .ok ⟨U.lower id, deps⟩

/-- The externals given to `substitute`: name ↦ word form. -/
abbrev Externals := Dict Str WordForm

/-- `s._list_propeties(externals)` (utg/templates.py:77-93). A `Properties` dependency is never a key of `externals`: it is
not equal to a string. -/
def listProperties (externals : Externals) : List Dep → Except PyErr (List Properties × List WordForm)
  | [] => .ok ([], [])
  | .ext n :: deps =>
    match externals.get? n with
    | none => .error (.ExternalDependecyNotFoundError n)
    | some f => do
      let (ps, fs) ← listProperties externals deps
      .ok (f.properties :: ps, f :: fs)
  | .props p :: deps => do
    let (ps, fs) ← listProperties externals deps
    .ok (p :: ps, fs)

/-- The base form of a substitution (utg/templates.py:98-102). -/
def Substitution.baseForm (s : Substitution) (externals : Externals) (dictionary : Dictionary) : Except PyErr WordForm :=
  match externals.get? s.id with
  | some f => .ok f
  | none => dictionary.getWord s.id

/-- `s.get_text(externals, dictionary)` (utg/templates.py:96-116). -/
def Substitution.getText (U : PyUni) (s : Substitution) (externals : Externals) (dictionary : Dictionary) :
    Except PyErr Str := do
  let baseForm ← s.baseForm externals dictionary
  let (propertiesList, externalWords) ← listProperties externals s.dependencies
  let properties := baseForm.properties.clone ((propertiesList ++ [baseForm.word.properties]).map .props)
  let formProperties ← externalWords.foldlM (fun ps external => transform U baseForm.word ps external) properties
  WordForm.getForm U baseForm.word formProperties

/-- Equality of dependencies, part of `s == t` (utg/templates.py:118-120). -/
def Dep.eq : Dep → Dep → Bool
  | .ext a, .ext b => decide (a = b)
  | .props p, .props q => p.eq q
  | _, _ => false

/-- Equality of lists of dependencies, part of `s == t` (utg/templates.py:118-120). -/
def depsEq : List Dep → List Dep → Bool
  | [], [] => true
  | a :: as, b :: bs => a.eq b && depsEq as bs
  | _, _ => false

/-- `s == t` (utg/templates.py:118-120). -/
def Substitution.eq (s t : Substitution) : Bool := decide (s.id = t.id) && depsEq s.dependencies t.dependencies

/-- `Template` (utg/templates.py:123-128). -/
structure Template where
  substitutions : List Substitution
  template : Option Str
  deriving DecidableEq, Repr

/-- `Template()` (utg/templates.py:126-128). -/
def Template.empty : Template := ⟨[], none⟩

/-- A serialized template (utg/templates.py:131-132). -/
structure TemplateData where
  template : Option Str
  substitutions : List SubstitutionData
  deriving DecidableEq, Repr

/-- `t.serialize()` (utg/templates.py:130-132). -/
def Template.serialize (t : Template) : TemplateData := ⟨t.template, t.substitutions.map Substitution.serialize⟩

/-- `Template.deserialize(data)` (utg/templates.py:134-140). -/
def Template.deserialize (data : TemplateData) : Except PyErr Template := do
  .ok ⟨← data.substitutions.mapM Substitution.deserialize, data.template⟩

/-- `t.get_undictionaried_words(externals, dictionary)` (utg/templates.py:142-155). -/
def Template.getUndictionariedWords (t : Template) (externals : List Str) (dictionary : Dictionary) : List Str :=
  t.substitutions.filterMap fun s =>
    if s.id ∈ externals then none
    else if dictionary.hasWord s.id then none
    else some s.id

/-- The loop of `Template.parse` (utg/templates.py:163-165): the list of substitutions as the loop leaves it, and the final
text or the exception. -/
def parseLoop (U : PyUni) (externals : List Str) : List Str → List Substitution → Str → List Substitution × Except PyErr Str
  | [], subs, text => (subs, .ok text)
  | v :: vs, subs, text =>
    match Substitution.parse U v externals with
    | .error e => (subs, .error e)
    | .ok s => parseLoop U externals vs (subs ++ [s]) (replaceFirst v (str! "%s") text)

/-- `t.parse(text, externals)` (utg/templates.py:157-167): the object afterwards and the exception raised, if any. -/
def Template.parseState (U : PyUni) (t : Template) (text : Str) (externals : List Str) : Template × Option PyErr :=
  let text := replaceChar '%' (str! "%%") text
  match parseLoop U externals (findall text) t.substitutions text with
  | (subs, .ok text) => (⟨subs, some text⟩, none)
  | (subs, .error e) => (⟨subs, t.template⟩, some e)

/-- `t.parse(text, externals)` (utg/templates.py:157-167): the object afterwards if nothing is raised. -/
def Template.parse (U : PyUni) (t : Template) (text : Str) (externals : List Str) : Except PyErr Template :=
  match t.parseState U text externals with
  | (t', none) => .ok t'
  | (_, some e) => .error e

/-- `t.substitute(externals, dictionary)` (utg/templates.py:169-172). `None % (...)` is a `TypeError`. -/
def Template.substitute (U : PyUni) (t : Template) (externals : Externals) (dictionary : Dictionary) :
    Except PyErr Str := do
  let texts ← t.substitutions.mapM fun s => s.getText U externals dictionary
  match t.template with
  | none => .error .TypeError
  | some template => pyFormat U template texts

/-- Equality of lists of substitutions, part of `t == u` (utg/templates.py:174-176). -/
def subsEq : List Substitution → List Substitution → Bool
  | [], [] => true
  | a :: as, b :: bs => a.eq b && subsEq as bs
  | _, _ => false

/-- `t == u` (utg/templates.py:174-176). -/
def Template.eq (t u : Template) : Bool := subsEq t.substitutions u.substitutions && decide (t.template = u.template)

end Utg
