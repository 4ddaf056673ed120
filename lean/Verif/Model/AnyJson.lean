import Verif.Model.Templates
/-!
# `deserialize` of anything that `json.loads` can give

`Word.deserialize`, `Substitution.deserialize` and `Template.deserialize` on Python values that were read from a JSON document which may be
damaged: fields that are missing, numbers where a list should be, and so on.
-/

namespace Utg
open Py

/-- A value made by `json.loads`. Of a float: how it is written, and the integer it is equal to, if any. The items of an object are in the
order of the dictionary. -/
inductive Json where
  | null
  | bool (b : Bool)
  | int (n : Int)
  | float (written : Str) (n : Option Int)
  | str (s : Str)
  | arr (items : List Json)
  | obj (items : List (Str × Json))

/-- What can be raised. -/
inductive LoadErr where
  | KeyError (key : Str)
  | TypeError
  | AttributeError
  | ValueError
  /-- raised by `rels`: `WORD_TYPE(value)` of an unknown value -/
  | Lookup (value : Json)
  /-- utg/words.py:84-87 -/
  | WrongFormsNumberError (wrong expected : Nat) (forms : Json)
  /-- anything else -/
  | other (e : PyErr)

/-- `data[key]` (utg/words.py:100-102, utg/templates.py:29-30,137-138): only a dictionary has an item for a text; a list, a string, a number or
`None` raises `TypeError`. -/
def Json.item (key : Str) : Json → Except LoadErr Json
  | .obj items => match Dict.get? items key with
    | none => .error (.KeyError key)
    | some x => .ok x
  | _ => .error .TypeError

/-- A value as a key of a dictionary whose keys are integers (`x in index_value`, `index_value[x]`: utg/words.py:24,27,100): the integer it is
equal to. Lists and dictionaries have no hash: `TypeError`. `True == 1`, `1.0 == 1`. -/
def Json.asKey : Json → Except LoadErr (Option Int)
  | .null => .ok none
  | .bool b => .ok (some (if b then 1 else 0))
  | .int n => .ok (some n)
  | .float _ n => .ok n
  | .str _ => .ok none
  | .arr _ => .error .TypeError
  | .obj _ => .error .TypeError

/-- `len(x)` (utg/words.py:84). -/
def Json.size : Json → Except LoadErr Nat
  | .str s => .ok s.length
  | .arr items => .ok items.length
  | .obj items => .ok items.length
  | _ => .error .TypeError

/-- `for x in value` (utg/templates.py:30,138): the characters of a string, the items of a list, the keys of a dictionary. -/
def Json.iterate : Json → Except LoadErr (List Json)
  | .str s => .ok (s.map fun c => .str [c])
  | .arr items => .ok items
  | .obj items => .ok (items.map fun kv => .str kv.1)
  | _ => .error .TypeError

/-- One item of the comprehension in `Properties.deserialize` (utg/words.py:24-27): `int` of the key, and if it is known, the value as a key. -/
def loadItem (kv : Str × Json) : Except LoadErr (Option Rec) :=
  match pyInt kv.1 with
  | .error _ => .error .ValueError
  | .ok n => match groupOfCode n with
    | none => .ok none
    | some g => match kv.2.asKey with
      | .error e => .error e
      | .ok none => .ok none
      | .ok (some v) => .ok (recOfValue g v)

/-- `Properties.deserialize(data)` (utg/words.py:22-27): only a dictionary has `items`. -/
def loadProperties : Json → Except LoadErr Properties
  | .obj items => do
    let rs ← items.mapM loadItem
    .ok (.new ((rs.filterMap id).map .record))
  | _ => .error .AttributeError

/-- A word whose forms are whatever was in the document. -/
structure LoadedWord where
  type : WordType
  forms : Json
  properties : Properties

/-- `Word.deserialize(data)` (utg/words.py:98-102) and the constructor (82-91). -/
def loadWord (data : Json) : Except LoadErr LoadedWord := do
  let type ← data.item (str! "type")
  match ← type.asKey with
  | none => .error (.Lookup type)
  | some v => match wordTypeOfValue v with
    | none => .error (.Lookup type)
    | some t =>
      let forms ← data.item (str! "forms")
      let properties ← loadProperties (← data.item (str! "properties"))
      let n ← forms.size
      if n ≠ (wordsCache t).length then .error (.WrongFormsNumberError n (wordsCache t).length forms)
      else .ok ⟨t, forms, properties⟩

/-- `json.loads(json.dumps(properties.serialize()))` (utg/words.py:18-20): keys become strings. -/
def saveProperties (p : Properties) : Json := .obj (p.data.map fun kv => (pyStr kv.1.code, .int kv.2.value))

/-- `json.loads(json.dumps(word.serialize()))` (utg/words.py:93-96). -/
def saveWord (w : LoadedWord) : Json :=
  .obj [(str! "type", .int w.type.value), (str! "forms", w.forms), (str! "properties", saveProperties w.properties)]

/-- `forms[index]` (utg/words.py:112): an item of a list, a character of a string; a dictionary read from JSON has no integer keys. -/
def Json.nth (i : Nat) : Json → Except LoadErr Json
  | .str s => match s[i]? with
    | none => .error (.other .IndexError)
    | some c => .ok (.str [c])
  | .arr items => match items[i]? with
    | none => .error (.other .IndexError)
    | some x => .ok x
  | .obj _ => .error (.KeyError (pyStr i))
  | _ => .error .TypeError

/-- `word.form(properties)` (utg/words.py:104-112). -/
def LoadedWord.form (w : LoadedWord) (properties : Properties) : Except LoadErr Json :=
  match rawWordsCache w.type with
  | .error e => .error (.other e)
  | .ok cache => match cache.get? ((Properties.new [.props properties, .props w.properties]).getRawKey w.type.schema) with
    | none => .error (.other .KeyError)
    | some index => w.forms.nth index

/-- A substitution whose `id` is whatever was in the document. -/
structure LoadedSubstitution where
  id : Json
  dependencies : List Dep

/-- One item of the comprehension of utg/templates.py:30. -/
def loadDependency : Json → Except LoadErr Dep
  | .str name => .ok (.ext name)
  | x => do .ok (.props (← loadProperties x))

/-- `Substitution.deserialize(data)` (utg/templates.py:26-32). -/
def loadSubstitution (data : Json) : Except LoadErr LoadedSubstitution := do
  let id ← data.item (str! "id")
  let deps ← (← data.item (str! "dependencies")).iterate
  .ok ⟨id, ← deps.mapM loadDependency⟩

/-- A template whose text is whatever was in the document. -/
structure LoadedTemplate where
  template : Json
  substitutions : List LoadedSubstitution

/-- `Template.deserialize(data)` (utg/templates.py:134-140). -/
def loadTemplate (data : Json) : Except LoadErr LoadedTemplate := do
  let template ← data.item (str! "template")
  let subs ← (← data.item (str! "substitutions")).iterate
  .ok ⟨template, ← subs.mapM loadSubstitution⟩

/-- `json.loads(json.dumps(...))` of a serialized dependency (utg/templates.py:24). -/
def saveDependency : Dep → Json
  | .ext name => .str name
  | .props p => saveProperties p

/-- `json.loads(json.dumps(substitution.serialize()))` (utg/templates.py:22-24). -/
def saveSubstitution (s : LoadedSubstitution) : Json :=
  .obj [(str! "id", s.id), (str! "dependencies", .arr (s.dependencies.map saveDependency))]

/-- `json.loads(json.dumps(template.serialize()))` (utg/templates.py:130-132). -/
def saveTemplate (t : LoadedTemplate) : Json :=
  .obj [(str! "template", t.template), (str! "substitutions", .arr (t.substitutions.map saveSubstitution))]

end Utg
