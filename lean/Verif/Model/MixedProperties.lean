import Verif.Model.Dictionary
/-!
# `Properties` with arguments that are no properties

`Properties(*argv)` looks only at the attributes `_relation` and `_data` of its arguments (utg/words.py:34-38). A record of a relation that is
no property (of `PROPERTY_TYPE`, say) has `_relation`; a `Dictionary` has `_data`. Both are accepted. What is in neither of these classes is
refused. Relations that are no properties, and texts, are numbers here, and so are the records and word forms that belong to them: they are
only compared.
-/

namespace Utg
open Py

/-- `_data` of an object (utg/words.py:15, utg/dictionary.py:10): under the relation of a property its record, and what else was put in. -/
abbrev MixedData := Dict (Group ⊕ Nat) (Rec ⊕ Nat)

/-- A `Properties` object (utg/words.py:11-12). -/
structure MixedProps where
  data : MixedData
  deriving DecidableEq, Repr

/-- An argument of `Properties` (utg/words.py:30-38): `None`, a record of a property, a record of another relation, something with a
dictionary `_data`, or something with neither `_relation` nor `_data`. -/
inductive MixedArg where
  | none
  | record (r : Rec)
  | foreign (relation record : Nat)
  | holder (data : MixedData)
  | other
  deriving DecidableEq, Repr

/-- One round of the loop in `Properties._update` (utg/words.py:30-38). -/
def MixedProps.updateOne (d : MixedData) : MixedArg → Except PyErr MixedData
  | .none => .ok d
  | .record r => .ok (Dict.set d (.inl r.group) (.inl r))
  | .foreign relation record => .ok (Dict.set d (.inr relation) (.inr record))
  | .holder e => .ok (Dict.update d e)
  | .other => .error .AttributeError

/-- `Properties(*argv)` (utg/words.py:14-16, 29-38). -/
def MixedProps.new (argv : List MixedArg) : Except PyErr MixedProps := do
  let d ← argv.foldlM MixedProps.updateOne []
  .ok ⟨d⟩

/-- `Properties(p, q)` of two `Properties` (utg/words.py:107,214-215), which raises nothing. -/
def MixedProps.merge (p q : MixedProps) : MixedProps := ⟨Dict.update (Dict.update [] p.data) q.data⟩

/-- `p.get(property_group)` for a property (utg/words.py:44-47). Under a property there is always a record. -/
def MixedProps.get (p : MixedProps) (g : Group) : Option Rec :=
  match Dict.get? p.data (.inl g) with
  | some (.inl r) => some r
  | some (.inr _) => none
  | none => defaultProperty g

/-- `p.is_specified(property_group)` (utg/words.py:49-50). -/
def MixedProps.isSpecified (p : MixedProps) (g : Group) : Bool := Dict.contains p.data (.inl g)

/-- `p.get_raw_key(schema)` (utg/words.py:41-42). -/
def MixedProps.getRawKey (p : MixedProps) (schema : List Group) : Key := schema.map p.get

/-- `p.__unicode__()` (utg/words.py:55-58). -/
def MixedProps.toText (p : MixedProps) : Str :=
  '(' :: join ',' (propertyTypeRecords.filterMap fun g => match Dict.get? p.data (.inl g) with
    | some (.inl r) => some r.verboseId
    | _ => none) ++ [')']

/-- `p == q` (utg/words.py:63-65). -/
def MixedProps.eq (p q : MixedProps) : Bool := Dict.beq p.data q.data

/-- One item of `p.serialize()` (utg/words.py:19-20): another relation is not in `index_relation`. -/
def mixedItem : (Group ⊕ Nat) × (Rec ⊕ Nat) → Except PyErr (JKey × Int)
  | (.inl g, .inl r) => .ok (.int g.code, (r.value : Int))
  | _ => .error .KeyError

/-- `p.serialize()` (utg/words.py:18-20). -/
def MixedProps.serialize (p : MixedProps) : Except PyErr (Dict JKey Int) := p.data.mapM mixedItem

/-- One item of the sum in `p.manhattan_distance()` (utg/words.py:74-76): another relation has no default. -/
def mixedDeparture : (Group ⊕ Nat) × (Rec ⊕ Nat) → Except PyErr Nat
  | (.inl g, .inl r) => .ok (if some r ≠ defaultProperty g then 1 else 0)
  | _ => .error .KeyError

/-- `p.manhattan_distance()` (utg/words.py:73-76), which is also `hash(p)` (utg/words.py:70-71). -/
def MixedProps.manhattanDistance (p : MixedProps) : Except PyErr Nat := do
  let ns ← p.data.mapM mixedDeparture
  .ok ns.sum

/-- `Word` (utg/words.py:79-91). -/
structure MixedWord where
  type : WordType
  forms : List Str
  properties : MixedProps
  deriving DecidableEq, Repr

/-- `w._form(properties)` (utg/words.py:109-112). -/
def MixedWord.formRaw (w : MixedWord) (properties : MixedProps) : Except PyErr Str := do
  let cache ← rawWordsCache w.type
  match cache.get? (properties.getRawKey w.type.schema) with
  | none => .error .KeyError
  | some index => match w.forms[index]? with
    | none => .error .IndexError
    | some f => .ok f

/-- `w.form(properties)` (utg/words.py:104-107). -/
def MixedWord.form (w : MixedWord) (properties : MixedProps) : Except PyErr Str := w.formRaw (properties.merge w.properties)

/-- `w.serialize()` (utg/words.py:93-96). -/
def MixedWord.serialize (w : MixedWord) : Except PyErr WordData := do
  let p ← w.properties.serialize
  .ok ⟨w.type.value, w.forms, p⟩

/-- `w == v` (utg/words.py:120-124). -/
def MixedWord.eq (w v : MixedWord) : Bool := decide (w.type = v.type) && w.properties.eq v.properties && decide (w.forms = v.forms)

/-- `WordForm` (utg/words.py:209-210). -/
structure MixedForm where
  word : MixedWord
  properties : MixedProps
  formProperties : MixedProps
  deriving DecidableEq, Repr

/-- `WordForm(word, properties, form_properties)` (utg/words.py:212-215). -/
def MixedForm.new (word : MixedWord) (properties formProperties : Option MixedProps := none) : MixedForm :=
  let ps := match properties with
    | none => word.properties
    | some p => p.merge word.properties
  let fps := match formProperties with
    | none => ps
    | some p => p.merge word.properties
  ⟨word, ps, fps⟩

/-- `f.form` (utg/words.py:218-229). -/
def MixedForm.form (U : PyUni) (f : MixedForm) : Except PyErr Str := do
  let form ← f.word.formRaw f.formProperties
  match f.formProperties.get .WORD_CASE with
  | none => .error .AttributeError
  | some wc => if wc = .WORD_CASE_UPPER then upperFirst U form else .ok form

/-- The `i`-th item of `w.all_forms()` (utg/words.py:117-118, 248-250). -/
def MixedWord.nthForm (w : MixedWord) (i : Nat) : Except PyErr MixedForm :=
  match (invertedCacheProperties w.type)[i]? with
  | none => .error .IndexError
  | some p => .ok (MixedForm.new w (some ⟨p.data.map fun kv => (.inl kv.1, .inl kv.2)⟩))

/-- `Dictionary._data` (utg/dictionary.py:7,10). -/
abbrev MixedDictionary := Dict Str MixedForm

/-- The chain of comparisons of utg/dictionary.py:25-49. -/
def replacesMixed (new registered : MixedForm) : Except PyErr Bool :=
  if new.word.type.value < registered.word.type.value then .ok true
  else if new.word.type.value > registered.word.type.value then .ok false
  else if strListLt new.word.forms registered.word.forms then .ok true
  else if strListLt registered.word.forms new.word.forms then .ok false
  else do
    let n ← new.properties.manhattanDistance
    let m ← registered.properties.manhattanDistance
    .ok (decide (n < m))

/-- The body of the loop in `add_word` (utg/dictionary.py:19-49) for a word form spelled `text`. -/
def MixedDictionary.register (d : MixedDictionary) (text : Str) (f : MixedForm) : Except PyErr MixedDictionary :=
  match Dict.get? d text with
  | none => .ok (Dict.set d text f)
  | some registered => do
    let b ← replacesMixed f registered
    .ok (if b then Dict.set d text f else d)

/-- The loop of `add_word` (utg/dictionary.py:17-49) over the remaining indices. -/
def MixedDictionary.addForms (U : PyUni) (w : MixedWord) : MixedDictionary → List Nat → MixedDictionary × Option PyErr
  | d, [] => (d, none)
  | d, i :: is =>
    match w.nthForm i with
    | .error e => (d, some e)
    | .ok f => match f.form U with
      | .error e => (d, some e)
      | .ok text => match MixedDictionary.register d text f with
        | .error e => (d, some e)
        | .ok d' => MixedDictionary.addForms U w d' is

/-- `d.add_word(word)` (utg/dictionary.py:16-49): the new state and the exception raised, if any. -/
def MixedDictionary.addWord (U : PyUni) (d : MixedDictionary) (w : MixedWord) : MixedDictionary × Option PyErr :=
  MixedDictionary.addForms U w d (List.range w.forms.length)

/-- `set.add` on a Python set of words, which takes the hash of the word (utg/words.py:129-130). -/
def mixedSetAdd (s : List MixedWord) (w : MixedWord) : Except PyErr (List MixedWord) := do
  let _ ← w.properties.manhattanDistance
  .ok (if s.any (fun v => v.eq w) then s else s ++ [w])

/-- `d.get_words()` (utg/dictionary.py:64-65). -/
def MixedDictionary.getWords (d : MixedDictionary) : Except PyErr (List MixedWord) := (d.map fun kv => kv.2.word).foldlM mixedSetAdd []

end Utg
