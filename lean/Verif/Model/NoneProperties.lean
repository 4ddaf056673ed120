import Verif.Model.Templates
/-!
# Words whose properties are `None`

`Word(type, forms, properties)` does not look at `properties` (utg/words.py:82-91): `None` is kept as it is. Most of the program gives the properties
of a word to `Properties(...)`, which skips `None` (utg/words.py:31-32).
-/

namespace Utg
open Py

/-- A `Word` (utg/words.py:79-91) whose properties may be `None`. -/
structure BareWord where
  type : WordType
  forms : List Str
  properties : Option Properties
  deriving DecidableEq, Repr

/-- What is given to `Properties(...)` (utg/words.py:29-38). -/
def optArg : Option Properties → Arg
  | none => .none
  | some p => .props p

/-- `Word(type, forms, properties)` (utg/words.py:82-91). -/
def BareWord.new (type : WordType) (forms : List Str) (properties : Option Properties) : Except PyErr BareWord :=
  if forms.length ≠ (wordsCache type).length then
    .error (.WrongFormsNumberError forms.length (wordsCache type).length forms)
  else .ok ⟨type, forms, properties⟩

/-- `w._form(properties)` (utg/words.py:109-112): `None` has no `get_raw_key`. -/
def BareWord.formRaw (w : BareWord) (properties : Option Properties) : Except PyErr Str := do
  let cache ← rawWordsCache w.type
  match properties with
  | none => .error .AttributeError
  | some p => match cache.get? (p.getRawKey w.type.schema) with
    | none => .error .KeyError
    | some index => match w.forms[index]? with
      | none => .error .IndexError
      | some f => .ok f

/-- `w.form(properties)` (utg/words.py:104-107), also for `None`. -/
def BareWord.form (w : BareWord) (properties : Option Properties) : Except PyErr Str :=
  w.formRaw (some (.new [optArg properties, optArg w.properties]))

/-- `w.normal_form()` (utg/words.py:114-115). -/
def BareWord.normalForm (w : BareWord) : Except PyErr Str := w.form w.properties

/-- `w.serialize()` (utg/words.py:93-96): `None` has no `serialize`. -/
def BareWord.serialize (w : BareWord) : Except PyErr WordData :=
  match w.properties with
  | none => .error .AttributeError
  | some p => .ok ⟨w.type.value, w.forms, p.serialize⟩

/-- `p == q` (utg/words.py:63-65) where both may be `None`. -/
def optPropertiesEq : Option Properties → Option Properties → Bool
  | none, none => true
  | some p, some q => p.eq q
  | _, _ => false

/-- `w == v` (utg/words.py:120-124). -/
def BareWord.eq (w v : BareWord) : Bool := decide (w.type = v.type) && optPropertiesEq w.properties v.properties && decide (w.forms = v.forms)

/-- `w.number_of_syllables` (utg/words.py:169-171), which looks at the forms only. -/
def BareWord.numberOfSyllables (w : BareWord) : Except PyErr Nat := (⟨w.type, w.forms, .new []⟩ : Word).numberOfSyllables

/-- `w.has_fluent_vowel` (utg/words.py:174-187), which looks at the forms only. -/
def BareWord.hasFluentVowel (w : BareWord) : Except PyErr Bool := (⟨w.type, w.forms, .new []⟩ : Word).hasFluentVowel

/-- `WordForm` (utg/words.py:209-210). -/
structure BareForm where
  word : BareWord
  properties : Option Properties
  formProperties : Option Properties
  deriving DecidableEq, Repr

/-- `WordForm(word, properties, form_properties)` (utg/words.py:212-215). -/
def BareForm.new (word : BareWord) (properties formProperties : Option Properties) : BareForm :=
  let ps := match properties with
    | none => word.properties
    | some p => some (.new [.props p, optArg word.properties])
  let fps := match formProperties with
    | none => ps
    | some p => some (.new [.props p, optArg word.properties])
  ⟨word, ps, fps⟩

/-- `WordForm.get_form(word, properties)` (utg/words.py:218-225). -/
def BareForm.getForm (U : PyUni) (word : BareWord) (properties : Option Properties) : Except PyErr Str := do
  let form ← word.formRaw properties
  match properties with
  | none => .error .AttributeError
  | some p => do
    let wc ← p.getRec .WORD_CASE
    if wc = .WORD_CASE_UPPER then upperFirst U form else .ok form

/-- `f.form` (utg/words.py:227-229). -/
def BareForm.form (U : PyUni) (f : BareForm) : Except PyErr Str := BareForm.getForm U f.word f.formProperties

/-- `f.starts_with_consonant_cluster` (utg/words.py:231-234). -/
def BareForm.startsWithConsonantCluster (U : PyUni) (f : BareForm) : Except PyErr Bool := do
  consonantCluster (← f.form U)

/-- The `i`-th item of `w.all_forms()` (utg/words.py:117-118, 248-250). -/
def BareWord.nthForm (w : BareWord) (i : Nat) : Except PyErr BareForm :=
  match (invertedCacheProperties w.type)[i]? with
  | none => .error .IndexError
  | some p => .ok (BareForm.new w (some p) none)

/-- `Dictionary._data` (utg/dictionary.py:7,10). -/
abbrev BareDictionary := Dict Str BareForm

/-- `f.properties.manhattan_distance()` (utg/dictionary.py:39,43). -/
def BareForm.distance (f : BareForm) : Except PyErr Nat :=
  match f.properties with
  | none => .error .AttributeError
  | some p => .ok p.manhattanDistance

/-- The chain of comparisons of utg/dictionary.py:25-49. -/
def replacesBare (new registered : BareForm) : Except PyErr Bool :=
  if new.word.type.value < registered.word.type.value then .ok true
  else if new.word.type.value > registered.word.type.value then .ok false
  else if strListLt new.word.forms registered.word.forms then .ok true
  else if strListLt registered.word.forms new.word.forms then .ok false
  else do
    let n ← new.distance
    let m ← registered.distance
    .ok (decide (n < m))

/-- The body of the loop in `add_word` (utg/dictionary.py:19-49) for a word form spelled `text`. -/
def BareDictionary.register (d : BareDictionary) (text : Str) (f : BareForm) : Except PyErr BareDictionary :=
  match Dict.get? d text with
  | none => .ok (Dict.set d text f)
  | some registered => do
    let b ← replacesBare f registered
    .ok (if b then Dict.set d text f else d)

/-- The loop of `add_word` (utg/dictionary.py:17-49) over the remaining indices. -/
def BareDictionary.addForms (U : PyUni) (w : BareWord) : BareDictionary → List Nat → BareDictionary × Option PyErr
  | d, [] => (d, none)
  | d, i :: is =>
    match w.nthForm i with
    | .error e => (d, some e)
    | .ok f => match f.form U with
      | .error e => (d, some e)
      | .ok text => match BareDictionary.register d text f with
        | .error e => (d, some e)
        | .ok d' => BareDictionary.addForms U w d' is

/-- `d.add_word(word)` (utg/dictionary.py:16-49): the new state and the exception raised, if any. -/
def BareDictionary.addWord (U : PyUni) (d : BareDictionary) (w : BareWord) : BareDictionary × Option PyErr :=
  BareDictionary.addForms U w d (List.range w.forms.length)

/-- `set.add` on a Python set of words; `None` has a hash. -/
def bareSetAdd (s : List BareWord) (w : BareWord) : List BareWord := if s.any (fun v => v.eq w) then s else s ++ [w]

/-- `d.get_words()` (utg/dictionary.py:64-65). -/
def BareDictionary.getWords (d : BareDictionary) : List BareWord := (d.map fun kv => kv.2.word).foldl bareSetAdd []

/-- `_consonant_preposition_any` (utg/transformators.py:32-59); `and` short-circuits as in Python. -/
def consonantPrepositionBare (U : PyUni) (slave : Str) (properties : Properties) (masterForm : BareForm) :
    Except PyErr Properties := do
  let master ← masterForm.form U                                                  -- line 35
  let first ← do                                                                  -- lines 39-41
    if ← masterForm.startsWithConsonantCluster U then
      if (← masterForm.word.numberOfSyllables) = 1 then masterForm.word.hasFluentVowel
      else .ok false
    else .ok false
  if first then return properties.clone [.record .PREPOSITION_FORM_ALTERNATIVE]      -- line 42
  let second ← do                                                                 -- lines 45-47
    if slave = str! "в" ∨ slave = str! "с" then
      if slave = [← Py.first master] then masterForm.startsWithConsonantCluster U
      else .ok false
    else .ok false
  if second then return properties.clone [.record .PREPOSITION_FORM_ALTERNATIVE]     -- line 48
  return properties                                                               -- line 59

/-- `_vowels_preposition_any` (utg/transformators.py:62-82). -/
def vowelsPrepositionBare (U : PyUni) (slave : Str) (properties : Properties) (masterForm : BareForm) :
    Except PyErr Properties := do
  let master ← masterForm.form U                                                  -- line 65
  if slave = str! "о" ∧
      master ∈ [str! "всех", str! "мне", str! "всём", str! "что", str! "всей"] then
    return properties.clone [.record .PREPOSITION_FORM_SPECIAL]                      -- line 72
  if NOT_J_VOWELS.contains (← Py.first master) then
    return properties.clone [.record .PREPOSITION_FORM_ALTERNATIVE]                  -- line 76
  return properties                                                               -- line 82

/-- `_preposition_any` (utg/transformators.py:18-29). -/
def prepositionBare (U : PyUni) (slaveWord : BareWord) (properties : Properties) (masterForm : BareForm) :
    Except PyErr Properties := do
  let slave ← slaveWord.normalForm
  if CONSONANTS.contains (← Py.last slave) then consonantPrepositionBare U slave properties masterForm
  else vowelsPrepositionBare U slave properties masterForm

/-- `transform(slave_word, slave_propeties, master_form)` (utg/transformators.py:8-15,226-233). -/
def transformBare (U : PyUni) (slaveWord : BareWord) (slaveProperties : Properties) (masterForm : BareForm) :
    Except PyErr Properties :=
  match slaveWord.type, masterForm.word.type with
  | .NOUN, .INTEGER => nounInteger slaveProperties                                  -- line 226
  | .ADJECTIVE, .INTEGER => adjectiveInteger slaveProperties                        -- line 227
  | .VERB, .INTEGER => adjectiveInteger slaveProperties                             -- line 228
  | .PRONOUN, .INTEGER => nounInteger slaveProperties                               -- line 229
  | .PARTICIPLE, .INTEGER => adjectiveInteger slaveProperties                       -- line 230
  | .PREPOSITION, _ => prepositionBare U slaveWord slaveProperties masterForm       -- lines 232-233
  | _, _ => .ok slaveProperties                                                     -- line 15

/-- `externals` of `substitute` (utg/templates.py:169). -/
abbrev BareExternals := Dict Str BareForm

/-- `s._list_propeties(externals)` (utg/templates.py:77-93). -/
def listPropertiesBare (externals : BareExternals) : List Dep → Except PyErr (List (Option Properties) × List BareForm)
  | [] => .ok ([], [])
  | .ext n :: deps =>
    match externals.get? n with
    | none => .error (.ExternalDependecyNotFoundError n)
    | some f => do
      let (ps, fs) ← listPropertiesBare externals deps
      .ok (f.properties :: ps, f :: fs)
  | .props p :: deps => do
    let (ps, fs) ← listPropertiesBare externals deps
    .ok (some p :: ps, fs)

/-- The base form of a substitution (utg/templates.py:98-102). -/
def Substitution.baseBare (s : Substitution) (externals : BareExternals) (dictionary : BareDictionary) : Except PyErr BareForm :=
  match Dict.get? externals s.id with
  | some f => .ok f
  | none => match Dict.get? dictionary s.id with
    | none => .error (.NoWordsFoundError s.id)
    | some f => .ok f

/-- `s.get_text(externals, dictionary)` (utg/templates.py:96-116): `None` has no `clone`. -/
def Substitution.getBare (U : PyUni) (s : Substitution) (externals : BareExternals) (dictionary : BareDictionary) :
    Except PyErr Str := do
  let baseForm ← s.baseBare externals dictionary
  let (propertiesList, externalWords) ← listPropertiesBare externals s.dependencies
  match baseForm.properties with
  | none => .error .AttributeError
  | some p => do
    let properties := p.clone ((propertiesList ++ [baseForm.word.properties]).map optArg)
    let formProperties ← externalWords.foldlM (fun ps external => transformBare U baseForm.word ps external) properties
    BareForm.getForm U baseForm.word (some formProperties)

/-- `t.substitute(externals, dictionary)` (utg/templates.py:169-172). -/
def Template.fillBare (U : PyUni) (t : Template) (externals : BareExternals) (dictionary : BareDictionary) : Except PyErr Str := do
  let texts ← t.substitutions.mapM fun s => s.getBare U externals dictionary
  match t.template with
  | none => .error .TypeError
  | some template => pyFormat U template texts

end Utg
