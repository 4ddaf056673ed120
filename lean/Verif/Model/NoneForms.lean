import Verif.Model.Templates
/-!
# `utg/words.py`, `utg/dictionary.py`, `utg/transformators.py`, `utg/templates.py`: words some of whose forms are `None`

"form can be unspecified" (utg/words.py:180): the code tests forms for truth, so a missing form may be given as `None` instead of `''`. In
`Verif.Model.Words` all forms are strings.
-/

namespace Utg
open Py

/-- `Word` (utg/words.py:79-91) some of whose forms may be `None`. -/
structure OptWord where
  type : WordType
  forms : List (Option Str)
  properties : Properties
  deriving DecidableEq

/-- `Word(type, forms, properties)` (utg/words.py:82-91). The exception carries the forms; here `None` is written as `''` in it. -/
def OptWord.new (type : WordType) (forms : List (Option Str)) (properties : Properties := .new []) : Except PyErr OptWord :=
  if forms.length ≠ (wordsCache type).length then
    .error (.WrongFormsNumberError forms.length (wordsCache type).length (forms.map fun f => f.getD []))
  else .ok ⟨type, forms, properties⟩

/-- Serialized word (utg/words.py:93-96); `None` is `null` in JSON. -/
structure OptWordData where
  type : Int
  forms : List (Option Str)
  properties : Dict JKey Int

/-- `w.serialize()` (utg/words.py:93-96). -/
def OptWord.serialize (w : OptWord) : OptWordData := ⟨w.type.value, w.forms, w.properties.serialize⟩

/-- `Word.deserialize(data)` (utg/words.py:98-102). -/
def OptWord.deserialize (data : OptWordData) : Except PyErr OptWord :=
  match wordTypeOfValue data.type with
  | none => .error (.RelsLookupError data.type)
  | some t => do
    let p ← Properties.deserialize data.properties
    OptWord.new t data.forms p

/-- `w == v` (utg/words.py:120-124). -/
def OptWord.eq (w v : OptWord) : Bool := decide (w.type = v.type) && w.properties.eq v.properties && decide (w.forms = v.forms)

/-- `w._form(properties)` (utg/words.py:109-112). -/
def OptWord.formRaw (w : OptWord) (properties : Properties) : Except PyErr (Option Str) := do
  let cache ← rawWordsCache w.type
  match cache.get? (properties.getRawKey w.type.schema) with
  | none => .error .KeyError
  | some index => match w.forms[index]? with
    | none => .error .IndexError
    | some f => .ok f

/-- `w.form(properties)` (utg/words.py:104-107). -/
def OptWord.form (w : OptWord) (properties : Properties) : Except PyErr (Option Str) :=
  w.formRaw (.new [.props properties, .props w.properties])

/-- `w.normal_form()` (utg/words.py:114-115). -/
def OptWord.normalForm (w : OptWord) : Except PyErr (Option Str) := w.form w.properties

/-- `w.number_of_syllables` (utg/words.py:169-172): `None` has no `count`. -/
def OptWord.numberOfSyllables (w : OptWord) : Except PyErr Nat :=
  match w.forms with
  | [] => .error .IndexError
  | none :: _ => .error .AttributeError
  | some form :: _ => .ok (max 1 (VOWELS.map fun char => form.count char).sum)

/-- `not form_vowels.startswith(base_vowels)` (utg/words.py:179-185), for a form that is not skipped as missing. -/
def otherVowels (form : Str) : Option Str → Bool
  | none => false
  | some other => decide (other ≠ []) && !(vowelsOf form).isPrefixOf (vowelsOf other)

/-- `w.has_fluent_vowel` (utg/words.py:174-187): `None` cannot be iterated over. -/
def OptWord.hasFluentVowel (w : OptWord) : Except PyErr Bool :=
  match w.forms with
  | [] => .error .IndexError
  | none :: _ => .error .TypeError
  | some form :: others => .ok (others.any (otherVowels form))

/-- `bool(form)` (utg/words.py:180,194,197). -/
def isGiven : Option Str → Bool
  | none => false
  | some s => decide (s ≠ [])

/-- `available_keys` of `autofill_missed_forms` (utg/words.py:192-194). -/
def availableKeysOpt (t : WordType) (forms : List (Option Str)) : Except PyErr (List Key) := do
  let ks ← (List.range forms.length).mapM fun index =>
    match forms[index]? with
    | none => .error .IndexError
    | some f =>
      if isGiven f then match (invertedCache t)[index]? with
        | none => .error .IndexError
        | some k => .ok (some k)
      else .ok none
  .ok (ks.filterMap id)

/-- One round of the loop in `autofill_missed_forms` (utg/words.py:196-205). -/
def autofillStepOpt (t : WordType) (available : List Key) (forms : List (Option Str)) (i : Nat) : Except PyErr (List (Option Str)) :=
  match forms[i]? with
  | none => .error .IndexError
  | some form =>
    if isGiven form then .ok forms
    else match (invertedCache t)[i]? with
      | none => .error .IndexError
      | some key => match getNearestKey key available with
        | none => .ok forms
        | some nearest => match (wordsCache t).get? nearest with
          | none => .error .KeyError
          | some j => match forms[j]? with
            | none => .error .IndexError
            | some f => .ok (forms.set i f)

/-- `w.autofill_missed_forms()` (utg/words.py:189-205). -/
def OptWord.autofillMissedForms (w : OptWord) : Except PyErr OptWord := do
  let available ← availableKeysOpt w.type w.forms
  let forms ← (List.range w.forms.length).foldlM (autofillStepOpt w.type available) w.forms
  .ok { w with forms := forms }

/-- `WordForm` (utg/words.py:209-210). -/
structure OptForm where
  word : OptWord
  properties : Properties
  formProperties : Properties
  deriving DecidableEq

/-- `WordForm(word, properties, form_properties)` (utg/words.py:212-215). -/
def OptForm.new (word : OptWord) (properties formProperties : Option Properties := none) : OptForm :=
  let ps := match properties with
    | none => word.properties
    | some p => .new [.props p, .props word.properties]
  let fps := match formProperties with
    | none => ps
    | some p => .new [.props p, .props word.properties]
  ⟨word, ps, fps⟩

/-- `form[0].upper() + form[1:]` (utg/words.py:223): `None` cannot be indexed. -/
def upperFirstOpt (U : PyUni) : Option Str → Except PyErr (Option Str)
  | none => .error .TypeError
  | some s => (upperFirst U s).map some

/-- `WordForm.get_form(word, properties)` (utg/words.py:218-225). -/
def OptForm.getForm (U : PyUni) (word : OptWord) (properties : Properties) : Except PyErr (Option Str) := do
  let form ← word.formRaw properties
  let wc ← properties.getRec .WORD_CASE
  if wc = .WORD_CASE_UPPER then upperFirstOpt U form else .ok form

/-- `f.form` (utg/words.py:227-229). -/
def OptForm.form (U : PyUni) (f : OptForm) : Except PyErr (Option Str) := OptForm.getForm U f.word f.formProperties

/-- `f.starts_with_consonant_cluster` (utg/words.py:231-234). -/
def OptForm.startsWithConsonantCluster (U : PyUni) (f : OptForm) : Except PyErr Bool := do
  match ← f.form U with
  | none => .error .TypeError
  | some s => consonantCluster s

/-- The `i`-th item of `w.all_forms()` (utg/words.py:117-118). -/
def OptWord.nthForm (w : OptWord) (i : Nat) : Except PyErr OptForm :=
  match (invertedCacheProperties w.type)[i]? with
  | none => .error .IndexError
  | some p => .ok (OptForm.new w (some p))

/-- `a < b` on lists of strings and `None` (utg/dictionary.py:32,36): decided by the first items that are not equal; `None` and a string
cannot be compared. -/
def optListLt : List (Option Str) → List (Option Str) → Except PyErr Bool
  | [], [] => .ok false
  | [], _ :: _ => .ok true
  | _ :: _, [] => .ok false
  | none :: as, none :: bs => optListLt as bs
  | none :: _, some _ :: _ => .error .TypeError
  | some _ :: _, none :: _ => .error .TypeError
  | some a :: as, some b :: bs => if a = b then optListLt as bs else .ok (strLt a b)

/-- `Dictionary._data` (utg/dictionary.py:7,10): text ↦ registered word form; `None` may be a key. -/
abbrev OptDictionary := Dict (Option Str) OptForm

/-- The chain of comparisons of utg/dictionary.py:25-49. -/
def replacesOpt (new registered : OptForm) : Except PyErr Bool :=
  if new.word.type.value < registered.word.type.value then .ok true
  else if new.word.type.value > registered.word.type.value then .ok false
  else do
    if ← optListLt new.word.forms registered.word.forms then return true
    if ← optListLt registered.word.forms new.word.forms then return false
    return decide (new.properties.manhattanDistance < registered.properties.manhattanDistance)

/-- The body of the loop in `add_word` (utg/dictionary.py:19-49) for a word form spelled `text`. -/
def OptDictionary.register (d : OptDictionary) (text : Option Str) (f : OptForm) : Except PyErr OptDictionary :=
  match Dict.get? d text with
  | none => .ok (Dict.set d text f)
  | some registered => do
    let b ← replacesOpt f registered
    .ok (if b then Dict.set d text f else d)

/-- The loop of `add_word` (utg/dictionary.py:17-49) over the remaining indices. -/
def OptDictionary.addForms (U : PyUni) (w : OptWord) : OptDictionary → List Nat → OptDictionary × Option PyErr
  | d, [] => (d, none)
  | d, i :: is =>
    match w.nthForm i with
    | .error e => (d, some e)
    | .ok f => match f.form U with
      | .error e => (d, some e)
      | .ok text => match OptDictionary.register d text f with
        | .error e => (d, some e)
        | .ok d' => OptDictionary.addForms U w d' is

/-- `d.add_word(word)` (utg/dictionary.py:16-49). -/
def OptDictionary.addWord (U : PyUni) (d : OptDictionary) (w : OptWord) : OptDictionary × Option PyErr :=
  OptDictionary.addForms U w d (List.range w.forms.length)

/-- `d.get_word(text)` (utg/dictionary.py:55-62). -/
def OptDictionary.getWord (d : OptDictionary) (text : Str) : Except PyErr OptForm :=
  match Dict.get? d (some text) with
  | none => .error (.NoWordsFoundError text)
  | some f => .ok f

/-- `master[0]` (utg/transformators.py:46,75). -/
def firstOpt : Option Str → Except PyErr Char
  | none => .error .TypeError
  | some s => Py.first s

/-- `slave[-1]` (utg/transformators.py:26). -/
def lastOpt : Option Str → Except PyErr Char
  | none => .error .TypeError
  | some s => Py.last s

/-- `_consonant_preposition_any` (utg/transformators.py:32-59). -/
def consonantPrepositionAnyOpt (U : PyUni) (slave : Option Str) (properties : Properties) (masterForm : OptForm) :
    Except PyErr Properties := do
  let master ← masterForm.form U                                                  -- line 35
  let first ← do                                                                  -- lines 39-41
    if ← masterForm.startsWithConsonantCluster U then
      if (← masterForm.word.numberOfSyllables) = 1 then masterForm.word.hasFluentVowel
      else .ok false
    else .ok false
  if first then return properties.clone [.record .PREPOSITION_FORM_ALTERNATIVE]      -- line 42
  let second ← do                                                                 -- lines 45-47
    if slave = some (str! "в") ∨ slave = some (str! "с") then
      if slave = some [← firstOpt master] then masterForm.startsWithConsonantCluster U
      else .ok false
    else .ok false
  if second then return properties.clone [.record .PREPOSITION_FORM_ALTERNATIVE]     -- line 48
  return properties                                                               -- line 59

/-- `_vowels_preposition_any` (utg/transformators.py:62-82). -/
def vowelsPrepositionAnyOpt (U : PyUni) (slave : Option Str) (properties : Properties) (masterForm : OptForm) :
    Except PyErr Properties := do
  let master ← masterForm.form U                                                  -- line 65
  if slave = some (str! "о") ∧
      master ∈ [some (str! "всех"), some (str! "мне"), some (str! "всём"), some (str! "что"), some (str! "всей")] then
    return properties.clone [.record .PREPOSITION_FORM_SPECIAL]                      -- line 72
  if NOT_J_VOWELS.contains (← firstOpt master) then
    return properties.clone [.record .PREPOSITION_FORM_ALTERNATIVE]                  -- line 76
  return properties                                                               -- line 82

/-- `_preposition_any` (utg/transformators.py:18-29). -/
def prepositionAnyOpt (U : PyUni) (slaveWord : OptWord) (properties : Properties) (masterForm : OptForm) :
    Except PyErr Properties := do
  let slave ← slaveWord.normalForm
  if CONSONANTS.contains (← lastOpt slave) then consonantPrepositionAnyOpt U slave properties masterForm
  else vowelsPrepositionAnyOpt U slave properties masterForm

/-- `transform(slave_word, slave_propeties, master_form)` (utg/transformators.py:8-15, 226-233). -/
def transformOpt (U : PyUni) (slaveWord : OptWord) (slaveProperties : Properties) (masterForm : OptForm) :
    Except PyErr Properties :=
  match slaveWord.type, masterForm.word.type with
  | .NOUN, .INTEGER => nounInteger slaveProperties                                  -- line 226
  | .ADJECTIVE, .INTEGER => adjectiveInteger slaveProperties                        -- line 227
  | .VERB, .INTEGER => adjectiveInteger slaveProperties                             -- line 228
  | .PRONOUN, .INTEGER => nounInteger slaveProperties                               -- line 229
  | .PARTICIPLE, .INTEGER => adjectiveInteger slaveProperties                       -- line 230
  | .PREPOSITION, _ => prepositionAnyOpt U slaveWord slaveProperties masterForm     -- lines 232-233
  | _, _ => .ok slaveProperties                                                     -- line 15

/-- The externals given to `substitute`: name ↦ word form. -/
abbrev OptExternals := Dict Str OptForm

/-- `s._list_propeties(externals)` (utg/templates.py:77-93). -/
def listPropertiesOpt (externals : OptExternals) : List Dep → Except PyErr (List Properties × List OptForm)
  | [] => .ok ([], [])
  | .ext n :: deps =>
    match externals.get? n with
    | none => .error (.ExternalDependecyNotFoundError n)
    | some f => do
      let (ps, fs) ← listPropertiesOpt externals deps
      .ok (f.properties :: ps, f :: fs)
  | .props p :: deps => do
    let (ps, fs) ← listPropertiesOpt externals deps
    .ok (p :: ps, fs)

/-- The base form of a substitution (utg/templates.py:98-102). -/
def Substitution.baseFormOpt (s : Substitution) (externals : OptExternals) (dictionary : OptDictionary) : Except PyErr OptForm :=
  match externals.get? s.id with
  | some f => .ok f
  | none => dictionary.getWord s.id

/-- `s.get_text(externals, dictionary)` (utg/templates.py:96-116). -/
def Substitution.getTextOpt (U : PyUni) (s : Substitution) (externals : OptExternals) (dictionary : OptDictionary) :
    Except PyErr (Option Str) := do
  let baseForm ← s.baseFormOpt externals dictionary
  let (propertiesList, externalWords) ← listPropertiesOpt externals s.dependencies
  let properties := baseForm.properties.clone ((propertiesList ++ [baseForm.word.properties]).map .props)
  let formProperties ← externalWords.foldlM (fun ps external => transformOpt U baseForm.word ps external) properties
  OptForm.getForm U baseForm.word formProperties

/-- `str(x)`, by which `%s` shows a form. -/
def shown : Option Str → Str
  | none => str! "None"
  | some s => s

/-- `t.substitute(externals, dictionary)` (utg/templates.py:169-172). Only `%s` is right for `None` here: templates that were not made by
`parse` may have other conversions. -/
def Template.substituteOpt (U : PyUni) (t : Template) (externals : OptExternals) (dictionary : OptDictionary) : Except PyErr Str := do
  let texts ← t.substitutions.mapM fun s => s.getTextOpt U externals dictionary
  match t.template with
  | none => .error .TypeError
  | some template => pyFormat U template (texts.map shown)

end Utg
