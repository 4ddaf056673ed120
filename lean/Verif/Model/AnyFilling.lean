import Verif.Model.AnyDictionary
import Verif.Model.Templates
/-!
# Filling a template with words loaded from any JSON documents

`Template.substitute` and `transform` for word forms whose words have whatever `json.loads` gave for forms. The text that `%s` makes of a form that is no text is a parameter, and the template has no formats but `%s` and `%%`, as
`parse` makes it.
-/

namespace Utg
open Py

/-- An exception of the code that does not look at forms. -/
def liftErr {α : Type} : Except PyErr α → Except LoadErr α
  | .error e => .error (.other e)
  | .ok x => .ok x

/-- `word._form(properties)` (utg/words.py:109-112). -/
def LoadedWord.formRaw (w : LoadedWord) (properties : Properties) : Except LoadErr Json := do
  let cache ← liftErr (rawWordsCache w.type)
  match cache.get? (properties.getRawKey w.type.schema) with
  | none => .error (.other .KeyError)
  | some index => w.forms.nth index

/-- `WordForm.get_form(word, properties)` (utg/words.py:218-225). -/
def LoadedWord.getForm (U : PyUni) (w : LoadedWord) (properties : Properties) : Except LoadErr Json := do
  let form ← w.formRaw properties
  let wc ← liftErr (properties.getRec .WORD_CASE)
  if wc = .WORD_CASE_UPPER then form.upperFirst U else .ok form

/-- `WordForm` with `form_properties` (utg/words.py:209-217). -/
structure LoadedExternal extends LoadedForm where
  formProperties : Properties

/-- `f.form` (utg/words.py:227-229). -/
def LoadedExternal.form (U : PyUni) (f : LoadedExternal) : Except LoadErr Json := f.word.getForm U f.formProperties

/-- `x in letters` for a set of letters (utg/words.py:234, utg/transformators.py:26,75): lists and objects have no hash. -/
def Json.among (letters : List Char) : Json → Except LoadErr Bool
  | .str [c] => .ok (letters.contains c)
  | .arr _ => .error .TypeError
  | .obj _ => .error .TypeError
  | _ => .ok false

/-- `f.starts_with_consonant_cluster` (utg/words.py:231-234). -/
def LoadedExternal.startsWithConsonantCluster (U : PyUni) (f : LoadedExternal) : Except LoadErr Bool := do
  let form ← f.form U
  if ← (← form.nth 0).among CONSONANTS then
    if (← form.size) = 1 then .ok true else (← form.nth 1).among CONSONANTS
  else .ok false

/-- `x[-1]` (utg/transformators.py:26). -/
def Json.lastItem : Json → Except LoadErr Json
  | .str s => match s.getLast? with
    | none => .error (.other .IndexError)
    | some c => .ok (.str [c])
  | .arr items => match items.getLast? with
    | none => .error (.other .IndexError)
    | some x => .ok x
  | .obj _ => .error (.KeyError (pyStr (-1)))
  | _ => .error .TypeError

/-- `x in texts` for a tuple of texts (utg/transformators.py:45,71). -/
def Json.isOneOf (texts : List Str) : Json → Bool
  | .str s => decide (s ∈ texts)
  | _ => false

/-- `_consonant_preposition_any` (utg/transformators.py:32-59). -/
def consonantPrepositionLoaded (U : PyUni) (slave : Json) (properties : Properties) (master : LoadedExternal) : Except LoadErr Properties := do
  let text ← master.form U                                                        -- line 35
  let first ← do                                                                  -- lines 39-41
    if ← master.startsWithConsonantCluster U then
      if (← master.word.numberOfSyllables) = 1 then master.word.hasFluentVowel else .ok false
    else .ok false
  if first then return properties.clone [.record .PREPOSITION_FORM_ALTERNATIVE]      -- line 42
  let second ← do                                                                 -- lines 45-47
    if slave.isOneOf [str! "в", str! "с"] then
      if slave.eqv (← text.nth 0) then master.startsWithConsonantCluster U else .ok false
    else .ok false
  if second then return properties.clone [.record .PREPOSITION_FORM_ALTERNATIVE]     -- line 48
  return properties                                                               -- line 59

/-- `_vowels_preposition_any` (utg/transformators.py:62-82). -/
def vowelsPrepositionLoaded (U : PyUni) (slave : Json) (properties : Properties) (master : LoadedExternal) : Except LoadErr Properties := do
  let text ← master.form U                                                        -- line 65
  if slave.isOneOf [str! "о"] && text.isOneOf [str! "всех", str! "мне", str! "всём", str! "что", str! "всей"] then
    return properties.clone [.record .PREPOSITION_FORM_SPECIAL]                      -- line 72
  if ← (← text.nth 0).among NOT_J_VOWELS then
    return properties.clone [.record .PREPOSITION_FORM_ALTERNATIVE]                  -- line 76
  return properties                                                               -- line 82

/-- `_preposition_any` (utg/transformators.py:18-29). -/
def prepositionLoaded (U : PyUni) (slaveWord : LoadedWord) (properties : Properties) (master : LoadedExternal) : Except LoadErr Properties := do
  let slave ← slaveWord.form slaveWord.properties
  if ← (← slave.lastItem).among CONSONANTS then consonantPrepositionLoaded U slave properties master
  else vowelsPrepositionLoaded U slave properties master

/-- `transform(slave_word, slave_propeties, master_form)` (utg/transformators.py:8-15,226-233). -/
def transformLoaded (U : PyUni) (slaveWord : LoadedWord) (slaveProperties : Properties) (master : LoadedExternal) : Except LoadErr Properties :=
  match slaveWord.type, master.word.type with
  | .NOUN, .INTEGER => liftErr (nounInteger slaveProperties)
  | .ADJECTIVE, .INTEGER => liftErr (adjectiveInteger slaveProperties)
  | .VERB, .INTEGER => liftErr (adjectiveInteger slaveProperties)
  | .PRONOUN, .INTEGER => liftErr (nounInteger slaveProperties)
  | .PARTICIPLE, .INTEGER => liftErr (adjectiveInteger slaveProperties)
  | .PREPOSITION, _ => prepositionLoaded U slaveWord slaveProperties master
  | _, _ => .ok slaveProperties

/-- `externals` of `substitute` (utg/templates.py:169). -/
abbrev LoadedExternals := Dict Str LoadedExternal

/-- `s._list_propeties(externals)` (utg/templates.py:77-93). -/
def listPropertiesLoaded (externals : LoadedExternals) : List Dep → Except LoadErr (List Properties × List LoadedExternal)
  | [] => .ok ([], [])
  | .ext n :: deps =>
    match externals.get? n with
    | none => .error (.other (.ExternalDependecyNotFoundError n))
    | some f => do
      let (ps, fs) ← listPropertiesLoaded externals deps
      .ok (f.properties :: ps, f :: fs)
  | .props p :: deps => do
    let (ps, fs) ← listPropertiesLoaded externals deps
    .ok (p :: ps, fs)

/-- The base form of a substitution (utg/templates.py:98-102). -/
def Substitution.baseLoaded (s : Substitution) (externals : LoadedExternals) (dictionary : LoadedDictionary) : Except LoadErr LoadedForm :=
  match externals.get? s.id with
  | some f => .ok f.toLoadedForm
  | none => dictionary.getWord s.id

/-- `s.get_text(externals, dictionary)` (utg/templates.py:96-116). -/
def Substitution.getLoaded (U : PyUni) (s : Substitution) (externals : LoadedExternals) (dictionary : LoadedDictionary) : Except LoadErr Json := do
  let baseForm ← s.baseLoaded externals dictionary
  let (propertiesList, externalWords) ← listPropertiesLoaded externals s.dependencies
  let properties := baseForm.properties.clone ((propertiesList ++ [baseForm.word.properties]).map .props)
  let formProperties ← externalWords.foldlM (transformLoaded U baseForm.word) properties
  baseForm.word.getForm U formProperties

/-- What `%s` makes of a form (utg/templates.py:172); `print` is `str` of what is no text. -/
def Json.shown (print : Json → Str) : Json → Str
  | .str s => s
  | x => print x

/-- `t.substitute(externals, dictionary)` (utg/templates.py:169-172). -/
def Template.fillLoaded (U : PyUni) (print : Json → Str) (t : Template) (externals : LoadedExternals) (dictionary : LoadedDictionary) :
    Except LoadErr Str := do
  let values ← t.substitutions.mapM fun s => s.getLoaded U externals dictionary
  match t.template with
  | none => .error (.other .TypeError)
  | some template => liftErr (pyFormat U template (values.map (Json.shown print)))

end Utg
