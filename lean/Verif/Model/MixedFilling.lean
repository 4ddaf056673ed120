import Verif.Model.MixedProperties
import Verif.Model.Templates
/-!
# Filling a template with words that have something that is no property

As in `Verif.Model.MixedProperties`. Templates are as `parse` makes them; their own properties are proper.
-/

namespace Utg
open Py

/-- `p.clone(*records)` (utg/words.py:52-53). -/
def MixedProps.cloneRecords (p : MixedProps) (records : List Rec) : MixedProps :=
  ⟨records.foldl (fun d r => Dict.set d (.inl r.group) (.inl r)) (Dict.update [] p.data)⟩

/-- `p.clone(*others)` with other `Properties` (utg/words.py:52-53). -/
def MixedProps.cloneProps (p : MixedProps) (others : List MixedProps) : MixedProps :=
  ⟨others.foldl (fun d q => Dict.update d q.data) (Dict.update [] p.data)⟩

/-- `x.is_...` on the result of `p.get(g)`: `None` has no such attribute. -/
def MixedProps.getRec (p : MixedProps) (g : Group) : Except PyErr Rec :=
  match p.get g with
  | none => .error .AttributeError
  | some r => .ok r

/-- `w.normal_form()` (utg/words.py:114-115). -/
def MixedWord.normalForm (w : MixedWord) : Except PyErr Str := w.form w.properties

/-- `w.number_of_syllables` (utg/words.py:169-171), which looks at the forms only. -/
def MixedWord.numberOfSyllables (w : MixedWord) : Except PyErr Nat := (⟨w.type, w.forms, .new []⟩ : Word).numberOfSyllables

/-- `w.has_fluent_vowel` (utg/words.py:174-187), which looks at the forms only. -/
def MixedWord.hasFluentVowel (w : MixedWord) : Except PyErr Bool := (⟨w.type, w.forms, .new []⟩ : Word).hasFluentVowel

/-- `f.starts_with_consonant_cluster` (utg/words.py:231-234). -/
def MixedForm.startsWithConsonantCluster (U : PyUni) (f : MixedForm) : Except PyErr Bool := do
  consonantCluster (← f.form U)

/-- `_consonant_preposition_any` (utg/transformators.py:32-59); `and` short-circuits as in Python. -/
def consonantPrepositionMixed (U : PyUni) (slave : Str) (properties : MixedProps) (masterForm : MixedForm) :
    Except PyErr MixedProps := do
  let master ← masterForm.form U                                                  -- line 35
  let first ← do                                                                  -- lines 39-41
    if ← masterForm.startsWithConsonantCluster U then
      if (← masterForm.word.numberOfSyllables) = 1 then masterForm.word.hasFluentVowel
      else .ok false
    else .ok false
  if first then return properties.cloneRecords [.PREPOSITION_FORM_ALTERNATIVE]      -- line 42
  let second ← do                                                                 -- lines 45-47
    if slave = str! "в" ∨ slave = str! "с" then
      if slave = [← Py.first master] then masterForm.startsWithConsonantCluster U
      else .ok false
    else .ok false
  if second then return properties.cloneRecords [.PREPOSITION_FORM_ALTERNATIVE]     -- line 48
  return properties                                                               -- line 59

/-- `_vowels_preposition_any` (utg/transformators.py:62-82). -/
def vowelsPrepositionMixed (U : PyUni) (slave : Str) (properties : MixedProps) (masterForm : MixedForm) :
    Except PyErr MixedProps := do
  let master ← masterForm.form U                                                  -- line 65
  if slave = str! "о" ∧
      master ∈ [str! "всех", str! "мне", str! "всём", str! "что", str! "всей"] then
    return properties.cloneRecords [.PREPOSITION_FORM_SPECIAL]                      -- line 72
  if NOT_J_VOWELS.contains (← Py.first master) then
    return properties.cloneRecords [.PREPOSITION_FORM_ALTERNATIVE]                  -- line 76
  return properties                                                               -- line 82

/-- `_preposition_any` (utg/transformators.py:18-29). -/
def prepositionMixed (U : PyUni) (slaveWord : MixedWord) (properties : MixedProps) (masterForm : MixedForm) :
    Except PyErr MixedProps := do
  let slave ← slaveWord.normalForm
  if CONSONANTS.contains (← Py.last slave) then consonantPrepositionMixed U slave properties masterForm
  else vowelsPrepositionMixed U slave properties masterForm

/-- `_noun_integer` (utg/transformators.py:86-150). -/
def nounIntegerMixed (properties : MixedProps) : Except PyErr MixedProps := do
  let integerForm ← properties.getRec .INTEGER_FORM
  if (← properties.getRec .DEPENDENCY_MODE) = .DEPENDENCY_MODE_SEMANTIC then
    if integerForm = .INTEGER_FORM_SINGULAR then
      return properties.cloneRecords [.NOUN_FORM_NORMAL, .NUMBER_SINGULAR]                       -- line 93
    else
      return properties.cloneRecords [.NOUN_FORM_NORMAL, .NUMBER_PLURAL]                         -- line 95
  let case ← properties.getRec .CASE
  let animality ← properties.getRec .ANIMALITY
  if integerForm = .INTEGER_FORM_SINGULAR then
    return properties.cloneRecords [.NOUN_FORM_NORMAL, .NUMBER_SINGULAR]                         -- line 103
  if integerForm = .INTEGER_FORM_DUAL then
    if case = .CASE_NOMINATIVE then
      return properties.cloneRecords [.NOUN_FORM_NORMAL, .NUMBER_SINGULAR, .CASE_GENITIVE]  -- line 110
    if case = .CASE_ACCUSATIVE ∧ animality = .ANIMALITY_INANIMATE then
      return properties.cloneRecords [.NOUN_FORM_NORMAL, .NUMBER_SINGULAR, .CASE_GENITIVE]  -- line 112
    return properties.cloneRecords [.NOUN_FORM_COUNTABLE, .NUMBER_PLURAL]                        -- line 113
  if integerForm = .INTEGER_FORM_COMPOSITE_DUAL then
    if case = .CASE_NOMINATIVE then
      return properties.cloneRecords [.NOUN_FORM_NORMAL, .NUMBER_SINGULAR, .CASE_GENITIVE]  -- line 120
    if case = .CASE_ACCUSATIVE then
      return properties.cloneRecords [.NOUN_FORM_NORMAL, .NUMBER_SINGULAR, .CASE_GENITIVE]  -- line 122
    return properties.cloneRecords [.NOUN_FORM_COUNTABLE, .NUMBER_PLURAL]                        -- line 123
  if integerForm = .INTEGER_FORM_PLURAL then
    if case = .CASE_NOMINATIVE then
      return properties.cloneRecords [.NOUN_FORM_COUNTABLE, .NUMBER_PLURAL, .CASE_GENITIVE] -- line 135
    if case = .CASE_ACCUSATIVE then
      return properties.cloneRecords [.NOUN_FORM_COUNTABLE, .NUMBER_PLURAL, .CASE_GENITIVE] -- line 137
    return properties.cloneRecords [.NOUN_FORM_COUNTABLE, .NUMBER_PLURAL]                        -- line 138
  if integerForm = .INTEGER_FORM_MIL_BIL then
    return properties.cloneRecords [.NOUN_FORM_COUNTABLE, .NUMBER_PLURAL, .CASE_GENITIVE]   -- line 143
  throw .UnknownIntegerFormError                                                                    -- line 150

/-- `_adjective_integer` (utg/transformators.py:153-223). -/
def adjectiveIntegerMixed (properties : MixedProps) : Except PyErr MixedProps := do
  let integerForm ← properties.getRec .INTEGER_FORM
  if (← properties.getRec .DEPENDENCY_MODE) = .DEPENDENCY_MODE_SEMANTIC then
    if integerForm = .INTEGER_FORM_SINGULAR then
      return properties.cloneRecords [.NUMBER_SINGULAR]                               -- line 160
    else
      return properties.cloneRecords [.NUMBER_PLURAL]                                 -- line 162
  let case ← properties.getRec .CASE
  let gender ← properties.getRec .GENDER
  if integerForm = .INTEGER_FORM_SINGULAR then
    return properties.cloneRecords [.NUMBER_SINGULAR]                                 -- line 170
  if integerForm = .INTEGER_FORM_DUAL then
    if case = .CASE_NOMINATIVE ∨ case = .CASE_ACCUSATIVE then
      if gender = .GENDER_MASCULINE ∨ gender = .GENDER_NEUTER then
        return properties.cloneRecords [.NUMBER_PLURAL, .CASE_GENITIVE]          -- line 183
      if gender = .GENDER_FEMININE then
        return properties.cloneRecords [.NUMBER_PLURAL, .CASE_NOMINATIVE]        -- line 186
    else
      return properties.cloneRecords [.NUMBER_PLURAL]                                 -- line 188
  if integerForm = .INTEGER_FORM_COMPOSITE_DUAL then
    if case = .CASE_NOMINATIVE then
      return properties.cloneRecords [.NUMBER_SINGULAR, .CASE_GENITIVE]          -- line 195
    if case = .CASE_ACCUSATIVE then
      return properties.cloneRecords [.NUMBER_SINGULAR, .CASE_GENITIVE]          -- line 197
    return properties.cloneRecords [.NUMBER_PLURAL]                                   -- line 198
  if integerForm = .INTEGER_FORM_PLURAL then
    if case = .CASE_NOMINATIVE then
      return properties.cloneRecords [.NUMBER_PLURAL, .CASE_GENITIVE]            -- line 209
    if case = .CASE_ACCUSATIVE then
      return properties.cloneRecords [.NUMBER_PLURAL, .CASE_GENITIVE]            -- line 211
    return properties.cloneRecords [.NUMBER_PLURAL]                                   -- line 212
  if integerForm = .INTEGER_FORM_MIL_BIL then
    return properties.cloneRecords [.NUMBER_PLURAL, .CASE_GENITIVE]              -- line 217
  throw .UnknownIntegerFormError                                                    -- line 223

/-- `transform(slave_word, slave_propeties, master_form)` with the table `_TRANSFORMATORS` (utg/transformators.py:8-15,
226-233). -/
def transformMixed (U : PyUni) (slaveWord : MixedWord) (slaveProperties : MixedProps) (masterForm : MixedForm) :
    Except PyErr MixedProps :=
  match slaveWord.type, masterForm.word.type with
  | .NOUN, .INTEGER => nounIntegerMixed slaveProperties                                  -- line 226
  | .ADJECTIVE, .INTEGER => adjectiveIntegerMixed slaveProperties                        -- line 227
  | .VERB, .INTEGER => adjectiveIntegerMixed slaveProperties                             -- line 228
  | .PRONOUN, .INTEGER => nounIntegerMixed slaveProperties                               -- line 229
  | .PARTICIPLE, .INTEGER => adjectiveIntegerMixed slaveProperties                       -- line 230
  | .PREPOSITION, _ => prepositionMixed U slaveWord slaveProperties masterForm        -- lines 232-233
  | _, _ => .ok slaveProperties                                                     -- line 15

/-- `externals` of `substitute` (utg/templates.py:169). -/
abbrev MixedExternals := Dict Str MixedForm

/-- A proper `Properties` object as one of these. -/
def MixedProps.ofProperties (p : Properties) : MixedProps := ⟨p.data.map fun kv => (.inl kv.1, .inl kv.2)⟩

/-- `s._list_propeties(externals)` (utg/templates.py:77-93). -/
def listPropertiesMixed (externals : MixedExternals) : List Dep → Except PyErr (List MixedProps × List MixedForm)
  | [] => .ok ([], [])
  | .ext n :: deps =>
    match externals.get? n with
    | none => .error (.ExternalDependecyNotFoundError n)
    | some f => do
      let (ps, fs) ← listPropertiesMixed externals deps
      .ok (f.properties :: ps, f :: fs)
  | .props p :: deps => do
    let (ps, fs) ← listPropertiesMixed externals deps
    .ok (.ofProperties p :: ps, fs)

/-- The base form of a substitution (utg/templates.py:98-102) and `d.get_word(text)` (utg/dictionary.py:55-62). -/
def Substitution.baseMixed (s : Substitution) (externals : MixedExternals) (dictionary : MixedDictionary) : Except PyErr MixedForm :=
  match externals.get? s.id with
  | some f => .ok f
  | none => match Dict.get? dictionary s.id with
    | none => .error (.NoWordsFoundError s.id)
    | some f => .ok f

/-- `WordForm.get_form(word, properties)` (utg/words.py:218-225). -/
def MixedForm.getForm (U : PyUni) (word : MixedWord) (properties : MixedProps) : Except PyErr Str := do
  let form ← word.formRaw properties
  let wc ← properties.getRec .WORD_CASE
  if wc = .WORD_CASE_UPPER then upperFirst U form else .ok form

/-- `s.get_text(externals, dictionary)` (utg/templates.py:96-116). -/
def Substitution.getMixed (U : PyUni) (s : Substitution) (externals : MixedExternals) (dictionary : MixedDictionary) : Except PyErr Str := do
  let baseForm ← s.baseMixed externals dictionary
  let (propertiesList, externalWords) ← listPropertiesMixed externals s.dependencies
  let properties := baseForm.properties.cloneProps (propertiesList ++ [baseForm.word.properties])
  let formProperties ← externalWords.foldlM (transformMixed U baseForm.word) properties
  MixedForm.getForm U baseForm.word formProperties

/-- `t.substitute(externals, dictionary)` (utg/templates.py:169-172). -/
def Template.fillMixed (U : PyUni) (t : Template) (externals : MixedExternals) (dictionary : MixedDictionary) : Except PyErr Str := do
  let texts ← t.substitutions.mapM fun s => s.getMixed U externals dictionary
  match t.template with
  | none => .error .TypeError
  | some template => pyFormat U template texts

end Utg
