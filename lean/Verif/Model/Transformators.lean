import Verif.Model.Words
/-!
# `utg/transformators.py`
-/

namespace Utg
open Py

/-- `_consonant_preposition_any` (utg/transformators.py:32-59); `and` short-circuits as in Python. -/
def consonantPrepositionAny (U : PyUni) (slave : Str) (properties : Properties) (masterForm : WordForm) :
    Except PyErr Properties := do
  let master ← masterForm.form U                                                  -- line 35
  let first ← do                                                                  -- lines 39-41
    if ← masterForm.startsWithConsonantCluster U then
      if (← masterForm.word.numberOfSyllables) = 1 then masterForm.word.hasFluentVowel
      else .ok false
    else .ok false
  if first then return properties.clone [.record .PREPOSITION_FORM_ALTERNATIVE]      -- line 42
  let second ← do                                                                 -- lines 45-47
    if slave = str! "в" ∨ slave = str! "с" then
      if slave = [← Py.first master] then masterForm.startsWithConsonantCluster U
      else .ok false
    else .ok false
  if second then return properties.clone [.record .PREPOSITION_FORM_ALTERNATIVE]     -- line 48
  return properties                                                               -- line 59

/-- `_vowels_preposition_any` (utg/transformators.py:62-82). -/
def vowelsPrepositionAny (U : PyUni) (slave : Str) (properties : Properties) (masterForm : WordForm) :
    Except PyErr Properties := do
  let master ← masterForm.form U                                                  -- line 65
  if slave = str! "о" ∧
      master ∈ [str! "всех", str! "мне", str! "всём", str! "что", str! "всей"] then
    return properties.clone [.record .PREPOSITION_FORM_SPECIAL]                      -- line 72
  if NOT_J_VOWELS.contains (← Py.first master) then
    return properties.clone [.record .PREPOSITION_FORM_ALTERNATIVE]                  -- line 76
  return properties                                                               -- line 82

/-- `_preposition_any` (utg/transformators.py:18-29). -/
def prepositionAny (U : PyUni) (slaveWord : Word) (properties : Properties) (masterForm : WordForm) :
    Except PyErr Properties := do
  let slave ← slaveWord.normalForm
  if CONSONANTS.contains (← Py.last slave) then consonantPrepositionAny U slave properties masterForm
  else vowelsPrepositionAny U slave properties masterForm

/-- `_noun_integer` (utg/transformators.py:86-150). -/
def nounInteger (properties : Properties) : Except PyErr Properties := do
  let integerForm ← properties.getRec .INTEGER_FORM
  if (← properties.getRec .DEPENDENCY_MODE) = .DEPENDENCY_MODE_SEMANTIC then
    if integerForm = .INTEGER_FORM_SINGULAR then
      return properties.clone [.record .NOUN_FORM_NORMAL, .record .NUMBER_SINGULAR]                       -- line 93
    else
      return properties.clone [.record .NOUN_FORM_NORMAL, .record .NUMBER_PLURAL]                         -- line 95
  let case ← properties.getRec .CASE
  let animality ← properties.getRec .ANIMALITY
  if integerForm = .INTEGER_FORM_SINGULAR then
    return properties.clone [.record .NOUN_FORM_NORMAL, .record .NUMBER_SINGULAR]                         -- line 103
  if integerForm = .INTEGER_FORM_DUAL then
    if case = .CASE_NOMINATIVE then
      return properties.clone [.record .NOUN_FORM_NORMAL, .record .NUMBER_SINGULAR, .record .CASE_GENITIVE]  -- line 110
    if case = .CASE_ACCUSATIVE ∧ animality = .ANIMALITY_INANIMATE then
      return properties.clone [.record .NOUN_FORM_NORMAL, .record .NUMBER_SINGULAR, .record .CASE_GENITIVE]  -- line 112
    return properties.clone [.record .NOUN_FORM_COUNTABLE, .record .NUMBER_PLURAL]                        -- line 113
  if integerForm = .INTEGER_FORM_COMPOSITE_DUAL then
    if case = .CASE_NOMINATIVE then
      return properties.clone [.record .NOUN_FORM_NORMAL, .record .NUMBER_SINGULAR, .record .CASE_GENITIVE]  -- line 120
    if case = .CASE_ACCUSATIVE then
      return properties.clone [.record .NOUN_FORM_NORMAL, .record .NUMBER_SINGULAR, .record .CASE_GENITIVE]  -- line 122
    return properties.clone [.record .NOUN_FORM_COUNTABLE, .record .NUMBER_PLURAL]                        -- line 123
  if integerForm = .INTEGER_FORM_PLURAL then
    if case = .CASE_NOMINATIVE then
      return properties.clone [.record .NOUN_FORM_COUNTABLE, .record .NUMBER_PLURAL, .record .CASE_GENITIVE] -- line 135
    if case = .CASE_ACCUSATIVE then
      return properties.clone [.record .NOUN_FORM_COUNTABLE, .record .NUMBER_PLURAL, .record .CASE_GENITIVE] -- line 137
    return properties.clone [.record .NOUN_FORM_COUNTABLE, .record .NUMBER_PLURAL]                        -- line 138
  if integerForm = .INTEGER_FORM_MIL_BIL then
    return properties.clone [.record .NOUN_FORM_COUNTABLE, .record .NUMBER_PLURAL, .record .CASE_GENITIVE]   -- line 143
  throw .UnknownIntegerFormError                                                                    -- line 150

/-- `_adjective_integer` (utg/transformators.py:153-223). -/
def adjectiveInteger (properties : Properties) : Except PyErr Properties := do
  let integerForm ← properties.getRec .INTEGER_FORM
  if (← properties.getRec .DEPENDENCY_MODE) = .DEPENDENCY_MODE_SEMANTIC then
    if integerForm = .INTEGER_FORM_SINGULAR then
      return properties.clone [.record .NUMBER_SINGULAR]                               -- line 160
    else
      return properties.clone [.record .NUMBER_PLURAL]                                 -- line 162
  let case ← properties.getRec .CASE
  let gender ← properties.getRec .GENDER
  if integerForm = .INTEGER_FORM_SINGULAR then
    return properties.clone [.record .NUMBER_SINGULAR]                                 -- line 170
  if integerForm = .INTEGER_FORM_DUAL then
    if case = .CASE_NOMINATIVE ∨ case = .CASE_ACCUSATIVE then
      if gender = .GENDER_MASCULINE ∨ gender = .GENDER_NEUTER then
        return properties.clone [.record .NUMBER_PLURAL, .record .CASE_GENITIVE]          -- line 183
      if gender = .GENDER_FEMININE then
        return properties.clone [.record .NUMBER_PLURAL, .record .CASE_NOMINATIVE]        -- line 186
    else
      return properties.clone [.record .NUMBER_PLURAL]                                 -- line 188
  if integerForm = .INTEGER_FORM_COMPOSITE_DUAL then
    if case = .CASE_NOMINATIVE then
      return properties.clone [.record .NUMBER_SINGULAR, .record .CASE_GENITIVE]          -- line 195
    if case = .CASE_ACCUSATIVE then
      return properties.clone [.record .NUMBER_SINGULAR, .record .CASE_GENITIVE]          -- line 197
    return properties.clone [.record .NUMBER_PLURAL]                                   -- line 198
  if integerForm = .INTEGER_FORM_PLURAL then
    if case = .CASE_NOMINATIVE then
      return properties.clone [.record .NUMBER_PLURAL, .record .CASE_GENITIVE]            -- line 209
    if case = .CASE_ACCUSATIVE then
      return properties.clone [.record .NUMBER_PLURAL, .record .CASE_GENITIVE]            -- line 211
    return properties.clone [.record .NUMBER_PLURAL]                                   -- line 212
  if integerForm = .INTEGER_FORM_MIL_BIL then
    return properties.clone [.record .NUMBER_PLURAL, .record .CASE_GENITIVE]              -- line 217
  throw .UnknownIntegerFormError                                                    -- line 223

/-- `transform(slave_word, slave_propeties, master_form)` with the table `_TRANSFORMATORS` (utg/transformators.py:8-15,
226-233). -/
def transform (U : PyUni) (slaveWord : Word) (slaveProperties : Properties) (masterForm : WordForm) :
    Except PyErr Properties :=
  match slaveWord.type, masterForm.word.type with
  | .NOUN, .INTEGER => nounInteger slaveProperties                                  -- line 226
  | .ADJECTIVE, .INTEGER => adjectiveInteger slaveProperties                        -- line 227
  | .VERB, .INTEGER => adjectiveInteger slaveProperties                             -- line 228
  | .PRONOUN, .INTEGER => nounInteger slaveProperties                               -- line 229
  | .PARTICIPLE, .INTEGER => adjectiveInteger slaveProperties                       -- line 230
  | .PREPOSITION, _ => prepositionAny U slaveWord slaveProperties masterForm        -- lines 232-233
  | _, _ => .ok slaveProperties                                                     -- line 15

end Utg
