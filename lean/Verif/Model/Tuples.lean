import Verif.Model.Dictionary
/-!
# `utg/words.py`, `utg/dictionary.py`: words whose forms are a list or a tuple

`Word(type, forms, properties)` keeps the sequence it is given. Indexing and `len` do not tell lists and tuples apart; comparison and
assignment do. In `Verif.Model.Words` all words have lists.
-/

namespace Utg
open Py

/-- A word, and whether its forms are a tuple. -/
structure SeqWord where
  word : Word
  tuple : Bool
  deriving DecidableEq

/-- `v == w` (utg/words.py:119-123): a list is never equal to a tuple. -/
def SeqWord.eq (v w : SeqWord) : Bool := v.word.eq w.word && (v.tuple == w.tuple)

/-- Data of a word as Python objects, or as read from a JSON text, where there are no tuples. -/
structure SeqData where
  data : WordData
  tuple : Bool

/-- `w.serialize()` (utg/words.py:92-95): the sequence itself is handed out. -/
def SeqWord.serialize (w : SeqWord) : SeqData := ⟨w.word.serialize, w.tuple⟩

/-- `Word.deserialize(data)` (utg/words.py:97-101): the sequence itself is kept. -/
def SeqWord.deserialize (d : SeqData) : Except PyErr SeqWord := do .ok ⟨← Word.deserialize d.data, d.tuple⟩

/-- `self.forms[i] = f`: tuples cannot be assigned to. -/
def setItem (tuple : Bool) (forms : List Str) (i : Nat) (f : Str) : Except PyErr (List Str) :=
  if tuple then .error .TypeError else .ok (forms.set i f)

/-- One round of the loop in `autofill_missed_forms` (utg/words.py:196-205). -/
def autofillStepSeq (tuple : Bool) (t : WordType) (available : List Key) (forms : List Str) (i : Nat) : Except PyErr (List Str) :=
  match forms[i]? with
  | none => .error .IndexError
  | some form =>
    if form ≠ [] then .ok forms
    else match (invertedCache t)[i]? with
      | none => .error .IndexError
      | some key => match getNearestKey key available with
        | none => .ok forms
        | some nearest => match (wordsCache t).get? nearest with
          | none => .error .KeyError
          | some j => match forms[j]? with
            | none => .error .IndexError
            | some f => setItem tuple forms i f

/-- `w.autofill_missed_forms()` (utg/words.py:189-205). -/
def SeqWord.autofillMissedForms (w : SeqWord) : Except PyErr SeqWord := do
  let available ← availableKeys w.word.type w.word.forms
  let forms ← (List.range w.word.forms.length).foldlM (autofillStepSeq w.tuple w.word.type available) w.word.forms
  .ok { w with word := { w.word with forms := forms } }

/-- `Dictionary._data` (utg/dictionary.py:7,10): text ↦ registered word form, and whether the forms of its word are a tuple. -/
abbrev SeqDictionary := Dict Str (WordForm × Bool)

/-- The chain of comparisons of utg/dictionary.py:25-49. A list and a tuple cannot be compared with `<` (line 32). -/
def replacesSeq (new registered : WordForm × Bool) : Except PyErr Bool :=
  if new.1.word.type.value < registered.1.word.type.value then .ok true
  else if new.1.word.type.value > registered.1.word.type.value then .ok false
  else if new.2 ≠ registered.2 then .error .TypeError
  else if strListLt new.1.word.forms registered.1.word.forms then .ok true
  else if strListLt registered.1.word.forms new.1.word.forms then .ok false
  else if new.1.properties.manhattanDistance < registered.1.properties.manhattanDistance then .ok true
  else .ok false

/-- The body of the loop in `add_word` (utg/dictionary.py:19-49) for a word form spelled `text`. -/
def SeqDictionary.register (d : SeqDictionary) (text : Str) (f : WordForm × Bool) : Except PyErr SeqDictionary :=
  match Dict.get? d text with
  | none => .ok (Dict.set d text f)
  | some registered => do
    let b ← replacesSeq f registered
    .ok (if b then Dict.set d text f else d)

/-- The loop of `add_word` (utg/dictionary.py:17-49) over the remaining indices. -/
def SeqDictionary.addForms (U : PyUni) (w : SeqWord) : SeqDictionary → List Nat → SeqDictionary × Option PyErr
  | d, [] => (d, none)
  | d, i :: is =>
    match w.word.nthForm i with
    | .error e => (d, some e)
    | .ok f => match f.form U with
      | .error e => (d, some e)
      | .ok text => match SeqDictionary.register d text (f, w.tuple) with
        | .error e => (d, some e)
        | .ok d' => SeqDictionary.addForms U w d' is

/-- `d.add_word(word)` (utg/dictionary.py:16-49). -/
def SeqDictionary.addWord (U : PyUni) (d : SeqDictionary) (w : SeqWord) : SeqDictionary × Option PyErr :=
  SeqDictionary.addForms U w d (List.range w.word.forms.length)

end Utg
