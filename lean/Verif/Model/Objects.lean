import Verif.Model.Dictionary
/-!
# Words and word forms as mutable objects

`Verif.Model.Words` and `Verif.Model.Dictionary` treat words as values. In the program a `Word` is an object: its `forms` can be
assigned and `autofill_missed_forms` changes them in place, a `WordForm` refers to its word, and lazy attributes keep what was
first read (utg/utils.py:7-19). This module models one dictionary and any number of word objects. Words are named by their
position in the order of creation. `Properties` objects have no public method that changes them, so they stay values.
-/

namespace Utg
open Py

/-- A `Word` object (utg/words.py:79-80): its fields and the hidden attributes `_lazy__number_of_syllables`,
`_lazy__has_fluent_vowel`, absent at first. -/
structure WordObj where
  value : Word
  syllables : Option Nat
  fluent : Option Bool
  deriving DecidableEq, Repr

/-- A `WordForm` object (utg/words.py:209-215): a reference to its word, its properties and the hidden attribute `_lazy__form`.
`_lazy__starts_with_consonant_cluster` is left out: dictionaries never read it. -/
structure FormObj where
  word : Nat
  properties : Properties
  formProperties : Properties
  cached : Option Str
  deriving DecidableEq, Repr

/-- All word objects and the attribute `_data` of the dictionary (utg/dictionary.py:7,10). -/
structure Heap where
  words : List WordObj
  data : Dict Str FormObj
  deriving DecidableEq, Repr

/-- What a word form is as a value, with the word as it is now. -/
def FormObj.value (words : List WordObj) (f : FormObj) : Option WordForm :=
  (words[f.word]?).map fun w => ⟨w.value, f.properties, f.formProperties⟩

/-- Reading `word_form.form` (utg/words.py:227-229 with utg/utils.py:9-13). -/
def FormObj.read (U : PyUni) (words : List WordObj) (f : FormObj) : Except PyErr (Str × FormObj) :=
  match f.cached with
  | some s => .ok (s, f)
  | none => match f.value words with
    | none => .error .AttributeError
    | some v => do
      let s ← v.form U
      .ok (s, { f with cached := some s })

/-- The `i`-th item of `word.all_forms()` (utg/words.py:117-118): a new object each time. -/
def WordObj.nthForm (w : WordObj) (name i : Nat) : Except PyErr FormObj := do
  let f ← w.value.nthForm i
  .ok ⟨name, f.properties, f.formProperties, none⟩

/-- The comparisons of utg/dictionary.py:25-49; both words are looked at as they are now. -/
def replacesObj (words : List WordObj) (new registered : FormObj) : Bool :=
  match new.value words, registered.value words with
  | some f, some g => replaces f g
  | _, _ => false

/-- The body of the loop of `add_word` (utg/dictionary.py:19-49) for a word form whose `form` was just read. -/
def registerObj (words : List WordObj) (d : Dict Str FormObj) (text : Str) (f : FormObj) : Dict Str FormObj :=
  match d.get? text with
  | none => d.set text f
  | some registered => if replacesObj words f registered then d.set text f else d

/-- The loop of `add_word` (utg/dictionary.py:17-49) over the remaining indices. -/
def addFormsObj (U : PyUni) (words : List WordObj) (w : WordObj) (name : Nat) :
    Dict Str FormObj → List Nat → Dict Str FormObj × Option PyErr
  | d, [] => (d, none)
  | d, i :: is =>
    match w.nthForm name i with
    | .error e => (d, some e)
    | .ok f => match f.read U words with
      | .error e => (d, some e)
      | .ok (text, f) => addFormsObj U words w name (registerObj words d text f) is

/-- What a user can do with words and the dictionary. -/
inductive Op where
  /-- `Word(type, forms, properties)` (utg/words.py:82-91) -/
  | create (type : WordType) (forms : List Str) (properties : Properties)
  /-- `word.forms[i] = text` -/
  | setForm (word i : Nat) (text : Str)
  /-- `word.properties = properties` -/
  | setProperties (word : Nat) (properties : Properties)
  /-- `word.autofill_missed_forms()` (utg/words.py:189-205) -/
  | autofill (word : Nat)
  /-- reading `word.number_of_syllables` (utg/words.py:169-172) -/
  | syllables (word : Nat)
  /-- reading `word.has_fluent_vowel` (utg/words.py:174-187) -/
  | fluent (word : Nat)
  /-- `dictionary.add_word(word)` (utg/dictionary.py:16-49) -/
  | add (word : Nat)
  deriving DecidableEq, Repr

/-- Reading `word.number_of_syllables` (utg/words.py:169-172, utg/utils.py:9-13). -/
def WordObj.readSyllables (w : WordObj) : Except PyErr (Nat × WordObj) :=
  match w.syllables with
  | some n => .ok (n, w)
  | none => do
    let n ← w.value.numberOfSyllables
    .ok (n, { w with syllables := some n })

/-- Reading `word.has_fluent_vowel` (utg/words.py:174-187, utg/utils.py:9-13). -/
def WordObj.readFluent (w : WordObj) : Except PyErr (Bool × WordObj) :=
  match w.fluent with
  | some b => .ok (b, w)
  | none => do
    let b ← w.value.hasFluentVowel
    .ok (b, { w with fluent := some b })

/-- Replace one word object. -/
def Heap.change (h : Heap) (name : Nat) (f : WordObj → WordObj) : Heap :=
  match h.words[name]? with
  | none => h
  | some w => { h with words := h.words.set name (f w) }

/-- One operation. An operation on a word that does not exist, a call of `Word` that raises and a reading that raises change
nothing; `autofill_missed_forms` never raises here (`C77_no_errors`), so what it leaves behind then is not modelled. -/
def Heap.step (U : PyUni) (h : Heap) : Op → Heap
  | .create t forms p => match Word.new t forms p with
    | .error _ => h
    | .ok w => { h with words := h.words ++ [⟨w, none, none⟩] }
  | .setForm name i text => h.change name fun w => { w with value := { w.value with forms := w.value.forms.set i text } }
  | .setProperties name p => h.change name fun w => { w with value := { w.value with properties := p } }
  | .autofill name => h.change name fun w => match w.value.autofillMissedForms with
    | .error _ => w
    | .ok v => { w with value := v }
  | .syllables name => h.change name fun w => match w.readSyllables with
    | .error _ => w
    | .ok (_, w') => w'
  | .fluent name => h.change name fun w => match w.readFluent with
    | .error _ => w
    | .ok (_, w') => w'
  | .add name => match h.words[name]? with
    | none => h
    | some w => { h with data := (addFormsObj U h.words w name h.data (List.range w.value.forms.length)).1 }

/-- The program's memory after a sequence of operations. -/
def Heap.after (U : PyUni) (ops : List Op) : Heap := ops.foldl (Heap.step U) ⟨[], []⟩

/-- `dictionary.has_word(text)` (utg/dictionary.py:52-53). -/
def Heap.hasWord (h : Heap) (text : Str) : Bool := Dict.contains h.data text

/-- `dictionary.get_word(text)` (utg/dictionary.py:55-62). -/
def Heap.getWord (h : Heap) (text : Str) : Except PyErr FormObj :=
  match Dict.get? h.data text with
  | none => .error (.NoWordsFoundError text)
  | some f => .ok f

/-- The dictionary as a value, with every word as it is now: what `Substitution.get_text` sees (utg/templates.py:96-116 reads
`word`, `properties` and `form_properties` of dictionary entries, never their cached `form`). -/
def Heap.snapshot (h : Heap) : Dictionary :=
  h.data.filterMap fun e => (e.2.value h.words).map fun v => (e.1, v)

end Utg
