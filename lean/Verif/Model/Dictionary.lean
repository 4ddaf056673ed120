import Verif.Model.Words
/-!
# `utg/dictionary.py`

Words and word forms are values here; words that are changed after they were added are in `Verif.Model.Objects`.
-/

namespace Utg
open Py

/-- `Dictionary._data` (utg/dictionary.py:7,10): text ↦ registered word form. -/
abbrev Dictionary := Dict Str WordForm

/-- The chain of comparisons of utg/dictionary.py:25-49: does `new` replace `registered`? Lists of forms are compared like
Python lists of strings; line 46-49 never replaces. -/
def replaces (new registered : WordForm) : Bool :=
  if new.word.type.value < registered.word.type.value then true
  else if new.word.type.value > registered.word.type.value then false
  else if strListLt new.word.forms registered.word.forms then true
  else if strListLt registered.word.forms new.word.forms then false
  else if new.properties.manhattanDistance < registered.properties.manhattanDistance then true
  else false

/-- The body of the loop in `add_word` (utg/dictionary.py:19-49) for a word form spelled `text`. -/
def Dictionary.register (d : Dictionary) (text : Str) (f : WordForm) : Dictionary :=
  match d.get? text with
  | none => d.set text f
  | some registered => if replaces f registered then d.set text f else d

/-- The loop of `add_word` (utg/dictionary.py:17-49) over the remaining indices. An exception (a form that cannot be spelled)
leaves the forms registered so far in place. -/
def Dictionary.addForms (U : PyUni) (w : Word) : Dictionary → List Nat → Dictionary × Option PyErr
  | d, [] => (d, none)
  | d, i :: is =>
    match w.nthForm i with
    | .error e => (d, some e)
    | .ok f => match f.form U with
      | .error e => (d, some e)
      | .ok text => Dictionary.addForms U w (d.register text f) is

/-- `d.add_word(word)` (utg/dictionary.py:16-49): the new state and the exception raised, if any. -/
def Dictionary.addWord (U : PyUni) (d : Dictionary) (w : Word) : Dictionary × Option PyErr :=
  d.addForms U w (List.range w.forms.length)

/-- `Dictionary(words)` (utg/dictionary.py:9-13). -/
def Dictionary.new (U : PyUni) (words : List Word) : Except PyErr Dictionary :=
  words.foldlM (fun d w => match d.addWord U w with
    | (d', none) => .ok d'
    | (_, some e) => .error e) []

/-- `d.has_word(text)` (utg/dictionary.py:52-53). -/
def Dictionary.hasWord (d : Dictionary) (text : Str) : Bool := Dict.contains d text

/-- `d.get_word(text)` (utg/dictionary.py:55-62). -/
def Dictionary.getWord (d : Dictionary) (text : Str) : Except PyErr WordForm :=
  match Dict.get? d text with
  | none => .error (.NoWordsFoundError text)
  | some f => .ok f

/-- `set.add` on a Python set of words: keeps the present element if an equal one is there. The set is given as a list. -/
def setAdd (s : List Word) (w : Word) : List Word := if s.any (fun v => v.eq w) then s else s ++ [w]

/-- `d.get_words()` (utg/dictionary.py:64-65). -/
def Dictionary.getWords (d : Dictionary) : List Word := (d.map fun kv => kv.2.word).foldl setAdd []

end Utg
