import Verif.Model.Objects
import Verif.Model.FillThreads
/-!
# `autofill_missed_forms` and `add_word` of the same words in several threads

Word objects, named by their position, are filled (utg/words.py:189-205) and added to one dictionary (utg/dictionary.py:16-49) at the
same time. The atomic steps are the looks at, and the assignments to, the lists of forms and the entries of the dictionary. Types and
properties of words do not change.
-/

namespace Utg
open Py

/-- Where a call of `add_word` is (utg/dictionary.py:16-49). -/
inductive AddingPC where
  /-- before line 17: these indices are still to come from the generator of `all_forms` (utg/words.py:117-118) -/
  | next (is : List Nat)
  /-- in line 19: `word_form.form` was read -/
  | check (text : Str) (f : FormObj) (is : List Nat)
  /-- before line 23 -/
  | load (text : Str) (f : FormObj) (is : List Nat)
  /-- before line 32, with the registered form -/
  | less (text : Str) (f registered : FormObj) (is : List Nat)
  /-- before line 36 -/
  | greater (text : Str) (f registered : FormObj) (is : List Nat)
  /-- before the assignment of line 20, 26, 33 or 40 -/
  | put (text : Str) (f : FormObj) (is : List Nat)
  /-- returned -/
  | done
  /-- raised -/
  | failed (e : PyErr)
  deriving DecidableEq

/-- One step of `add_word` for the word object `name` (utg/dictionary.py:17-49). The first read of `word_form.form` looks at the forms
(utg/words.py:109-112,227-229); later reads take the cached text (utg/utils.py:9-13). Each of the comparisons of lines 32 and 36 looks at
both lists of forms. -/
def addingStep (U : PyUni) (words : List Word) (d : Dict Str FormObj) (name : Nat) : AddingPC → AddingPC × Dict Str FormObj
  | .next [] => (.done, d)
  | .next (i :: is) => match words[name]? with
    | none => (.failed .AttributeError, d)
    | some w => match w.nthForm i with
      | .error e => (.failed e, d)
      | .ok f => match f.form U with
        | .error e => (.failed e, d)
        | .ok text => (.check text ⟨name, f.properties, f.formProperties, some text⟩ is, d)
  | .check text f is => if d.contains text then (.load text f is, d) else (.put text f is, d)
  | .load text f is => match d.get? text with
    | none => (.failed .KeyError, d)
    | some registered => match words[f.word]?, words[registered.word]? with
      | some w, some v =>
        if w.type.value < v.type.value then (.put text f is, d)
        else if w.type.value > v.type.value then (.next is, d)
        else (.less text f registered is, d)
      | _, _ => (.failed .AttributeError, d)
  | .less text f registered is => match words[f.word]?, words[registered.word]? with
    | some w, some v => if strListLt w.forms v.forms then (.put text f is, d) else (.greater text f registered is, d)
    | _, _ => (.failed .AttributeError, d)
  | .greater text f registered is => match words[f.word]?, words[registered.word]? with
    | some w, some v =>
      if strListLt v.forms w.forms then (.next is, d)
      else if f.properties.manhattanDistance < registered.properties.manhattanDistance then (.put text f is, d)
      else (.next is, d)
    | _, _ => (.failed .AttributeError, d)
  | .put text f is => (.next is, d.set text f)
  | .done => (.done, d)
  | .failed e => (.failed e, d)

/-- The word objects, the attribute `_data` of the dictionary, the calls of `autofill_missed_forms` and those of `add_word`, each with
its word. -/
structure Workshop where
  words : List Word
  data : Dict Str FormObj
  fills : List (Nat × AutofillPC)
  adds : List (Nat × AddingPC)

/-- What can happen: a call begins, or makes a step. -/
inductive WorkshopEvent where
  | fill (word : Nat)
  | add (word : Nat)
  | fillTurn (call : Nat)
  | addTurn (call : Nat)
  deriving DecidableEq

/-- The effect of an event (utg/words.py:189-205, utg/dictionary.py:16-49). Nothing happens if the word does not exist. `range(len(self.forms))`
of `all_forms` (utg/words.py:118) is taken when `add_word` begins. -/
def Workshop.step (U : PyUni) (s : Workshop) : WorkshopEvent → Workshop
  | .fill k => match s.words[k]? with
    | none => s
    | some _ => { s with fills := s.fills ++ [(k, .scan 0 [])] }
  | .add k => match s.words[k]? with
    | none => s
    | some w => { s with adds := s.adds ++ [(k, .next (List.range w.forms.length))] }
  | .fillTurn c => match s.fills[c]? with
    | none => s
    | some (k, pc) => match s.words[k]? with
      | none => s
      | some w => { s with
          words := s.words.set k { w with forms := (autofillTurn w.type w.forms pc).2 }
          fills := s.fills.set c (k, (autofillTurn w.type w.forms pc).1) }
  | .addTurn c => match s.adds[c]? with
    | none => s
    | some (k, pc) => { s with
        data := (addingStep U s.words s.data k pc).2
        adds := s.adds.set c (k, (addingStep U s.words s.data k pc).1) }

end Utg
