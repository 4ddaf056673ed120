import Verif.Model.Threads
/-!
# Whole calls of `Dictionary.add_word` in several threads

`Model/Threads.lean` splits the registration of one word form into its looks at the shared dictionary. Here a thread runs the whole loop
of `add_word`: it takes the next word form from the generator, spells it (local work) and registers it, and so on.
-/

namespace Utg
open Py

/-- Where a call of `add_word` is (utg/dictionary.py:16-49). -/
inductive AddWordPC where
  /-- before line 17: these indices are still to come from the generator of `all_forms` (utg/words.py:117-118) -/
  | next (is : List Nat)
  /-- inside the loop, with a word form and its spelling, and the indices to come -/
  | form (text : Str) (f : WordForm) (pc : RegPC) (is : List Nat)
  /-- returned -/
  | done
  /-- raised -/
  | failed (e : PyErr)
  deriving DecidableEq

/-- One step of a call of `add_word` for the word `w` (utg/dictionary.py:17-49). Taking the next word form and spelling it is local work;
the rest is `regStep`. The spelling is taken once for a word form: the code computes `word_form.form` at every look, from a word that
does not change. -/
def addWordStep (U : PyUni) (w : Word) (d : Dictionary) : AddWordPC → AddWordPC × Dictionary
  | .next [] => (.done, d)
  | .next (i :: is) => match w.nthForm i with
    | .error e => (.failed e, d)
    | .ok f => match f.form U with
      | .error e => (.failed e, d)
      | .ok text => (.form text f .check is, d)
  | .form text f pc is => match regStep d text f pc with
    | (.done, d') => (.next is, d')
    | (.failed e, d') => (.failed e, d')
    | (pc', d') => (.form text f pc' is, d')
  | .done => (.done, d)
  | .failed e => (.failed e, d)

/-- A dictionary and all calls of `add_word`. -/
structure WordThreads where
  dictionary : Dictionary
  threads : List (Word × AddWordPC)

/-- What can happen: a thread calls `add_word`, or makes a step. -/
inductive AddWordEvent where
  | start (w : Word)
  | run (i : Nat)

/-- The effect of an event. A new call is before the first item of the generator over `range(len(self.forms))`
(utg/words.py:118). -/
def WordThreads.step (U : PyUni) (s : WordThreads) : AddWordEvent → WordThreads
  | .start w => { s with threads := s.threads ++ [(w, .next (List.range w.forms.length))] }
  | .run i => match s.threads[i]? with
    | none => s
    | some (w, pc) => ⟨(addWordStep U w s.dictionary pc).2, s.threads.set i (w, (addWordStep U w s.dictionary pc).1)⟩

end Utg
