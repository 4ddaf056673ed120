import Verif.Model.Words
/-!
# `autofill_missed_forms` of one word in several threads

The atomic steps are the looks at, and the assignments to, the list of forms that the threads share (utg/words.py:189-205).
-/

namespace Utg
open Py

/-- Where a call of `autofill_missed_forms` is (utg/words.py:189-205). -/
inductive AutofillPC where
  /-- in the comprehension of lines 192-194, before the look at this form; the keys collected so far -/
  | scan (index : Nat) (available : List Key)
  /-- in the loop of line 196, before the iterator takes this form -/
  | test (i : Nat) (available : List Key)
  /-- in line 205, before `self.forms[j]` is read for slot `i` -/
  | read (i j : Nat) (available : List Key)
  /-- in line 205, before the text is assigned to `self.forms[i]` -/
  | store (i : Nat) (text : Str) (available : List Key)
  /-- returned -/
  | done
  /-- raised -/
  | failed (e : PyErr)
  deriving DecidableEq

/-- One step of a call (utg/words.py:192-205): where the call is afterwards, and the list of forms. `range(len(self.forms))` is taken
at the beginning in the code and at every step here; no step changes the length. -/
def autofillTurn (t : WordType) (forms : List Str) : AutofillPC → AutofillPC × List Str
  | .scan index available => match forms[index]? with
    | none => (.test 0 available, forms)
    | some [] => (.scan (index + 1) available, forms)
    | some _ => match (invertedCache t)[index]? with
      | none => (.failed .IndexError, forms)
      | some k => (.scan (index + 1) (available ++ [k]), forms)
  | .test i available => match forms[i]? with
    | none => (.done, forms)
    | some form =>
      if form ≠ [] then (.test (i + 1) available, forms)
      else match (invertedCache t)[i]? with
        | none => (.failed .IndexError, forms)
        | some key => match getNearestKey key available with
          | none => (.test (i + 1) available, forms)
          | some nearest => match (wordsCache t).get? nearest with
            | none => (.failed .KeyError, forms)
            | some j => (.read i j available, forms)
  | .read i j available => match forms[j]? with
    | none => (.failed .IndexError, forms)
    | some text => (.store i text available, forms)
  | .store i text available => (.test (i + 1) available, forms.set i text)
  | .done => (.done, forms)
  | .failed e => (.failed e, forms)

/-- A word that several threads fill: its type, its list of forms and the calls. -/
structure AutofillThreads where
  type : WordType
  forms : List Str
  calls : List AutofillPC

/-- What can happen: a thread calls `autofill_missed_forms`, or a call makes a step. -/
inductive AutofillEvent where
  | start
  | turn (call : Nat)
  deriving DecidableEq

/-- The effect of an event (utg/words.py:189-205). -/
def AutofillThreads.step (s : AutofillThreads) : AutofillEvent → AutofillThreads
  | .start => { s with calls := s.calls ++ [.scan 0 []] }
  | .turn c => match s.calls[c]? with
    | none => s
    | some pc => { s with forms := (autofillTurn s.type s.forms pc).2, calls := s.calls.set c (autofillTurn s.type s.forms pc).1 }

end Utg
