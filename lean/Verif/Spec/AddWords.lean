import Verif.Model.AddWords
import Verif.Spec.Dictionary
/-!
# Specification of concurrent calls of `add_word`
-/

namespace Utg.Spec
open Py

/-- A dictionary and the calls of `add_word` after a schedule that begins with the dictionary `d`. -/
def wordsAdded (U : PyUni) (d : Dictionary) (events : List AddWordEvent) : WordThreads := events.foldl (WordThreads.step U) ⟨d, []⟩

/-- The words given to `add_word` in a schedule, in the order of the calls. -/
def started (events : List AddWordEvent) : List Word :=
  events.filterMap fun e => match e with | .start w => some w | .run _ => none

/-- How a call has ended, if it has: `none` for a return, `some e` for an exception. -/
def outcome : AddWordPC → Option (Option PyErr)
  | .done => some none
  | .failed e => some (some e)
  | _ => none

/-- Adding words one after the other. -/
def addedInOrder (U : PyUni) (d : Dictionary) (ws : List Word) : Dictionary := ws.foldl (fun d w => (d.addWord U w).1) d

/-- The words have no spelling in common. -/
def NoSharedText (U : PyUni) (v w : Word) : Prop := ∀ c ∈ offered U v, ∀ c' ∈ offered U w, c.1 ≠ c'.1

/-- How many steps of a schedule are made by the call `i`. -/
def stepsBy (i : Nat) (events : List AddWordEvent) : Nat :=
  (events.filter fun e => match e with | .run j => decide (j = i) | .start _ => false).length

end Utg.Spec
