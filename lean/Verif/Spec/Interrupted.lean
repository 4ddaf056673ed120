import Verif.Spec.AddWords
import Verif.Spec.FillThreads
/-!
# Specification of interrupted additions

A call that is interrupted (a signal, a killed thread) has made some of its steps and never makes another one; the object it was working
on stays as it is.
-/

namespace Utg.Spec
open Py

/-- The dictionary after a call of `add_word` that was interrupted after `k` steps. -/
def interruptedAdd (U : PyUni) (w : Word) (d : Dictionary) (k : Nat) : Dictionary :=
  (wordsAdded U d (.start w :: List.replicate k (.run 0))).dictionary

variable {K T R : Type} [DecidableEq K]

/-- A call of `add_template` after `k` steps and the lexicon then. -/
def templateSteps (c : AddCall K T R) (l : SharedLexicon K T R) : Nat → AddPC × SharedLexicon K T R
  | 0 => (.check, l)
  | k + 1 => c.step (templateSteps c l k).2 (templateSteps c l k).1

/-- A lexicon, from an empty one, after calls of `add_template` one after the other, each cut off after the given number of steps. -/
def templatesTried (calls : List (AddCall K T R × Nat)) : SharedLexicon K T R :=
  calls.foldl (fun l c => (templateSteps c.1 l c.2).2) ⟨[], []⟩

/-- A call of `autofill_missed_forms` that was interrupted after `k` steps, and then another one with `n` steps. -/
def refilled (w : Word) (k n : Nat) : AutofillThreads :=
  filling w (.start :: List.replicate k (.turn 0) ++ .start :: List.replicate n (.turn 1))

end Utg.Spec
