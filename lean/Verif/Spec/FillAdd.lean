import Verif.Model.FillAdd
import Verif.Spec.Words
/-! # What may be said of words that are filled and added at the same time (C139) -/

namespace Utg.Spec
open Py

/-- Words, dictionary and calls after these events, which began with no call running. -/
def workedOn (U : PyUni) (words : List Word) (data : Dict Str FormObj) (events : List WorkshopEvent) : Workshop :=
  events.foldl (Workshop.step U) ⟨words, data, [], []⟩

/-- The `i`-th item of `all_forms` is spelled `t`. -/
def SpellsAt (U : PyUni) (w : Word) (i : Nat) (t : Str) : Prop :=
  ∃ fs f, w.allForms = .ok fs ∧ fs[i]? = some f ∧ f.form U = .ok t

/-- `f` is one of the items of `all_forms` of the word, which is spelled `t`. -/
def IsSpelled (U : PyUni) (w : Word) (f : FormObj) (t : Str) : Prop :=
  ∃ fs, w.allForms = .ok fs ∧ ⟨w, f.properties, f.formProperties⟩ ∈ fs ∧
    WordForm.form U ⟨w, f.properties, f.formProperties⟩ = .ok t

/-- A call of `autofill_missed_forms` that has neither returned nor raised. -/
def Running : AutofillPC → Prop
  | .done => False
  | .failed _ => False
  | _ => True

/-- No word is ever being filled by two calls at the same time. -/
def FilledInTurn (U : PyUni) (words : List Word) (data : Dict Str FormObj) (events : List WorkshopEvent) : Prop :=
  ∀ before, before <+: events → ∀ (c c' : Nat) (k : Nat) (pc pc' : AutofillPC),
    (workedOn U words data before).fills[c]? = some (k, pc) → (workedOn U words data before).fills[c']? = some (k, pc') →
    Running pc → Running pc' → c = c'

/-- How many calls of `add_word` began with an existing word. -/
def addsBegun (n : Nat) (events : List WorkshopEvent) : Nat :=
  (events.filter fun e => match e with | .add k => decide (k < n) | _ => false).length

/-- How many turns this call of `add_word` had. -/
def addTurns (call : Nat) (events : List WorkshopEvent) : Nat := (events.filter fun e => decide (e = .addTurn call)).length

end Utg.Spec
