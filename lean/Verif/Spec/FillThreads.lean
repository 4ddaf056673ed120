import Verif.Spec.Words
import Verif.Model.FillThreads
/-! # What may be said of several calls of `autofill_missed_forms` on one word -/

namespace Utg.Spec
open Py

/-- The word after these events, which began with no call running. -/
def filling (w : Word) (events : List AutofillEvent) : AutofillThreads :=
  events.foldl AutofillThreads.step ⟨w.type, w.forms, []⟩

/-- This call returned. -/
def Returned (s : AutofillThreads) (call : Nat) : Prop := s.calls[call]? = some .done

/-- How many turns this call had. -/
def turnsOfCall (call : Nat) (events : List AutofillEvent) : Nat := (events.filter fun e => decide (e = .turn call)).length

/-- How many calls began. -/
def callsBegun (events : List AutofillEvent) : Nat := (events.filter fun e => decide (e = .start)).length

/-- A call that is still looking which forms are present. -/
def Looking : AutofillPC → Prop
  | .scan _ _ => True
  | _ => False

/-- From the moment when the first gap is filled no call is, or begins, looking which forms are present. -/
def LookedFirst (w : Word) (events : List AutofillEvent) : Prop :=
  ∀ before, before <+: events → (filling w before).forms ≠ w.forms → ∀ pc ∈ (filling w before).calls, ¬ Looking pc

end Utg.Spec
