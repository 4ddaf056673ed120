import Verif.Model.Objects
import Verif.Spec.Words
import Verif.Spec.Templates
/-!
# Specification vocabulary for words as objects

Nothing here is used by the model.
-/

namespace Utg.Spec
open Py

/-- The names of the words added by a sequence of operations. -/
def addedNames (ops : List Op) : List Nat := ops.filterMap fun op => match op with | .add n => some n | _ => none

/-- The operation can change what the word `n` is. -/
def Mutates (op : Op) (n : Nat) : Prop :=
  (∃ i text, op = .setForm n i text) ∨ (∃ p, op = .setProperties n p) ∨ op = .autofill n

/-- No word is changed after it was added. -/
def SettledBeforeAdded (ops : List Op) : Prop :=
  ∀ (before : List Op) (op : Op) (later : List Op) (n : Nat), ops = before ++ op :: later → Mutates op n → n ∉ addedNames before

/-- The words added by a sequence of operations, each as it was when it was added. -/
def addedValues (U : PyUni) : Heap → List Op → List Word
  | _, [] => []
  | h, op :: ops =>
    (match op with
      | .add n => ((h.words[n]?).map (·.value)).toList
      | _ => []) ++ addedValues U (h.step U op) ops

/-- All properties handed in are `Properties` objects as the class builds them. -/
def GoodOp : Op → Prop
  | .create _ _ p => WFProps p
  | .setProperties _ p => WFProps p
  | _ => True

end Utg.Spec
