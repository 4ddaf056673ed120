import Verif.Model.LexSets
import Verif.Spec.Lexicon
/-!
# Specification vocabulary for restrictions that are objects

Nothing here is used by the model.
-/

namespace Utg.Spec
open Py

variable {K T R : Type} [DecidableEq K] [DecidableEq R]

/-- The calls of `add_template`, oldest first: key, template, and which of the created collections was given as restrictions. -/
def additionsOf (ops : List (SetOp K T R)) : List (K × T × Nat) :=
  ops.filterMap fun op => match op with
    | .add key template i => some (key, template, i)
    | _ => none

/-- The collections that were created, oldest first, as they were then. -/
def createdOf (ops : List (SetOp K T R)) : List (Coll R) :=
  ops.filterMap fun op => match op with
    | .create c => some c
    | _ => none

/-- Reading the calls of `add_template` with these contents of the collections. -/
def readWith (contents : Nat → Finset R) (additions : List (K × T × Nat)) : List (Added K T R) :=
  additions.map fun a => ⟨a.1, a.2.1, contents a.2.2⟩

/-- The contents the `i`-th created collection has now. -/
def contentsNow (ops : List (SetOp K T R)) (i : Nat) : Finset R :=
  match (SetWorld.after ops).objects[i]? with
  | none => ∅
  | some c => c.elements

/-- The contents the `i`-th created collection had when it was created. -/
def contentsCreated (ops : List (SetOp K T R)) (i : Nat) : Finset R :=
  match (createdOf ops)[i]? with
  | none => ∅
  | some c => c.elements

/-- Every template added under the key was given a set. -/
def OnlySets (ops : List (SetOp K T R)) (key : K) : Prop :=
  ∀ a ∈ additionsOf ops, a.1 = key → ∃ s, (createdOf ops)[a.2.2]? = some (.set s)

end Utg.Spec
