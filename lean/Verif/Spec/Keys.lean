import Verif.Model.Logic
import Mathlib.Data.List.Forall2
/-!
# Specification vocabulary for form keys

Nothing here is used by the model.
-/

namespace Utg.Spec
open Py

/-- A full combination of property values for a schema: one record for each group. -/
def FullCombination (schema : List Group) (c : List Rec) : Prop := List.Forall₂ (fun r g => r ∈ g.records) c schema

/-- A slot key matches a full combination: it agrees with it at every position it does not leave open. -/
def Matches (k : Key) (c : List Rec) : Prop := List.Forall₂ (fun o r => o = none ∨ o = some r) k c

/-- The restriction table switches group `g` off in the presence of record `r`. -/
def SwitchesOff (restrictions : Restrictions) (r : Rec) (g : Group) : Prop :=
  ∃ gs, restrictions.get? r = some gs ∧ g ∈ gs

/-- `k` is the pattern of the full combination `c`: position `i` is left open iff an earlier position that is not itself left
open switches its group off; otherwise it is the value in `c`. -/
def IsPattern (restrictions : Restrictions) (schema : List Group) (c : List Rec) (k : Key) : Prop :=
  k.length = schema.length ∧ c.length = schema.length ∧
  ∀ (i : Nat) (g : Group) (r : Rec), schema[i]? = some g → c[i]? = some r →
    ((∃ (j : Nat) (r' : Rec), j < i ∧ k[j]? = some (some r') ∧ SwitchesOff restrictions r' g) → k[i]? = some none) ∧
    ((¬ ∃ (j : Nat) (r' : Rec), j < i ∧ k[j]? = some (some r') ∧ SwitchesOff restrictions r' g) → k[i]? = some (some r))

/-- A key contains a forbidden part: all records of the part occur in it. -/
def ContainsPart (part : List Rec) (k : Key) : Prop := ∀ r ∈ part, some r ∈ k

end Utg.Spec
