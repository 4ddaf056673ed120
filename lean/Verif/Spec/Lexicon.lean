import Verif.Model.Lexicon
/-!
# Specification vocabulary for lexicons

A lexicon is described by the calls of `add_template` made on it, oldest first. Nothing here is used by the model.
-/

namespace Utg.Spec
open Py

/-- The arguments of one call `add_template(key, template, restrictions)`. -/
structure Added (K T R : Type) where
  key : K
  template : T
  restrictions : Finset R

variable {K T R : Type} [DecidableEq K] [DecidableEq R]

/-- The lexicon after these calls on `Lexicon()`. -/
def lexiconOf (calls : List (Added K T R)) : Lexicon K T R :=
  calls.foldl (fun l c => l.addTemplate c.key c.template c.restrictions) Lexicon.empty

/-- A call put its template where a request for `key` with `restrictions` may use it. -/
def Applicable (key : K) (restrictions : Finset R) (c : Added K T R) : Prop := c.key = key ∧ c.restrictions ⊆ restrictions

instance (key : K) (restrictions : Finset R) (c : Added K T R) : Decidable (Applicable key restrictions c) :=
  inferInstanceAs (Decidable (_ ∧ _))

/-- `c` is applicable, and no applicable call has more restrictions. -/
def MostSpecific (calls : List (Added K T R)) (key : K) (restrictions : Finset R) (c : Added K T R) : Prop :=
  Applicable key restrictions c ∧
    ∀ c' ∈ calls, Applicable key restrictions c' → c'.restrictions.card ≤ c.restrictions.card

end Utg.Spec
