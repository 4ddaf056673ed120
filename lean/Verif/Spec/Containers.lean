import Verif.Model.Containers
import Verif.Spec.Templates
/-!
# Specification vocabulary for `externals` that are no lists
-/

namespace Utg.Spec
open Py

/-- A list of the texts that are found in the container, if it is not an iterator: the members of a collection, the parts of a string. -/
def Holds : Container → List Str → Prop
  | .collection members, names => ∀ x, x ∈ names ↔ x ∈ members
  | .text s, names => ∀ x, x ∈ names ↔ ∃ a b, s = a ++ x ++ b
  | .iterator _, _ => False

/-- A part of a variable is asked for under a name; if it is found it is the name of an external, otherwise a list of properties. -/
def ReadsPart (U : PyUni) (slug : Str) (asked : Str × Bool) (dep : Dep) : Prop :=
  Stripped U (U.lower slug) asked.1 ∧ Reads U (if asked.2 then [asked.1] else []) slug dep

/-- Variables are read one after another: the names that are asked for, whether they are found, and the substitutions. -/
inductive ReadInTurn (U : PyUni) : List Str → List (Str × Bool) → List Substitution → Prop
  | none : ReadInTurn U [] [] []
  | next (head : Str) (slugs : List Str) (asked : List (Str × Bool)) (deps : List Dep) (c : Char) (id : Str)
      (vs : List Str) (more : List (Str × Bool)) (ss : List Substitution) :
      '|' ∉ head → (∀ slug ∈ slugs, '|' ∉ slug) → Stripped U head (c :: id) →
      slugs.length = asked.length → List.Forall₂ (fun x dep => ReadsPart U x.1 x.2 dep) (slugs.zip asked) deps →
      ReadInTurn U vs more ss →
      ReadInTurn U (bracketed head slugs :: vs) (asked ++ more)
        (⟨U.lower (c :: id), deps ++ if U.isUpper c then [.props (.new [.record .WORD_CASE_UPPER])] else []⟩ :: ss)

/-- In an iterator a name is found exactly if all the names asked for so far, and this one, come in this order in it. -/
def FoundInOrder (names : List Str) (asked : List (Str × Bool)) : Prop :=
  ∀ (i : Nat) (q : Str) (found : Bool), asked[i]? = some (q, found) → (found = true ↔ ((asked.map Prod.fst).take (i + 1)).Sublist names)

end Utg.Spec
