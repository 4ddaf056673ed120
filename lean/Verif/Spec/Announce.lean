import Verif.Spec.Templates
/-! # Specification vocabulary: what a variable may mention (C138) -/

namespace Utg.Spec
open Py

/-- `name` is one of the parts of the variable `v` after a bar, in lower case and without blanks around it. -/
def Asks (U : PyUni) (v name : Str) : Prop :=
  ∃ head slugs slug, v = bracketed head slugs ∧ '|' ∉ head ∧ (∀ s ∈ slugs, '|' ∉ s) ∧ slug ∈ slugs ∧ Stripped U (U.lower slug) name

/-- What a part of a variable may become if more names are announced: the same, or, instead of a list of properties, the
dependency on one of the new names. -/
def Reinterpreted (names names' : List Str) (dep dep' : Dep) : Prop :=
  dep' = dep ∨ ∃ p name, dep = .props p ∧ dep' = .ext name ∧ name ∈ names' ∧ name ∉ names

end Utg.Spec
