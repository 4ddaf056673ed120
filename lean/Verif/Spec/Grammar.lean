import Verif.Spec.Templates
/-!
# Words that differ in spelling only (C113)

Nothing here is used by the model.
-/

namespace Utg.Spec
open Py

/-- Two objects specify the same properties and give them the same values. -/
def SameValues (p q : Properties) : Prop := ∀ g, p.isSpecified g = q.isSpecified g ∧ p.get g = q.get g

/-- Two word forms that differ in the forms of their words (and in the form they show) only. -/
def SameGrammar (f f' : WordForm) : Prop :=
  f.word.type = f'.word.type ∧ SameValues f.word.properties f'.word.properties ∧ SameValues f.properties f'.properties

/-- The same names are given, each for word forms that differ in spelling only. -/
def SameCast (ext ext' : Externals) : Prop :=
  ∀ n, (ext.get? n = none ∧ ext'.get? n = none) ∨ ∃ f f', ext.get? n = some f ∧ ext'.get? n = some f' ∧ SameGrammar f f'

end Utg.Spec
