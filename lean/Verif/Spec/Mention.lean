import Verif.Spec.Reference
/-!
# Names of variables

Nothing here is used by the model.
-/

namespace Utg.Spec
open Py

/-- The name has a letter that no text in lower case has. -/
def HasCapital (U : PyUni) (name : Str) : Prop := ∃ c ∈ name, ∀ x, c ∉ U.lower x

/-- The substitution mentions the name: it stands for the word of this name or depends on it. -/
def RefersTo (s : Substitution) (name : Str) : Prop := s.id = name ∨ Dep.ext name ∈ s.dependencies

end Utg.Spec
