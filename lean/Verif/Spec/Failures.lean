import Verif.Spec.Reference
/-!
# When a template cannot be filled

Nothing here is used by the model.
-/

namespace Utg.Spec
open Py

/-- A preposition has to look at a letter that is not there: it depends on a variable, and its own normal form or the text of the variable
is empty (or the variable is an empty text with a capital letter). -/
def NoLetter (U : PyUni) (ext : Externals) (base : WordForm) (deps : List Dep) : Prop :=
  base.word.type = .PREPOSITION ∧ ∃ n f, Dep.ext n ∈ deps ∧ ext.get? n = some f ∧
    (base.word.normalForm = .ok [] ∨ f.form U = .ok [] ∨ f.form U = .error .IndexError)

/-- A capital letter is asked for and the form to be printed is empty. -/
def NoCapital (U : PyUni) (ext : Externals) (base : WordForm) (deps : List Dep) : Prop :=
  ∃ fs ρ, masters ext deps = .ok fs ∧ agreeAll U base.word (initialReading ext base deps) fs = .ok ρ ∧
    ρ .WORD_CASE = some .WORD_CASE_UPPER ∧ formIn base.word ρ = []

/-- A variable can be replaced: its word is known, the externals it names are given, and no letter is missing. -/
def Fillable (U : PyUni) (ext : Externals) (d : Dictionary) (s : Substitution) : Prop :=
  ∃ base, Resolves ext d s.id base ∧ (∀ n, Dep.ext n ∈ s.dependencies → ∃ f, ext.get? n = some f) ∧
    ¬ NoLetter U ext base s.dependencies ∧ ¬ NoCapital U ext base s.dependencies

end Utg.Spec
