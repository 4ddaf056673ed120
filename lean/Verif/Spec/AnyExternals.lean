import Verif.Model.AnyExternals
import Verif.Spec.Mention
/-!
# Specification: externals that are no word forms

Nothing here is used by the model.
-/

namespace Utg.Spec
open Py

/-- Something that is no word form is given for the name. -/
def Misgiven (externals : AnyExternals) (name : Str) : Prop := ∃ x, externals.get? name = some x ∧ ∀ f, x ≠ .form f

/-- For the names the substitution mentions, the externals are these word forms. -/
def AreForms (externals : AnyExternals) (forms : Externals) (s : Substitution) : Prop :=
  ∀ name, RefersTo s name → externals.get? name = (forms.get? name).map .form

/-- The words and word forms given are accepted words and good forms. -/
def GoodGiven (externals : AnyExternals) : Prop :=
  (∀ name f, externals.get? name = some (.form f) → GoodForm f) ∧ ∀ name w, externals.get? name = some (.word w) → Accepted w

end Utg.Spec
