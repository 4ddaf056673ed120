import Verif.Model.AnyTemplates
import Verif.Spec.AnyJson
/-! # When a template loaded from any JSON document is a proper one -/

namespace Utg.Spec
open Py

/-- The loaded substitution is the proper substitution `s`. -/
def AsSubstitution (l : LoadedSubstitution) (s : Substitution) : Prop := l.id = .str s.id ∧ l.dependencies = s.dependencies

/-- The loaded template is the proper template `t`. -/
def AsTemplate (l : LoadedTemplate) (t : Template) : Prop :=
  (∃ text, l.template = .str text ∧ t.template = some text) ∧ List.Forall₂ AsSubstitution l.substitutions t.substitutions

/-- What is raised for an id that is no text. -/
inductive BadId : Json → UseErr → Prop
  | compound (id : Json) : IsCompound id → BadId id .TypeError
  | plain (id : Json) : ¬ IsCompound id → (∀ s, id ≠ .str s) → BadId id (.NoWordsFoundError id)

/-- Neither the name of an external nor in the dictionary: no text is, other than these. -/
def unknownId (names : List Str) (d : Dictionary) : Json → Bool
  | .str text => decide (text ∉ names) && !d.hasWord text
  | _ => true

end Utg.Spec
