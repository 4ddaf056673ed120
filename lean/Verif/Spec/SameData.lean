import Verif.Model.Templates
/-!
# Equal saved data

When Python's `==` holds for what `serialize()` returns: dictionaries are equal if they have the same values for the same keys, whatever the
order; lists if they are equal item by item. Nothing here is used by the model.
-/

namespace Utg.Spec
open Py

/-- Equal dictionaries. -/
def SameItems (d e : Dict JKey Int) : Prop := ∀ k, d.get? k = e.get? k

/-- Equal data of words. -/
def SameWordData (a b : WordData) : Prop := a.type = b.type ∧ a.forms = b.forms ∧ SameItems a.properties b.properties

/-- Equal data of the parts of a variable: names or dictionaries. -/
def SameDepData : DepData → DepData → Prop
  | .ext n, .ext m => n = m
  | .props d, .props e => SameItems d e
  | _, _ => False

/-- Equal lists: item by item. -/
def SameList {α : Type} (R : α → α → Prop) : List α → List α → Prop
  | [], [] => True
  | a :: as, b :: bs => R a b ∧ SameList R as bs
  | _, _ => False

/-- Equal data of variables. -/
def SameSubstitutionData (a b : SubstitutionData) : Prop := a.id = b.id ∧ SameList SameDepData a.dependencies b.dependencies

/-- Equal data of templates. -/
def SameTemplateData (a b : TemplateData) : Prop := a.template = b.template ∧ SameList SameSubstitutionData a.substitutions b.substitutions

/-- What JSON makes of a dictionary: its keys become strings. -/
def jsonKeys (d : Dict JKey Int) : Dict JKey Int :=
  d.map fun kv => (match kv.1 with | .int n => .str (pyStr n) | .str s => .str s, kv.2)

/-- What JSON makes of the data of a word. -/
def jsonWord (a : WordData) : WordData := { a with properties := jsonKeys a.properties }

/-- What JSON makes of the data of a template. -/
def jsonTemplate (a : TemplateData) : TemplateData :=
  { a with substitutions := a.substitutions.map fun s =>
      { s with dependencies := s.dependencies.map fun | .ext n => .ext n | .props d => .props (jsonKeys d) } }

end Utg.Spec
