import Verif.Model.AnyJson
import Verif.Spec.Words
/-! # When a JSON document is a word, a template -/

namespace Utg.Spec
open Py

/-- The document is an object and has `x` in the field `key`. -/
def HasField (j : Json) (key : Str) (x : Json) : Prop :=
  ∃ pre post, j = .obj (pre ++ (key, x) :: post) ∧ ∀ kv ∈ pre, kv.1 ≠ key

/-- The number `n`: written as an integer, as a float (`1.0`) or as a truth value (`true` is 1). -/
inductive IsNumber : Json → Int → Prop
  | int (n : Int) : IsNumber (.int n) n
  | float (written : Str) (n : Int) : IsNumber (.float written (some n)) n
  | yes : IsNumber (.bool true) 1
  | no : IsNumber (.bool false) 0

/-- A list or an object. -/
inductive IsCompound : Json → Prop
  | arr (items : List Json) : IsCompound (.arr items)
  | obj (items : List (Str × Json)) : IsCompound (.obj items)

/-- The parts of a list, of a text, of an object (its keys). -/
inductive Parts : Json → List Json → Prop
  | arr (items : List Json) : Parts (.arr items) items
  | str (s : Str) : Parts (.str s) (s.map fun c => .str [c])
  | obj (items : List (Str × Json)) : Parts (.obj items) (items.map fun kv => .str kv.1)

/-- Properties: the keys are numbers, and under the codes of property types there are no lists or objects. -/
def Readable (items : List (Str × Json)) : Prop :=
  ∀ kv ∈ items, ∃ n, pyInt kv.1 = .ok n ∧ ((∃ g : Group, (g.code : Int) = n) → ¬ IsCompound kv.2)

/-- The item means record `r`. -/
def Means (kv : Str × Json) (r : Rec) : Prop := pyInt kv.1 = .ok (r.group.code : Int) ∧ IsNumber kv.2 (r.value : Int)

/-- The properties are those that the items mean, the last one for each type. -/
def Says (items : List (Str × Json)) (p : Properties) : Prop :=
  ∀ g r, (p.isSpecified g = true ∧ p.get g = some r) ↔
    (r.group = g ∧ ∃ pre kv post, items = pre ++ kv :: post ∧ Means kv r ∧ ∀ kv' ∈ post, ∀ r', Means kv' r' → r'.group ≠ g)

/-- A document that can be loaded as a word: known part of speech, as many forms as it has slots, readable properties. -/
def IsWord (j : Json) : Prop := ∃ (t : WordType) (x forms : Json) (parts : List Json) (items : List (Str × Json)),
  HasField j (str! "type") x ∧ IsNumber x t.value ∧ HasField j (str! "forms") forms ∧ Parts forms parts ∧ parts.length = slotCount t ∧
  HasField j (str! "properties") (.obj items) ∧ Readable items

/-- What is wrong with a document that should be a word, and what is raised. -/
inductive BadWord : Json → LoadErr → Prop
  | noObject (j : Json) : (∀ items, j ≠ .obj items) → BadWord j .TypeError
  | missing (j : Json) (key : Str) : key ∈ [str! "type", str! "forms", str! "properties"] → (∀ x, ¬ HasField j key x) → BadWord j (.KeyError key)
  | typeCompound (j x : Json) : HasField j (str! "type") x → IsCompound x → BadWord j .TypeError
  | typeUnknown (j x : Json) : HasField j (str! "type") x → (∀ t : WordType, ¬ IsNumber x t.value) → BadWord j (.Lookup x)
  | noProperties (j x : Json) : HasField j (str! "properties") x → (∀ items, x ≠ .obj items) → BadWord j .AttributeError
  | badKey (j : Json) (items : List (Str × Json)) (kv : Str × Json) : HasField j (str! "properties") (.obj items) → kv ∈ items →
      (∀ n, pyInt kv.1 ≠ .ok n) → BadWord j .ValueError
  | badValue (j : Json) (items : List (Str × Json)) (kv : Str × Json) : HasField j (str! "properties") (.obj items) → kv ∈ items →
      (∃ g : Group, pyInt kv.1 = .ok (g.code : Int)) → IsCompound kv.2 → BadWord j .TypeError
  | noForms (j x : Json) : HasField j (str! "forms") x → (∀ parts, ¬ Parts x parts) → BadWord j .TypeError
  | number (j x forms : Json) (t : WordType) (parts : List Json) : HasField j (str! "type") x → IsNumber x t.value →
      HasField j (str! "forms") forms → Parts forms parts → parts.length ≠ slotCount t →
      BadWord j (.WrongFormsNumberError parts.length (slotCount t) forms)

/-- A dependency in a document: a text, or an object of readable properties. -/
inductive IsDependency : Json → Dep → Prop
  | ext (name : Str) : IsDependency (.str name) (.ext name)
  | props (items : List (Str × Json)) (p : Properties) : Readable items → Says items p → IsDependency (.obj items) (.props p)

/-- A substitution in a document. -/
def IsSubstitution (j : Json) (s : LoadedSubstitution) : Prop :=
  HasField j (str! "id") s.id ∧ ∃ deps parts, HasField j (str! "dependencies") deps ∧ Parts deps parts ∧
    List.Forall₂ IsDependency parts s.dependencies

/-- A template in a document. -/
def IsTemplate (j : Json) (t : LoadedTemplate) : Prop :=
  HasField j (str! "template") t.template ∧ ∃ subs parts, HasField j (str! "substitutions") subs ∧ Parts subs parts ∧
    List.Forall₂ IsSubstitution parts t.substitutions

/-- What is wrong with a dependency, and what is raised. -/
inductive BadDependency : Json → LoadErr → Prop
  | other (x : Json) : (∀ s, x ≠ .str s) → (∀ items, x ≠ .obj items) → BadDependency x .AttributeError
  | badKey (items : List (Str × Json)) (kv : Str × Json) : kv ∈ items → (∀ n, pyInt kv.1 ≠ .ok n) → BadDependency (.obj items) .ValueError
  | badValue (items : List (Str × Json)) (kv : Str × Json) : kv ∈ items →
      (∃ g : Group, pyInt kv.1 = .ok (g.code : Int)) → IsCompound kv.2 → BadDependency (.obj items) .TypeError

/-- What is wrong with a substitution, and what is raised. -/
inductive BadSubstitution : Json → LoadErr → Prop
  | noObject (j : Json) : (∀ items, j ≠ .obj items) → BadSubstitution j .TypeError
  | missing (j : Json) (key : Str) : key ∈ [str! "id", str! "dependencies"] → (∀ x, ¬ HasField j key x) → BadSubstitution j (.KeyError key)
  | noParts (j x : Json) : HasField j (str! "dependencies") x → (∀ parts, ¬ Parts x parts) → BadSubstitution j .TypeError
  | part (j x y : Json) (parts : List Json) (e : LoadErr) : HasField j (str! "dependencies") x → Parts x parts → y ∈ parts → BadDependency y e →
      BadSubstitution j e

/-- What is wrong with a template, and what is raised. -/
inductive BadTemplate : Json → LoadErr → Prop
  | noObject (j : Json) : (∀ items, j ≠ .obj items) → BadTemplate j .TypeError
  | missing (j : Json) (key : Str) : key ∈ [str! "template", str! "substitutions"] → (∀ x, ¬ HasField j key x) → BadTemplate j (.KeyError key)
  | noParts (j x : Json) : HasField j (str! "substitutions") x → (∀ parts, ¬ Parts x parts) → BadTemplate j .TypeError
  | part (j x y : Json) (parts : List Json) (e : LoadErr) : HasField j (str! "substitutions") x → Parts x parts → y ∈ parts → BadSubstitution y e →
      BadTemplate j e

end Utg.Spec
