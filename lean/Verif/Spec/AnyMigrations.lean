import Verif.Spec.AnyJson
import Verif.Model.AnyMigrations
import Verif.Spec.Migrations
/-! # Which JSON documents can be migrated -/

namespace Utg.Spec
open Py

/-- Things that can be taken by position: the items of a list, the letters of a text. -/
inductive Listed : Json → List Json → Prop
  | arr (items : List Json) : Listed (.arr items) items
  | str (s : Str) : Listed (.str s) (s.map fun c => .str [c])

/-- The same document with `y` instead of `x` in the field `key`: all other fields as they were, in the same order. -/
def Replaced (key : Str) (j x y j' : Json) : Prop :=
  ∃ pre post, j = .obj (pre ++ (key, x) :: post) ∧ j' = .obj (pre ++ (key, y) :: post) ∧ ∀ kv ∈ pre, kv.1 ≠ key

/-- How many forms m_0007 reads: all the old slots, but of a verb one less than there were. -/
def needed7 : WordType → Nat
  | .VERB => 26
  | t => (layoutBefore7 t).length

/-- How many forms m_0008 reads: all of them. -/
def needed8 (t : WordType) : Nat := (layoutBefore8 t).length

/-- How many forms m_0009 reads: all of them. -/
def needed9 (t : WordType) : Nat := (layoutBefore9 t).length

/-- What is wrong with a document that should be given new forms, and what is raised. -/
inductive BadForms (need : Nat) : Json → LoadErr → Prop
  | missing (j : Json) : (∀ x, ¬ HasField j (str! "forms") x) → BadForms need j (.KeyError (str! "forms"))
  | other (j x : Json) : HasField j (str! "forms") x → ¬ IsCompound x → (∀ parts, ¬ Listed x parts) → BadForms need j .TypeError
  | keys (j : Json) (items : List (Str × Json)) (i : Nat) : HasField j (str! "forms") (.obj items) → i < need →
      BadForms need j (.KeyError (pyStr i))
  | short (j x : Json) (parts : List Json) : HasField j (str! "forms") x → Listed x parts → parts.length < need →
      BadForms need j (.other .IndexError)

/-- What is wrong with a document that should be a word of the old layout, and what is raised. -/
inductive BadData (need : WordType → Nat) : Json → LoadErr → Prop
  | noObject (j : Json) : (∀ items, j ≠ .obj items) → BadData need j .TypeError
  | missing (j : Json) : (∀ x, ¬ HasField j (str! "type") x) → BadData need j (.KeyError (str! "type"))
  | typeCompound (j x : Json) : HasField j (str! "type") x → IsCompound x → BadData need j .TypeError
  | typeUnknown (j x : Json) : HasField j (str! "type") x → (∀ t : WordType, ¬ IsNumber x t.value) → BadData need j (.Lookup x)
  | forms (j x : Json) (t : WordType) (e : LoadErr) : HasField j (str! "type") x → IsNumber x t.value → BadForms (need t) j e → BadData need j e

/-- The document is migrated: a known part of speech, forms by position, enough of them; and only the forms are replaced, by `new`, in which
every form is taken from where `migrate` takes it for a word whose forms are texts (`g` writes a text for each). -/
def MigratedBy (migrate : WordData → Except PyErr WordData) (need : WordType → Nat) (j j' : Json) : Prop :=
  ∃ (t : WordType) (x forms : Json) (parts new : List Json), HasField j (str! "type") x ∧ IsNumber x t.value ∧ Listed forms parts ∧
    need t ≤ parts.length ∧ Replaced (str! "forms") j forms (.arr new) j' ∧
    ∀ (g : Json → Str) (properties : Dict JKey Int),
      migrate ⟨t.value, parts.map g, properties⟩ = .ok ⟨t.value, new.map g, properties⟩

/-- What m_0001 makes of it: adjectives (133 forms are read) and participles (187) get new forms, any other document stays as it is. -/
def MigratedBy1 (j j' : Json) : Prop :=
  (∃ x, HasField j (str! "type") x ∧ ¬ IsNumber x 1 ∧ ¬ IsNumber x 4 ∧ j' = j) ∨
  ∃ (n : Int) (need : Nat) (x forms : Json) (parts new : List Json), (n = 1 ∧ need = 133 ∨ n = 4 ∧ need = 187) ∧
    HasField j (str! "type") x ∧ IsNumber x n ∧ Listed forms parts ∧ need ≤ parts.length ∧ Replaced (str! "forms") j forms (.arr new) j' ∧
    ∀ (g : Json → Str) (properties : Dict JKey Int), M0001.migrate ⟨n, parts.map g, properties⟩ = .ok ⟨n, new.map g, properties⟩

/-- Nothing: `null`, `false`, zero, an empty text, list or object. -/
inductive Nothing : Json → Prop
  | null : Nothing .null
  | number (x : Json) : IsNumber x 0 → Nothing x
  | str : Nothing (.str [])
  | arr : Nothing (.arr [])
  | obj : Nothing (.obj [])

/-- `z` is `x` with `y` added to it; `plus` is the sum of two numbers. -/
inductive Joined (plus : Json → Json → Json) : Json → Json → Json → Prop
  | list (items : List Json) (y : Json) (more : List Json) : Parts y more → Joined plus (.arr items) y (.arr (items ++ more))
  | text (s t : Str) : Joined plus (.str s) (.str t) (.str (s ++ t))
  | numbers (x y : Json) : x.isNumeral = true → y.isNumeral = true → Joined plus x y (plus x y)

/-- What m_0002 makes of it: a noun without patches gets the forms from the seventh on once more; a noun whose patches are a list gets the forms
of the eighth of them. -/
def MigratedBy2 (plus : Json → Json → Json) (j j' : Json) : Prop :=
  (∃ x, HasField j (str! "type") x ∧ ¬ IsNumber x 0 ∧ j' = j) ∨
  ∃ x patches, HasField j (str! "type") x ∧ IsNumber x 0 ∧ HasField j (str! "patches") patches ∧
    ((Nothing patches ∧ ∃ items, Replaced (str! "forms") j (.arr items) (.arr (items ++ items.drop 6)) j') ∨
     (∃ items patch more forms new, patches = .arr items ∧ items[7]? = some patch ∧ HasField patch (str! "forms") more ∧
       Joined plus forms more new ∧ Replaced (str! "forms") j forms new j'))

/-- What m_0004 makes of it: a preposition gets its last form once more. -/
def MigratedBy4 (j j' : Json) : Prop :=
  (∃ x, HasField j (str! "type") x ∧ ¬ IsNumber x 10 ∧ j' = j) ∨
  ∃ x items last, HasField j (str! "type") x ∧ IsNumber x 10 ∧
    Replaced (str! "forms") j (.arr (items ++ [last])) (.arr (items ++ [last, last])) j'

/-- What is wrong with a document that m_0004 does not take, and what is raised. -/
inductive BadData4 : Json → LoadErr → Prop
  | noObject (j : Json) : (∀ items, j ≠ .obj items) → BadData4 j .TypeError
  | missing (j : Json) : (∀ x, ¬ HasField j (str! "type") x) → BadData4 j (.KeyError (str! "type"))
  | missingForms (j x : Json) : HasField j (str! "type") x → IsNumber x 10 → (∀ x, ¬ HasField j (str! "forms") x) → BadData4 j (.KeyError (str! "forms"))
  | noList (j x forms : Json) : HasField j (str! "type") x → IsNumber x 10 → HasField j (str! "forms") forms → (∀ items, forms ≠ .arr items) →
      BadData4 j .AttributeError
  | empty (j x : Json) : HasField j (str! "type") x → IsNumber x 10 → HasField j (str! "forms") (.arr []) → BadData4 j (.other .IndexError)

/-- What m_0005 makes of it: a participle loses the property with the key `5`, if it has one. -/
def MigratedBy5 (j j' : Json) : Prop :=
  (∃ x, HasField j (str! "type") x ∧ ¬ IsNumber x 4 ∧ j' = j) ∨
  ∃ x, HasField j (str! "type") x ∧ IsNumber x 4 ∧
    ((∃ items, Replaced (str! "properties") j (.obj items) (.obj (items.filter fun kv => decide (kv.1 ≠ str! "5"))) j') ∨
     (∃ items, HasField j (str! "properties") (.arr items) ∧ .str (str! "5") ∉ items ∧ j' = j) ∨
     (∃ s, HasField j (str! "properties") (.str s) ∧ '5' ∉ s ∧ j' = j))

end Utg.Spec
