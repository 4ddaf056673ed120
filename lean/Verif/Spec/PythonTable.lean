import Verif.Model.PrettyPrint
import Mathlib.Data.List.Forall2
/-!
# Tables as Python expressions

What the text of a table means when it is pasted into a migration, which imports the names of `utg/relations.py`. Nothing here is used by the
model.
-/

namespace Utg.Spec
open Py

/-- The record a dotted name stands for: an attribute of a class. -/
def namedRecord (text : Str) : Option Rec :=
  (Group.all.flatMap Group.records).find? fun r => r.group.name ++ '.' :: r.name = text

/-- An element of a tuple. -/
def EntryText (text : Str) : Option Rec → Prop
  | none => text = str! "None"
  | some r => namedRecord text = some r

/-- A tuple: `()`, `(a,)`, `(a,b,c)`. -/
def KeyText (text : Str) (key : Key) : Prop :=
  ∃ parts, List.Forall₂ EntryText parts key ∧
    text = '(' :: [','].intercalate parts ++ (if parts.length = 1 then str! ",)" else str! ")")

/-- A dictionary: `{}`, `{k:v,k:v}`. -/
def DictText {α β : Type} (K : Str → α → Prop) (V : Str → β → Prop) (text : Str) (items : List (α × β)) : Prop :=
  ∃ parts, List.Forall₂ (fun p e => ∃ k v, p = k ++ ':' :: v ∧ K k e.1 ∧ V v e.2) parts items ∧ text = '{' :: [','].intercalate parts ++ str! "}"

/-- A table without blanks: word type ↦ (key ↦ slot). -/
def TableText (text : Str) (items : List (WordType × List (Key × Nat))) : Prop :=
  DictText (fun s t => namedRecord s = some (WordType.toRec t)) (DictText KeyText fun s (n : Nat) => s = pyStr n) text items

/-- Blanks and line breaks between the parts of an expression in brackets mean nothing. -/
def withoutBlanks (text : Str) : Str := text.filter fun c => c ≠ ' ' ∧ c ≠ '\n'

/-- They stand between the parts: behind a comma or a colon. -/
def Spaced (text : Str) : Prop :=
  ∀ pre c post, text = pre ++ c :: post → c = ' ' ∨ c = '\n' → ∃ pre' p, pre = pre' ++ [p] ∧ p ∈ [',', ':', ' ', '\n']

/-- The text is an expression for the table with these items, in this order. -/
def Displays (text : Str) (items : List (WordType × List (Key × Nat))) : Prop := Spaced text ∧ TableText (withoutBlanks text) items

/-- The dictionary made of items: a later item with the same key wins. -/
def dictOf {α β : Type} [DecidableEq α] (items : List (α × β)) : Dict α β := items.foldl (fun d e => d.set e.1 e.2) []

/-- The tables of a migration into which such an expression was pasted. -/
def pasted (items : List (WordType × List (Key × Nat))) (t : WordType) : Dict Key Nat := dictOf (((dictOf items).get? t).getD [])

end Utg.Spec
