import Verif.Model.AnyWords
import Verif.Spec.AnyJson
/-! # What the forms of a word loaded from any JSON document mean -/

namespace Utg.Spec
open Py

/-- Taken for a missing form: `null`, `false`, zero, an empty text, list or object. -/
inductive Missing : Json → Prop
  | null : Missing .null
  | no : Missing (.bool false)
  | zero : Missing (.int 0)
  | zeroFloat (written : Str) : Missing (.float written (some 0))
  | text : Missing (.str [])
  | list : Missing (.arr [])
  | object : Missing (.obj [])

/-- The vowel that `x` is, if it is a text of one letter that is a vowel. -/
def vowel : Json → Option Char
  | .str [c] => if c ∈ VOWELS then some c else none
  | _ => none

/-- The vowels of a form are `s`: those among its parts, none of which is a list or an object. -/
def HasVowels (form : Json) (s : Str) : Prop :=
  ∃ parts, Parts form parts ∧ (∀ x ∈ parts, ¬ IsCompound x) ∧ s = parts.filterMap vowel

/-- A form whose vowels can be told. -/
def Voiced (form : Json) : Prop := ∃ s, HasVowels form s

/-- A form that is given, and whose vowels do not begin with `base`. -/
def Breaks (base : Str) (form : Json) : Prop := ¬ Missing form ∧ ∃ s, HasVowels form s ∧ ¬ base <+: s

end Utg.Spec
