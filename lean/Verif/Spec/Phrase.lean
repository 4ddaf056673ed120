import Verif.Spec.Reference
/-!
# Counted phrases

`[число] [новый|товар|число|рд] [товар|число|рд]`: a number, an adjective or participle, a noun. Nothing here is used by the model.
-/

namespace Utg.Spec
open Py

/-- A word as it is written in a template: in lower case, without blanks around it and without marks of the template language. -/
def Written (U : PyUni) (x : Str) : Prop :=
  x ≠ [] ∧ (∀ c ∈ x, c ≠ '|' ∧ c ≠ ']' ∧ c ≠ '%') ∧ U.lower x = x ∧ (∀ c ∈ x.head?, U.isUpper c = false ∧ U.isSpace c = false) ∧
    ∀ c ∈ x.getLast?, U.isSpace c = false

/-- The template of a counted noun with a modifier. -/
def phraseText (number modifier noun case : Str) : Str :=
  bracketed number [] ++ ' ' :: bracketed modifier [noun, number, case] ++ ' ' :: bracketed noun [number, case]

/-- What the modifier has to be: of the gender and the animality of the noun, in the number and the case that go with the number `n` if the
phrase is in the case `case`, and otherwise as it was recognised. -/
def modifierReading (base : WordForm) (n : Int) (case gender animality : Rec) : Reading :=
  Reading.upd (effective base.word base.properties)
    (adjectiveAgreement .DEPENDENCY_MODE_FULL (agreementClass n) case gender ++ [case, gender, animality, agreementClass n])

/-- The template of a preposition and a variable in some case: `[с|герой] [герой|тв]`. -/
def prepositionText (preposition noun case : Str) : Str := bracketed preposition [noun] ++ ' ' :: bracketed noun [case]

/-- The position of the form of a preposition that is demanded: the first if nothing is. -/
def variant : Option Rec → Nat
  | none => 0
  | some .PREPOSITION_FORM_ALTERNATIVE => 1
  | some _ => 2

/-- `p` is the form of the preposition that goes with the text `next` of the word `w`: the one the rules demand, and the first if they
demand none. -/
def GoesWith (preposition : Word) (next : Str) (w : Word) (p : Str) : Prop :=
  ∃ normal form, preposition.forms[0]? = some normal ∧ prepositionAgreement normal next w form ∧
    preposition.forms[variant form]? = some p

/-- The texts in front of which the preposition о has a form of its own. -/
def exceptions : List Str := [str! "всех", str! "мне", str! "всём", str! "что", str! "всей"]

/-- The template of a noun and its modifier with common properties, the noun named last: `[новый|рд,мн|товар] [товар|рд,мн]`. -/
def modifiedText (modifier noun list : Str) : Str := bracketed modifier [list, noun] ++ ' ' :: bracketed noun [list]

/-- The value of the property `g` both words have to have: the noun's own one, else the one asked for. -/
def common (noun : Word) (asked : List Rec) (g : Group) : Option Rec :=
  if noun.properties.isSpecified g then noun.properties.get g else asked.find? fun r => decide (r.group = g)

end Utg.Spec
