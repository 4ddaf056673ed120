import Verif.Spec.Phrase
/-! # A word that depends on a subject -/

namespace Utg.Spec
open Py

/-- The template `[subject] [word|subject]`. -/
def subjectText (subject word : Str) : Str := bracketed subject [] ++ ' ' :: bracketed word [subject]

/-- The value of property `g` that the word takes: the one the subject has, else that of the form in which the word is written, else the
documented default. -/
def wanted (subject : Word) (written : List Rec) (g : Group) : Option Rec :=
  if subject.properties.isSpecified g then subject.properties.get g
  else (written.find? fun r => decide (r.group = g)).or (documentedDefault g)

/-- There is no such form: a countable singular, an imperative of the third person or of the first person singular. -/
def NoSuchForm (r : Rec) (number person : Option Rec) : Prop :=
  r = .NOUN_FORM_COUNTABLE ∧ number = some .NUMBER_SINGULAR ∨
  r = .VERB_FORM_IMPERATIVE ∧ (person = some .PERSON_THIRD ∨ person = some .PERSON_FIRST ∧ number = some .NUMBER_SINGULAR)

end Utg.Spec
