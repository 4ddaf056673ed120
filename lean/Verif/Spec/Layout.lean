import Verif.Spec.Words
/-!
# The list of forms of a word, position by position

Written down by enumeration, not computed from the schemas and restrictions of the code. A combination is a list of property
values, in a fixed order. Nothing here is used by the model.
-/

namespace Utg.Spec
open Py

/-- Genders, animalities, persons, times and voices in the documented order. -/
def genders : List Rec := [.GENDER_MASCULINE, .GENDER_NEUTER, .GENDER_FEMININE]
def animalities : List Rec := [.ANIMALITY_ANIMATE, .ANIMALITY_INANIMATE]
def persons : List Rec := [.PERSON_FIRST, .PERSON_SECOND, .PERSON_THIRD]
def times : List Rec := [.TIME_PAST, .TIME_PRESENT, .TIME_FUTURE]
def voices : List Rec := [.VOICE_DIRECT, .VOICE_REVERSE]
def grades : List Rec := [.GRADE_POSITIVE, .GRADE_COMPARATIVE, .GRADE_SUPERLATIVE]

/-- A layout: the combination whose form is stored at each position. -/
abbrev Layout := List (List Rec)

/-- The form a list of forms stores for a combination. -/
def stored (layout : Layout) (forms : List Str) (m : List Rec) : Option Str := forms[layout.idxOf m]?

/-- Animality, then number, then case, then gender in the singular. -/
def animalityFirst (pre : List Rec) : Layout :=
  animalities.flatMap fun a =>
    (cases.flatMap fun c => genders.map fun g => pre ++ [a, .NUMBER_SINGULAR, c, g]) ++
    cases.map fun c => pre ++ [a, .NUMBER_PLURAL, c]

/-- The same combinations with animality varying fastest. -/
def animalityLast (pre : List Rec) : Layout :=
  (cases.flatMap fun c => genders.flatMap fun g => animalities.map fun a => pre ++ [a, .NUMBER_SINGULAR, c, g]) ++
  (cases.flatMap fun c => animalities.map fun a => pre ++ [a, .NUMBER_PLURAL, c])

/-- The short forms of an adjective or participle. -/
def shortForms (short : Rec) : Layout :=
  genders.map (fun g => [short, .NUMBER_SINGULAR, g]) ++ [[short, .NUMBER_PLURAL]]

/-- Nouns, in all layouts. -/
def nounLayout : Layout :=
  cases.map (fun c => [.NOUN_FORM_NORMAL, .NUMBER_SINGULAR, c]) ++ cases.map (fun c => [.NOUN_FORM_NORMAL, .NUMBER_PLURAL, c]) ++
  cases.map (fun c => [.NOUN_FORM_COUNTABLE, .NUMBER_PLURAL, c])

/-- The verb forms except the imperative. -/
def verbLayout : Layout :=
  [[.VERB_FORM_INFINITIVE]] ++ genders.map (fun g => [.VERB_FORM_INDICATIVE, .TIME_PAST, .NUMBER_SINGULAR, g]) ++
  [[.VERB_FORM_INDICATIVE, .TIME_PAST, .NUMBER_PLURAL]] ++
  [Rec.TIME_PRESENT, .TIME_FUTURE].flatMap fun t => [Rec.NUMBER_SINGULAR, .NUMBER_PLURAL].flatMap fun n =>
    persons.map fun p => [.VERB_FORM_INDICATIVE, t, n, p]

/-- The positions of a word of today. -/
def layoutNow : WordType → Layout
  | .NOUN => nounLayout
  | .ADJECTIVE => animalityFirst [.ADJECTIVE_FORM_FULL, .GRADE_POSITIVE] ++ [[.ADJECTIVE_FORM_FULL, .GRADE_COMPARATIVE]] ++
      animalityFirst [.ADJECTIVE_FORM_FULL, .GRADE_SUPERLATIVE] ++ shortForms .ADJECTIVE_FORM_SHORT
  | .PRONOUN => animalityFirst []
  | .VERB => verbLayout ++ [[.VERB_FORM_IMPERATIVE, .NUMBER_SINGULAR, .PERSON_SECOND],
      [.VERB_FORM_IMPERATIVE, .NUMBER_PLURAL, .PERSON_FIRST], [.VERB_FORM_IMPERATIVE, .NUMBER_PLURAL, .PERSON_SECOND]]
  | .PARTICIPLE => (times.flatMap fun t => animalityFirst [.PARTICIPLE_FORM_FULL, t]) ++ shortForms .PARTICIPLE_FORM_SHORT
  | .INTEGER => [[]]
  | .TEXT => [[]]
  | .PREPOSITION => [[.PREPOSITION_FORM_NORMAL], [.PREPOSITION_FORM_ALTERNATIVE], [.PREPOSITION_FORM_SPECIAL]]


end Utg.Spec
