import Verif.Spec.Layout
/-!
# Specification vocabulary for migrations

The layouts of old serialized words, as the list of the combinations of properties whose forms they store, position by position,
written down by enumeration, not taken from the tables of the migrations. A combination is a list of property values, in a fixed
order. Nothing here is used by the model.
-/

namespace Utg.Spec
open Py

/-- Pronouns before m_0009: by person. -/
def pronounByPerson : Layout :=
  (cases.flatMap fun c => persons.flatMap fun p => genders.map fun g => [.NUMBER_SINGULAR, c, p, g]) ++
  (cases.flatMap fun c => persons.map fun p => [.NUMBER_PLURAL, c, p])

/-- The positions of a word before m_0009: today's, except for pronouns. -/
def layoutBefore9 : WordType → Layout
  | .PRONOUN => pronounByPerson
  | t => layoutNow t

/-- The positions of a word before m_0008: as before m_0009, but with animality varying fastest. -/
def layoutBefore8 : WordType → Layout
  | .ADJECTIVE => animalityLast [.ADJECTIVE_FORM_FULL, .GRADE_POSITIVE] ++ [[.ADJECTIVE_FORM_FULL, .GRADE_COMPARATIVE]] ++
      animalityLast [.ADJECTIVE_FORM_FULL, .GRADE_SUPERLATIVE] ++ shortForms .ADJECTIVE_FORM_SHORT
  | .PARTICIPLE => (times.flatMap fun t => animalityLast [.PARTICIPLE_FORM_FULL, t]) ++ shortForms .PARTICIPLE_FORM_SHORT
  | t => layoutBefore9 t

/-- The positions of a word before m_0007: adjectives in all three grades with the grade varying fastest; participles of both
voices (the voice is put last in a combination); verbs with imperatives for all persons and with the four forms of the
conditional mood, which has no name any more (they are listed without verb form). -/
def layoutBefore7 : WordType → Layout
  | .ADJECTIVE =>
      (cases.flatMap fun c => genders.flatMap fun g => animalities.flatMap fun a => grades.map fun d =>
        [.ADJECTIVE_FORM_FULL, d, a, .NUMBER_SINGULAR, c, g]) ++
      (cases.flatMap fun c => animalities.flatMap fun a => grades.map fun d => [.ADJECTIVE_FORM_FULL, d, a, .NUMBER_PLURAL, c]) ++
      shortForms .ADJECTIVE_FORM_SHORT
  | .PARTICIPLE => (times.flatMap fun t => voices.flatMap fun v => (animalityLast [.PARTICIPLE_FORM_FULL, t]).map fun m => m ++ [v]) ++
      shortForms .PARTICIPLE_FORM_SHORT
  | .VERB => verbLayout ++ genders.map (fun g => [.TIME_PAST, .NUMBER_SINGULAR, g]) ++ [[.TIME_PAST, .NUMBER_PLURAL]] ++
      [Rec.NUMBER_SINGULAR, .NUMBER_PLURAL].flatMap fun n => persons.map fun p => [.VERB_FORM_IMPERATIVE, n, p]
  | t => layoutBefore8 t

/-- Word data in a layout: the type is `t`, there is one form for each position, and the properties can be read. -/
structure InLayout (layout : WordType → Layout) (t : WordType) (d : WordData) : Prop where
  type : d.type = t.value
  forms : d.forms.length = (layout t).length
  properties : ∃ p, Properties.deserialize d.properties = .ok p

/-- The form of an old pronoun that counts for a number, case and gender: the third person. -/
def thirdPerson (n c g : Rec) : List Rec := if n = .NUMBER_SINGULAR then [n, c, .PERSON_THIRD, g] else [n, c, .PERSON_THIRD]

/-- The positions of an adjective before m_0001 (no short forms). -/
def adjectiveBefore1 : Layout :=
  (cases.flatMap fun c => genders.flatMap fun g => animalities.flatMap fun a => grades.map fun d => [.NUMBER_SINGULAR, c, g, a, d]) ++
  (cases.flatMap fun c => animalities.flatMap fun a => grades.map fun d => [.NUMBER_PLURAL, c, a, d])

/-- The positions of a participle before m_0001 (no short forms, gender only in the past singular). -/
def participleBefore1 : Layout :=
  times.flatMap fun t => voices.flatMap fun v =>
    (cases.flatMap fun c =>
      if t = .TIME_PAST then genders.flatMap fun g => animalities.map fun a => [t, v, .NUMBER_SINGULAR, c, g, a]
      else animalities.map fun a => [t, v, .NUMBER_SINGULAR, c, a]) ++
    (cases.flatMap fun c => animalities.map fun a => [t, v, .NUMBER_PLURAL, c, a])

/-- The combinations of the old layout m_0001 may use for a full form of a participle: same number and case; in the past tense also the
same time and gender; in the plural also the same time; and otherwise the same time or the same gender. -/
def Compatible1 (m o : List Rec) : Prop :=
  (∀ r ∈ m, (r.group = .NUMBER ∨ r.group = .CASE) → r ∈ o) ∧
  (Rec.TIME_PAST ∈ m → ∀ r ∈ m, (r.group = .TIME ∨ r.group = .GENDER) → r ∈ o) ∧
  (Rec.NUMBER_PLURAL ∈ m → ∀ r ∈ m, r.group = .TIME → r ∈ o) ∧
  ((∀ r ∈ m, r.group = .TIME → r ∈ o) ∨ (∀ r ∈ m, r.group = .GENDER → r ∈ o))

/-- Where m_0001 takes the short forms of a participle from. -/
def shortBefore1 : List (List Rec × List Rec) :=
  [([.PARTICIPLE_FORM_SHORT, .NUMBER_SINGULAR, .GENDER_MASCULINE],
      [.TIME_PAST, .VOICE_REVERSE, .NUMBER_SINGULAR, .CASE_ACCUSATIVE, .GENDER_MASCULINE, .ANIMALITY_ANIMATE]),
   ([.PARTICIPLE_FORM_SHORT, .NUMBER_SINGULAR, .GENDER_NEUTER],
      [.TIME_PAST, .VOICE_DIRECT, .NUMBER_SINGULAR, .CASE_ACCUSATIVE, .GENDER_NEUTER, .ANIMALITY_INANIMATE]),
   ([.PARTICIPLE_FORM_SHORT, .NUMBER_SINGULAR, .GENDER_FEMININE],
      [.TIME_PAST, .VOICE_DIRECT, .NUMBER_SINGULAR, .CASE_PREPOSITIONAL, .GENDER_FEMININE, .ANIMALITY_INANIMATE]),
   ([.PARTICIPLE_FORM_SHORT, .NUMBER_PLURAL],
      [.TIME_FUTURE, .VOICE_DIRECT, .NUMBER_PLURAL, .CASE_NOMINATIVE, .ANIMALITY_INANIMATE])]

instance (m o : List Rec) : Decidable (Compatible1 m o) := by unfold Compatible1; infer_instance

/-- Which of the forms of a word saved before m_0007 is today's form for a combination of properties: the form for this combination,
except that the comparative is the old short plural, a full participle is the old one of the reverse voice, and a pronoun is the old one
of the third person. -/
def oldForm : WordType → List Rec → List Rec
  | .ADJECTIVE, [.ADJECTIVE_FORM_FULL, .GRADE_COMPARATIVE] => [.ADJECTIVE_FORM_SHORT, .NUMBER_PLURAL]
  | .PARTICIPLE, .PARTICIPLE_FORM_FULL :: m => .PARTICIPLE_FORM_FULL :: m ++ [.VOICE_REVERSE]
  | .PRONOUN, [_, n, c, g] => thirdPerson n c g
  | .PRONOUN, [_, n, c] => [n, c, .PERSON_THIRD]
  | _, m => m

end Utg.Spec
