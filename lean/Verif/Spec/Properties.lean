import Verif.Model.Words
/-!
# Specification vocabulary for `Properties`

Nothing here is used by the model.
-/

namespace Utg.Spec
open Py

/-- What an argument of `Properties(...)` says about a property group: a record speaks about its own group only, a
`Properties` object about the groups it specifies, `None` about nothing. -/
def argSays : Arg → Group → Option Rec
  | .none, _ => none
  | .record r, g => if r.group = g then some r else none
  | .props p, g => if p.isSpecified g then p.get g else none

/-- The documented default values: nominative, animate, singular, masculine, infinitive, direct voice, past, first person,
imperfective, quality, positive, personal, "one", normal noun form, full adjective and participle forms, lower case, full
dependency, normal preposition form; no default part of speech. -/
def documentedDefault : Group → Option Rec
  | .CASE => some .CASE_NOMINATIVE
  | .ANIMALITY => some .ANIMALITY_ANIMATE
  | .NUMBER => some .NUMBER_SINGULAR
  | .GENDER => some .GENDER_MASCULINE
  | .VERB_FORM => some .VERB_FORM_INFINITIVE
  | .VOICE => some .VOICE_DIRECT
  | .TIME => some .TIME_PAST
  | .PERSON => some .PERSON_FIRST
  | .ASPECT => some .ASPECT_IMPERFECTIVE
  | .ADJECTIVE_CATEGORY => some .ADJECTIVE_CATEGORY_QUALITY
  | .GRADE => some .GRADE_POSITIVE
  | .PRONOUN_CATEGORY => some .PRONOUN_CATEGORY_PERSONAL
  | .INTEGER_FORM => some .INTEGER_FORM_SINGULAR
  | .NOUN_FORM => some .NOUN_FORM_NORMAL
  | .ADJECTIVE_FORM => some .ADJECTIVE_FORM_FULL
  | .PARTICIPLE_FORM => some .PARTICIPLE_FORM_FULL
  | .WORD_CASE => some .WORD_CASE_LOWER
  | .DEPENDENCY_MODE => some .DEPENDENCY_MODE_FULL
  | .PREPOSITION_FORM => some .PREPOSITION_FORM_NORMAL
  | .WORD_TYPE => none

/-- Objects the API can build: `Properties(...)` applied to records, `None` and objects already built. (`clone`,
`deserialize` and `parse_properties` all go through the constructor.) -/
inductive Built : Properties → Prop
  | new (argv : List Arg) (h : ∀ p, Arg.props p ∈ argv → Built p) : Built (.new argv)

/-- A well-formed `Properties` object: one entry per group, and each entry is a record of its group. -/
def WFProps (p : Properties) : Prop := (p.data.map Prod.fst).Nodup ∧ ∀ kv ∈ p.data, kv.2.group = kv.1

/-- All `Properties` objects among the arguments are well formed. -/
def WFArgs (argv : List Arg) : Prop := ∀ p, Arg.props p ∈ argv → WFProps p

/-- A serialized item means record `r`: its key is the code of `r`'s group (as a number or decimal string), its value the code
of `r` in that group. -/
def Denotes (kv : JKey × Int) (r : Rec) : Prop := kv.1.toInt = .ok (r.group.code : Int) ∧ kv.2 = (r.value : Int)

/-- The effect of a JSON round trip on one serialized item: the key stays a number or becomes its decimal string. -/
inductive ViaJson : JKey × Int → JKey × Int → Prop
  | same (kv : JKey × Int) : ViaJson kv kv
  | stringified (n : Int) (v : Int) : ViaJson (.int n, v) (.str (pyStr n), v)

end Utg.Spec
