import Verif.Model.Words
import Verif.Spec.Properties
import Verif.Spec.Keys
/-!
# Specification vocabulary for words

Nothing here is used by the model.
-/

namespace Utg.Spec
open Py

/-- `w` was returned by the constructor `Word(type, forms, properties)`, for well-formed properties. -/
def Accepted (w : Word) : Prop := ∃ t fs ps, WFProps ps ∧ Word.new t fs ps = .ok w

/-- The value of property `g` that counts when word `w` is asked for properties `p`: the word's own if it specifies one, else
the requested one, else the default. -/
def effective (w : Word) (p : Properties) (g : Group) : Option Rec :=
  if w.properties.isSpecified g then w.properties.get g
  else if p.isSpecified g then p.get g
  else documentedDefault g

/-- The number of forms of each part of speech. -/
def slotCount : WordType → Nat
  | .NOUN => 18 | .ADJECTIVE => 101 | .PRONOUN => 48 | .VERB => 20 | .PARTICIPLE => 148 | .INTEGER => 1 | .TEXT => 1
  | .PREPOSITION => 3

/-- The six cases in the documented order. -/
def cases : List Rec := [.CASE_NOMINATIVE, .CASE_GENITIVE, .CASE_DATIVE, .CASE_ACCUSATIVE, .CASE_INSTRUMENTAL, .CASE_PREPOSITIONAL]

/-- The slots of a noun: six cases of the normal singular, of the normal plural, of the countable plural. -/
def nounSlots : List Key :=
  cases.map (fun c => [some .NOUN_FORM_NORMAL, some .NUMBER_SINGULAR, some c]) ++
  cases.map (fun c => [some .NOUN_FORM_NORMAL, some .NUMBER_PLURAL, some c]) ++
  cases.map (fun c => [some .NOUN_FORM_COUNTABLE, some .NUMBER_PLURAL, some c])

/-- The slots of a verb: infinitive; past by gender, past plural; present singular and plural by person; future likewise;
imperative: second person singular, first and second person plural. -/
def verbSlots : List Key :=
  [[some .VERB_FORM_INFINITIVE, none, none, none, none],
   [some .VERB_FORM_INDICATIVE, some .TIME_PAST, some .NUMBER_SINGULAR, none, some .GENDER_MASCULINE],
   [some .VERB_FORM_INDICATIVE, some .TIME_PAST, some .NUMBER_SINGULAR, none, some .GENDER_NEUTER],
   [some .VERB_FORM_INDICATIVE, some .TIME_PAST, some .NUMBER_SINGULAR, none, some .GENDER_FEMININE],
   [some .VERB_FORM_INDICATIVE, some .TIME_PAST, some .NUMBER_PLURAL, none, none],
   [some .VERB_FORM_INDICATIVE, some .TIME_PRESENT, some .NUMBER_SINGULAR, some .PERSON_FIRST, none],
   [some .VERB_FORM_INDICATIVE, some .TIME_PRESENT, some .NUMBER_SINGULAR, some .PERSON_SECOND, none],
   [some .VERB_FORM_INDICATIVE, some .TIME_PRESENT, some .NUMBER_SINGULAR, some .PERSON_THIRD, none],
   [some .VERB_FORM_INDICATIVE, some .TIME_PRESENT, some .NUMBER_PLURAL, some .PERSON_FIRST, none],
   [some .VERB_FORM_INDICATIVE, some .TIME_PRESENT, some .NUMBER_PLURAL, some .PERSON_SECOND, none],
   [some .VERB_FORM_INDICATIVE, some .TIME_PRESENT, some .NUMBER_PLURAL, some .PERSON_THIRD, none],
   [some .VERB_FORM_INDICATIVE, some .TIME_FUTURE, some .NUMBER_SINGULAR, some .PERSON_FIRST, none],
   [some .VERB_FORM_INDICATIVE, some .TIME_FUTURE, some .NUMBER_SINGULAR, some .PERSON_SECOND, none],
   [some .VERB_FORM_INDICATIVE, some .TIME_FUTURE, some .NUMBER_SINGULAR, some .PERSON_THIRD, none],
   [some .VERB_FORM_INDICATIVE, some .TIME_FUTURE, some .NUMBER_PLURAL, some .PERSON_FIRST, none],
   [some .VERB_FORM_INDICATIVE, some .TIME_FUTURE, some .NUMBER_PLURAL, some .PERSON_SECOND, none],
   [some .VERB_FORM_INDICATIVE, some .TIME_FUTURE, some .NUMBER_PLURAL, some .PERSON_THIRD, none],
   [some .VERB_FORM_IMPERATIVE, none, some .NUMBER_SINGULAR, some .PERSON_SECOND, none],
   [some .VERB_FORM_IMPERATIVE, none, some .NUMBER_PLURAL, some .PERSON_FIRST, none],
   [some .VERB_FORM_IMPERATIVE, none, some .NUMBER_PLURAL, some .PERSON_SECOND, none]]

/-- The slots of a preposition. -/
def prepositionSlots : List Key :=
  [[some .PREPOSITION_FORM_NORMAL], [some .PREPOSITION_FORM_ALTERNATIVE], [some .PREPOSITION_FORM_SPECIAL]]

/-- The positions at which two keys agree. -/
def matchedPositions (key a : Key) : List Nat :=
  (List.range (min key.length a.length)).filter fun i => decide (key[i]? = a[i]?)

/-- The vowel letters of the Russian alphabet, both cases. -/
def isVowel (c : Char) : Prop :=
  c ∈ str! "аеёиоуыэюя" ∨ c ∈ str! "АЕЁИОУЫЭЮЯ"

instance : DecidablePred isVowel := fun c => by unfold isVowel; infer_instance

/-- The consonant letters (with the hard and soft signs), both cases. -/
def isConsonant (c : Char) : Prop :=
  c ∈ str! "бвгджзйклмнпрстфхцчшщъь" ∨ c ∈ str! "БВГДЖЗЙКЛМНПРСТФХЦЧШЩЪЬ"

end Utg.Spec
