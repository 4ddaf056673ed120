import Verif.Model.Transformators
import Verif.Spec.Words
/-!
# Specification vocabulary for agreement

Nothing here is used by the model.
-/

namespace Utg.Spec
open Py

/-- `q` is `p` with the listed values set and nothing else changed. -/
def Sets (p q : Properties) (changes : List Rec) : Prop :=
  (∀ r ∈ changes, q.get r.group = some r ∧ q.isSpecified r.group = true) ∧
  ∀ g, (∀ r ∈ changes, r.group ≠ g) → q.get g = p.get g ∧ q.isSpecified g = p.isSpecified g

/-- What a number of class `integerForm` demands of a noun in case `case`. The case is kept where none is listed. -/
def nounAgreement (mode integerForm case animality : Rec) : List Rec :=
  if mode = .DEPENDENCY_MODE_SEMANTIC then
    [.NOUN_FORM_NORMAL, if integerForm = .INTEGER_FORM_SINGULAR then .NUMBER_SINGULAR else .NUMBER_PLURAL]
  else match integerForm with
  | .INTEGER_FORM_SINGULAR => [.NOUN_FORM_NORMAL, .NUMBER_SINGULAR]                      -- одного рубля, двадцать один рубль
  | .INTEGER_FORM_DUAL =>                                                               -- два рубля, трёх рублей
    if case = .CASE_NOMINATIVE ∨ (case = .CASE_ACCUSATIVE ∧ animality = .ANIMALITY_INANIMATE)
    then [.NOUN_FORM_NORMAL, .NUMBER_SINGULAR, .CASE_GENITIVE]
    else [.NOUN_FORM_COUNTABLE, .NUMBER_PLURAL]
  | .INTEGER_FORM_COMPOSITE_DUAL =>                                                     -- двадцать два рубля
    if case = .CASE_NOMINATIVE ∨ case = .CASE_ACCUSATIVE
    then [.NOUN_FORM_NORMAL, .NUMBER_SINGULAR, .CASE_GENITIVE]
    else [.NOUN_FORM_COUNTABLE, .NUMBER_PLURAL]
  | .INTEGER_FORM_PLURAL =>                                                             -- пять рублей, пяти рублям
    if case = .CASE_NOMINATIVE ∨ case = .CASE_ACCUSATIVE
    then [.NOUN_FORM_COUNTABLE, .NUMBER_PLURAL, .CASE_GENITIVE]
    else [.NOUN_FORM_COUNTABLE, .NUMBER_PLURAL]
  | _ => [.NOUN_FORM_COUNTABLE, .NUMBER_PLURAL, .CASE_GENITIVE]                          -- миллион рублей

/-- What a number demands of an adjective, verb or participle. -/
def adjectiveAgreement (mode integerForm case gender : Rec) : List Rec :=
  if mode = .DEPENDENCY_MODE_SEMANTIC then
    [if integerForm = .INTEGER_FORM_SINGULAR then .NUMBER_SINGULAR else .NUMBER_PLURAL]
  else match integerForm with
  | .INTEGER_FORM_SINGULAR => [.NUMBER_SINGULAR]
  | .INTEGER_FORM_DUAL =>
    if case = .CASE_NOMINATIVE ∨ case = .CASE_ACCUSATIVE
    then [.NUMBER_PLURAL, if gender = .GENDER_FEMININE then .CASE_NOMINATIVE else .CASE_GENITIVE]
    else [.NUMBER_PLURAL]
  | .INTEGER_FORM_COMPOSITE_DUAL =>
    if case = .CASE_NOMINATIVE ∨ case = .CASE_ACCUSATIVE then [.NUMBER_SINGULAR, .CASE_GENITIVE] else [.NUMBER_PLURAL]
  | .INTEGER_FORM_PLURAL =>
    if case = .CASE_NOMINATIVE ∨ case = .CASE_ACCUSATIVE then [.NUMBER_PLURAL, .CASE_GENITIVE] else [.NUMBER_PLURAL]
  | _ => [.NUMBER_PLURAL, .CASE_GENITIVE]

/-- Starts with a consonant that is not followed by a non-consonant. -/
def StartsWithCluster (text : Str) : Prop :=
  ∃ c cs, text = c :: cs ∧ isConsonant c ∧ ∀ d, cs[0]? = some d → isConsonant d

/-- The vowels of a text, in order. -/
def vowels (text : Str) : Str := text.filter fun c => decide (isVowel c)

/-- At most one vowel in the dictionary form. -/
def OneSyllable (w : Word) : Prop := ∃ f, w.forms[0]? = some f ∧ (vowels f).length ≤ 1

/-- The vowels of some other (given) form do not begin with those of the dictionary form: сон - сна, рот - рта. -/
def FluentVowel (w : Word) : Prop :=
  ∃ (f g : Str) (i : Nat), w.forms[0]? = some f ∧ w.forms[i + 1]? = some g ∧ g ≠ [] ∧ ¬ vowels f <+: vowels g

/-- Vowels that are not iotated. -/
def isPlainVowel (c : Char) : Prop := c ∈ str! "аоэиуыАОЭИУЫ"

/-- The preposition form demanded by the next word: `prep` is the preposition's normal form, `next` the next word's text. -/
def prepositionAgreement (prep next : Str) (w : Word) (form : Option Rec) : Prop :=
  (∃ c, prep.getLast? = some c ∧ isConsonant c) ∧
    (form = some .PREPOSITION_FORM_ALTERNATIVE ∧
      (StartsWithCluster next ∧ OneSyllable w ∧ FluentVowel w ∨
       (prep = str! "в" ∨ prep = str! "с") ∧ prep <+: next ∧ StartsWithCluster next) ∨
     form = none ∧
      ¬ (StartsWithCluster next ∧ OneSyllable w ∧ FluentVowel w ∨
       (prep = str! "в" ∨ prep = str! "с") ∧ prep <+: next ∧ StartsWithCluster next)) ∨
  (¬ ∃ c, prep.getLast? = some c ∧ isConsonant c) ∧
    (form = some .PREPOSITION_FORM_SPECIAL ∧
      (prep = str! "о" ∧ next ∈ [str! "всех", str! "мне", str! "всём", str! "что", str! "всей"]) ∨
     form = some .PREPOSITION_FORM_ALTERNATIVE ∧
      ¬ (prep = str! "о" ∧ next ∈ [str! "всех", str! "мне", str! "всём", str! "что", str! "всей"]) ∧
      (∃ c, next[0]? = some c ∧ isPlainVowel c) ∨
     form = none ∧
      ¬ (prep = str! "о" ∧ next ∈ [str! "всех", str! "мне", str! "всём", str! "что", str! "всей"]) ∧
      ¬ ∃ c, next[0]? = some c ∧ isPlainVowel c)

end Utg.Spec
