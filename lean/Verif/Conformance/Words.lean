import Verif.Conformance.Util
/-! # utg/tests/test_words.py and utg/tests/test_logic.py, run in the model -/

namespace Utg
open Py

/-! ## utg/tests/test_logic.py -/

/-- `test_get_default_properties` (lines 17-40). -/
example : (∀ r ∈ [some Rec.CASE_NOMINATIVE, some .GENDER_MASCULINE, some .VERB_FORM_INFINITIVE, some .ADJECTIVE_FORM_FULL,
      some .PARTICIPLE_FORM_FULL, some .TIME_PAST, some .VOICE_DIRECT, some .PRONOUN_CATEGORY_PERSONAL, some .WORD_CASE_LOWER,
      some .DEPENDENCY_MODE_FULL, some .ANIMALITY_ANIMATE, some .PERSON_FIRST, some .GRADE_POSITIVE, some .ADJECTIVE_CATEGORY_QUALITY,
      some .NUMBER_SINGULAR, some .ASPECT_IMPERFECTIVE, some .INTEGER_FORM_SINGULAR, some .PREPOSITION_FORM_NORMAL,
      some .NOUN_FORM_NORMAL, none], r ∈ Group.all.map defaultProperty) ∧
    (Group.all.map defaultProperty).length = 20 := by decide +kernel

/-- `test_keys_generation__no_restrictions` (lines 43-54). -/
example : keysGenerator [] [.GENDER, .VERB_FORM, .CASE] [] =
    ((Group.records .GENDER).flatMap fun g => (Group.records .VERB_FORM).flatMap fun f => (Group.records .CASE).map fun c =>
      [some g, some f, some c]) := by decide +kernel

/-- `test_keys_generation__with_restrictions` (lines 57-89). -/
example : keysGenerator [] [.GENDER, .VERB_FORM, .CASE]
      [(.GENDER_MASCULINE, [.VERB_FORM, .CASE]), (.GENDER_FEMININE, [.VERB_FORM]), (.VERB_FORM_INFINITIVE, [.CASE])] =
    [[some .GENDER_MASCULINE, none, none],
     [some .GENDER_NEUTER, some .VERB_FORM_INFINITIVE, none],
     [some .GENDER_NEUTER, some .VERB_FORM_INDICATIVE, some .CASE_NOMINATIVE],
     [some .GENDER_NEUTER, some .VERB_FORM_INDICATIVE, some .CASE_GENITIVE],
     [some .GENDER_NEUTER, some .VERB_FORM_INDICATIVE, some .CASE_DATIVE],
     [some .GENDER_NEUTER, some .VERB_FORM_INDICATIVE, some .CASE_ACCUSATIVE],
     [some .GENDER_NEUTER, some .VERB_FORM_INDICATIVE, some .CASE_INSTRUMENTAL],
     [some .GENDER_NEUTER, some .VERB_FORM_INDICATIVE, some .CASE_PREPOSITIONAL],
     [some .GENDER_NEUTER, some .VERB_FORM_IMPERATIVE, some .CASE_NOMINATIVE],
     [some .GENDER_NEUTER, some .VERB_FORM_IMPERATIVE, some .CASE_GENITIVE],
     [some .GENDER_NEUTER, some .VERB_FORM_IMPERATIVE, some .CASE_DATIVE],
     [some .GENDER_NEUTER, some .VERB_FORM_IMPERATIVE, some .CASE_ACCUSATIVE],
     [some .GENDER_NEUTER, some .VERB_FORM_IMPERATIVE, some .CASE_INSTRUMENTAL],
     [some .GENDER_NEUTER, some .VERB_FORM_IMPERATIVE, some .CASE_PREPOSITIONAL],
     [some .GENDER_FEMININE, none, some .CASE_NOMINATIVE],
     [some .GENDER_FEMININE, none, some .CASE_GENITIVE],
     [some .GENDER_FEMININE, none, some .CASE_DATIVE],
     [some .GENDER_FEMININE, none, some .CASE_ACCUSATIVE],
     [some .GENDER_FEMININE, none, some .CASE_INSTRUMENTAL],
     [some .GENDER_FEMININE, none, some .CASE_PREPOSITIONAL]] := by decide +kernel

/-- The keys (singular, case) and (plural, case). -/
def caseKeys (n : Rec) : List Key := (Group.records .CASE).map fun c => [some n, some c]

/-- `test_get_caches` (lines 96-126). -/
example : getCache [.NUMBER, .CASE] [] [] =
    ((caseKeys .NUMBER_SINGULAR ++ caseKeys .NUMBER_PLURAL).zipIdx, caseKeys .NUMBER_SINGULAR ++ caseKeys .NUMBER_PLURAL) := by
  decide +kernel

/-- `test_get_caches__restricted_parts` (lines 128-156). -/
example : getCache [.NUMBER, .CASE] [] [[.NUMBER_SINGULAR, .CASE_DATIVE], [.NUMBER_PLURAL, .CASE_ACCUSATIVE]] =
    let keys := (caseKeys .NUMBER_SINGULAR).eraseIdx 2 ++ (caseKeys .NUMBER_PLURAL).eraseIdx 3
    (keys.zipIdx, keys) := by
  decide +kernel

/-- `test_get_caches__with_restrictions` (lines 158-177). -/
example : getCache [.NUMBER, .CASE] [(.NUMBER_PLURAL, [.CASE])] [] =
    let keys := caseKeys .NUMBER_SINGULAR ++ [[some .NUMBER_PLURAL, none]]
    (keys.zipIdx, keys) := by
  decide +kernel

/-- `test_get_nearest_key` (lines 180-191). -/
example :
    let available : List Key := [[none, none, none], [some .CASE_DATIVE, some .GENDER_MASCULINE, some .NUMBER_SINGULAR],
      [some .CASE_DATIVE, none, some .NUMBER_PLURAL], [none, some .GENDER_MASCULINE, none]]
    getNearestKey [none, some .GENDER_FEMININE, none] available = some [none, none, none] ∧
    getNearestKey [none, some .GENDER_MASCULINE, some .NUMBER_PLURAL] available = some [none, some .GENDER_MASCULINE, none] ∧
    getNearestKey [some .CASE_DATIVE, some .GENDER_FEMININE, some .NUMBER_SINGULAR] available =
      some [some .CASE_DATIVE, some .GENDER_MASCULINE, some .NUMBER_SINGULAR] := by decide +kernel

/-! ## utg/tests/test_words.py: Properties -/

/-- `test_construct`, `test_construct__empty`, `test_update__empty`, `test_update` (lines 18-49): `_update` after the construction is
construction with more arguments. -/
example : (props []).data = [] ∧
    (props [.CASE_DATIVE, .NUMBER_PLURAL, .PERSON_SECOND]).data =
      [(.CASE, .CASE_DATIVE), (.NUMBER, .NUMBER_PLURAL), (.PERSON, .PERSON_SECOND)] ∧
    ((props [.CASE_DATIVE, .NUMBER_PLURAL, .PERSON_SECOND]).clone []).data = (props [.CASE_DATIVE, .NUMBER_PLURAL, .PERSON_SECOND]).data ∧
    ((props [.CASE_DATIVE, .NUMBER_PLURAL, .PERSON_SECOND]).clone [.record .NUMBER_SINGULAR, .record .TIME_FUTURE]).data =
      [(.CASE, .CASE_DATIVE), (.NUMBER, .NUMBER_SINGULAR), (.PERSON, .PERSON_SECOND), (.TIME, .TIME_FUTURE)] := by decide +kernel

/-- `test_serialization` (lines 29-31). -/
example : (Properties.deserialize (props [.CASE_DATIVE, .NUMBER_PLURAL, .PERSON_SECOND]).serialize).map Properties.serialize =
    .ok (props [.CASE_DATIVE, .NUMBER_PLURAL, .PERSON_SECOND]).serialize := by decide +kernel

/-- `test_get` (lines 51-60). -/
example : ∀ g ∈ Group.all, (props [.CASE_DATIVE, .NUMBER_PLURAL, .PERSON_SECOND]).get g =
    if g = .WORD_TYPE then none else if g = .CASE then some .CASE_DATIVE else if g = .NUMBER then some .NUMBER_PLURAL
    else if g = .PERSON then some .PERSON_SECOND else g.records.head? := by decide +kernel

/-- `test_get_key` (lines 62-65). -/
example : (props [.CASE_DATIVE, .NUMBER_PLURAL, .GENDER_FEMININE]).getRawKey [] = [] ∧
    (props [.CASE_DATIVE, .NUMBER_PLURAL, .GENDER_FEMININE]).getRawKey [.TIME, .CASE, .GENDER] =
      [some .TIME_PAST, some .CASE_DATIVE, some .GENDER_FEMININE] := by decide +kernel

/-- `test_eq` (lines 67-76). -/
example : (props [.CASE_DATIVE, .NUMBER_PLURAL, .PERSON_SECOND]).eq (props [.CASE_DATIVE, .NUMBER_PLURAL, .PERSON_SECOND]) = true ∧
    (props [.CASE_DATIVE, .NUMBER_PLURAL, .PERSON_SECOND]).eq
      (.new [.props (props [.CASE_DATIVE, .NUMBER_PLURAL, .PERSON_SECOND]), .record .NUMBER_SINGULAR]) = false := by decide +kernel

/-! ## utg/tests/test_words.py: Word -/

/-- `test_init` (lines 85-91). -/
example : Word.new .VERB ((List.range (wordsCache .VERB).length).map fun i => 'x' :: natDigits i) (props [.CASE_DATIVE, .TIME_FUTURE]) =
    .ok ⟨.VERB, (List.range 20).map fun i => 'x' :: natDigits i, props [.CASE_DATIVE, .TIME_FUTURE]⟩ := by decide +kernel

/-- `test_serialization` (lines 93-95). -/
example : (Word.deserialize (testWord .NOUN (str! "w-") [.CASE_DATIVE, .TIME_FUTURE]).serialize).map Word.serialize =
    .ok (testWord .NOUN (str! "w-") [.CASE_DATIVE, .TIME_FUTURE]).serialize := by decide +kernel

/-- `test_get_forms_number__integer` (lines 97-98). -/
example : Word.getFormsNumber .INTEGER = 1 := by decide +kernel

/-- `test_form` (lines 101-106). -/
example :
    let w := testWord .NOUN (str! "w-") [.GENDER_FEMININE, .ANIMALITY_INANIMATE]
    w.form (props [.CASE_DATIVE]) = .ok (str! "w-нс,ед,дт") ∧
    w.form (props [.CASE_DATIVE, .NUMBER_PLURAL]) = .ok (str! "w-нс,мн,дт") ∧
    w.form (props [.CASE_DATIVE, .TIME_FUTURE]) = .ok (str! "w-нс,ед,дт") := by decide +kernel

/-- `test_form__optional_property` (lines 109-120). -/
example :
    let w := testWord .NOUN (str! "w-") [.GENDER_FEMININE, .ANIMALITY_INANIMATE, .NUMBER_PLURAL]
    let v := testWord .NOUN (str! "w-") [.GENDER_FEMININE, .ANIMALITY_INANIMATE, .NUMBER_SINGULAR]
    w.form (props [.CASE_DATIVE]) = .ok (str! "w-нс,мн,дт") ∧
    w.form (props [.CASE_DATIVE, .NUMBER_PLURAL]) = .ok (str! "w-нс,мн,дт") ∧
    w.form (props [.CASE_DATIVE, .TIME_FUTURE]) = .ok (str! "w-нс,мн,дт") ∧
    v.form (props [.CASE_DATIVE]) = .ok (str! "w-нс,ед,дт") ∧
    v.form (props [.CASE_DATIVE, .NUMBER_PLURAL]) = .ok (str! "w-нс,ед,дт") ∧
    v.form (props [.CASE_DATIVE, .TIME_FUTURE]) = .ok (str! "w-нс,ед,дт") := by decide +kernel

/-- `test_normal_form`, `test_normal_form__fixed_properties` (lines 122-128). -/
example : some ((testWord .NOUN (str! "w-") []).normalForm) = (testWord .NOUN (str! "w-") []).forms[0]?.map .ok ∧
    (testWord .NOUN (str! "w-") [.NUMBER_PLURAL]).normalForm = .ok (str! "w-нс,мн,им") := by decide +kernel

/-- `test_number_of_syllables` (lines 130-145). -/
example : ∀ e ∈ [(str! "б", 1), (str! "а", 1), (str! "абвг", 1), (str! "абракадабра", 5)],
    (withFirst (testWord .NOUN (str! "w-") []) [e.1]).numberOfSyllables = .ok e.2 := by decide +kernel

/-- The noun "сон" of the tests. -/
def son : Word := ⟨.NOUN,
  [str! "сон", str! "сна", str! "сну", str! "сон", str! "сном", str! "сне",
   str! "сны", str! "снов", str! "снам", str! "сны", str! "снами", str! "снах",
   str! "сны", str! "снов", str! "снам", str! "сны", str! "снами", str! "снах"], props [.GENDER_MASCULINE, .ANIMALITY_INANIMATE]⟩

/-- `test_has_fluent_vowel` (lines 147-161), the second case for every vowel. -/
example : Word.hasFluentVowel ⟨.NOUN, List.replicate 18 (str! "абракадубр"), props []⟩ = .ok false ∧
    (∀ v ∈ VOWELS, Word.hasFluentVowel ⟨.NOUN, str! "абракадубр" :: List.replicate 17 (str! "абракадубр" ++ [v]), props []⟩ = .ok false) ∧
    son.hasFluentVowel = .ok true := by decide +kernel

/-- `test_all_forms` (lines 164-170). -/
example : ((testWord .NOUN (str! "w-") []).allForms).bind (fun fs => fs.mapM fun f => f.form exPy) =
      .ok (testWord .NOUN (str! "w-") []).forms ∧
    (testWord .NOUN (str! "w-") []).forms.length = 18 := by decide +kernel

/-- `test_autofill_missed_forms` (lines 173-189). -/
example : (Word.mk .NOUN
      [str! "сон", str! "сна", [], str! "сон", str! "сном", str! "сне",
       str! "сны", str! "снов", str! "снам", [], str! "снами", str! "снах",
       str! "сны", [], [], [], str! "снами", []] (props [.GENDER_MASCULINE, .ANIMALITY_INANIMATE])).autofillMissedForms.map Word.forms =
    .ok [str! "сон", str! "сна", str! "снам", str! "сон", str! "сном", str! "сне",
      str! "сны", str! "снов", str! "снам", str! "сон", str! "снами", str! "снах",
      str! "сны", str! "снов", str! "снам", str! "сны", str! "снами", str! "снах"] := by decide +kernel

/-! ## utg/tests/test_words.py: WordForm -/

/-- `test_init__simple` (lines 198-201). -/
example :
    let f := WordForm.new (testWord .NOUN (str! "w-") []) (some (props [.NUMBER_PLURAL]))
    f.properties.eq (props [.NUMBER_PLURAL]) = true ∧ f.formProperties.eq (props [.NUMBER_PLURAL]) = true := by decide +kernel

/-- `test_form` (lines 203-207). -/
example : (WordForm.new (testWord .NOUN (str! "w-") []) (some (props [.NUMBER_PLURAL])) (some (props [.NUMBER_PLURAL, .CASE_DATIVE]))).form
    exPy = .ok (str! "w-нс,мн,дт") := by decide +kernel

/-- `test_starts_with_consonant_cluster` (lines 210-221). -/
example : (WordForm.new son (some (props [.CASE_NOMINATIVE]))).startsWithConsonantCluster exPy = .ok false ∧
    (WordForm.new son (some (props [.CASE_DATIVE]))).startsWithConsonantCluster exPy = .ok true := by decide +kernel

/-! ## utg/tests/test_general.py -/

/-- `EXPECTED_ORDER` (utg/tests/test_general.py:16-47). -/
def expectedOrder : List Group :=
  [.VERB_FORM, .ADJECTIVE_FORM, .PARTICIPLE_FORM, .NOUN_FORM, .ADJECTIVE_CATEGORY, .PRONOUN_CATEGORY, .GRADE, .TIME, .VOICE, .ASPECT,
   .ANIMALITY, .NUMBER, .CASE, .PERSON, .GENDER, .INTEGER_FORM, .WORD_CASE, .DEPENDENCY_MODE, .PREPOSITION_FORM, .WORD_TYPE]

/-- `test__properties_list` (lines 54-56). -/
example : (∀ g ∈ Group.all, g ∈ expectedOrder) ∧ ∀ g ∈ expectedOrder, g ∈ Group.all := by decide +kernel

/-- `test_scheme_orders` (lines 58-62): the groups of a schema are in the expected order. -/
example : ∀ t ∈ WordType.all, expectedOrder.filter (fun g => t.schema.contains g) = t.schema := by decide +kernel

/-- `test_restrictions_orders`, `test_only_schema_properties_in_restrictions` (lines 65-76). -/
example : ∀ t ∈ WordType.all, ∀ e ∈ RESTRICTIONS t,
    (e.1.group ∈ t.schema ∨ e.1.group ∈ t.properties.map Prod.fst) ∧
    ∀ g ∈ e.2, expectedOrder.idxOf e.1.group < expectedOrder.idxOf g ∧ (g ∈ t.schema ∨ g ∈ t.properties.map Prod.fst) := by
  decide +kernel

/-- `test_presets` (lines 78-88). -/
example : ∀ e ∈ PRESETS, ∀ t ∈ WordType.all, e.1.group ∈ t.schema → e.2.group ∈ t.schema →
    ∀ k ∈ invertedCache t, some e.1 ∈ k → some e.2 ∈ k := by decide +kernel

/-- `test_unique_verbose_ids` (lines 91-97). -/
example : ((Group.all.flatMap Group.records).map Rec.verboseId).Nodup := by decide +kernel

/-- `test_all_property_types_in_relation` (lines 99-101). -/
example : ∀ g ∈ Group.all, g ∈ propertyTypeRecords := by decide +kernel

end Utg
