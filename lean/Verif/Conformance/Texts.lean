import Verif.Conformance.Words
import Verif.Props.Lexicon
/-! # utg/tests/test_templates.py, test_dictionary.py, test_lexicon.py, test_constructors.py and the prepositions of
test_transformators.py, run in the model -/

namespace Utg
open Py

/-! ## utg/tests/test_templates.py: Substitution -/

/-- `test_serialization` (lines 24-26). -/
example : (do
    let s ← Substitution.parse exPy (str! "[bla-bla|external_1|дт|external_2|вн,личн]") [str! "bla-bla", str! "external_1", str! "external_2"]
    let u ← Substitution.deserialize s.serialize
    .ok (decide (u.serialize = s.serialize))) = (.ok true : Except PyErr Bool) := by decide +kernel

/-- `test_parse__no_slugs` (lines 29-31). -/
example : raises (Substitution.parse exPy [] []) (.WrongDependencyFormatError []) = true ∧
    raises (Substitution.parse exPy (str! "[]") []) (.WrongDependencyFormatError (str! "[]")) = true := by decide +kernel

/-- `test_parse__single_slug`, `test_parse__default_properties` (lines 34-42). -/
example : Substitution.parse exPy (str! "[bla-bla]") [str! "bla-bla"] = .ok ⟨str! "bla-bla", []⟩ ∧
    Substitution.parse exPy (str! "[bla-bla|]") [str! "bla-bla"] = .ok ⟨str! "bla-bla", [.props (props [])]⟩ := by decide +kernel

/-- `test_parse__wrong_verbose_id` (lines 44-45). -/
example : raises (Substitution.parse exPy (str! "[bla-bla|unknown|вы-вы]") [str! "bla-bla", str! "вы-вы"])
    (.UnknownVerboseIdError (str! "unknown")) = true := by decide +kernel

/-- `test_parse` (lines 47-53). -/
example : Substitution.parse exPy (str! "[bla-bla|external_1|дт|external_2|вн,личн]") [str! "bla-bla", str! "external_1", str! "external_2"] =
    .ok ⟨str! "bla-bla", [.ext (str! "external_1"), .props (props [.CASE_DATIVE]), .ext (str! "external_2"),
      .props (props [.CASE_ACCUSATIVE, .PRONOUN_CATEGORY_PERSONAL])]⟩ := by decide +kernel

/-- `test_parse__word_type`, `test_parse__upper_case` (lines 55-62). -/
example : Substitution.parse exPy (str! "[bla-bla|гл]") [[]] = .ok ⟨str! "bla-bla", [.props (props [.WORD_TYPE_VERB])]⟩ ∧
    Substitution.parse exPy (str! "[Bla-bla]") [[]] = .ok ⟨str! "bla-bla", [.props (props [.WORD_CASE_UPPER])]⟩ := by decide +kernel

/-- `test_merge_properties__no_dependencies`, `..._external_not_in_externals`, `..._properties` (lines 65-75). -/
example : listProperties [] [] = .ok ([], []) ∧
    raises (listProperties [] [.ext (str! "external")]) (.ExternalDependecyNotFoundError (str! "external")) = true ∧
    listProperties [] [.props (props [.CASE_DATIVE, .GRADE_COMPARATIVE])] = .ok ([props [.CASE_DATIVE, .GRADE_COMPARATIVE]], []) := by
  decide +kernel

/-- The external of `test_merge_properties__externals` and the following tests. They pass a `Word` where a word form is meant;
only its `properties` is read, which the word form shares. -/
def mergeExternal : WordForm := WordForm.new (testWord .NOUN (str! "w-") [.CASE_DATIVE, .GRADE_COMPARATIVE])

/-- `test_merge_properties__externals`, `..._complex__properties_last`, `..._complex__external_last` (lines 77-101). -/
example :
    let ext : Externals := [(str! "external", mergeExternal)]
    let own := props [.CASE_DATIVE, .GRADE_COMPARATIVE]
    let given := props [.CASE_ACCUSATIVE, .TIME_FUTURE]
    listProperties ext [.ext (str! "external")] = .ok ([own], [mergeExternal]) ∧
    listProperties ext [.ext (str! "external"), .props given] = .ok ([own, given], [mergeExternal]) ∧
    listProperties ext [.props given, .ext (str! "external")] = .ok ([given, own], [mergeExternal]) := by decide +kernel

/-! ## utg/tests/test_templates.py: Template -/

/-- The externals of the tests. -/
def testExternals : List Str := [str! "external_1", str! "external_2"]

/-- `test_parse` (lines 123-144). -/
example : Template.empty.parse exPy (str! "[external_1|загл] 1 [ед3|external_2|буд] 2 [external_2|тв,ед]") testExternals =
    .ok ⟨[⟨str! "external_1", [.props (props [.WORD_CASE_UPPER])]⟩, ⟨str! "ед3", [.ext (str! "external_2"), .props (props [.TIME_FUTURE])]⟩,
        ⟨str! "external_2", [.props (props [.CASE_INSTRUMENTAL, .NUMBER_SINGULAR])]⟩], some (str! "%s 1 %s 2 %s")⟩ := by decide +kernel

/-- `test_serialization` (lines 115-120). -/
example : (do
    let t ← Template.empty.parse exPy (str! "[external_1|загл] 1 [ед3|external_2|буд] 2 [external_2|тв,ед]") testExternals
    let u ← Template.deserialize t.serialize
    .ok (decide (u.serialize = t.serialize))) = (.ok true : Except PyErr Bool) := by decide +kernel

/-- `test_parse__percent_symbol` (lines 147-154). -/
example : (Template.empty.parse exPy (str! "[external_1|загл] 1 [ед3|external_2|буд] 2% [external_2|тв,ед]") testExternals).map Template.template =
    .ok (some (str! "%s 1 %s 2%% %s")) := by decide +kernel

/-- The words of `test_substitute`. -/
def substituteWords : List Word :=
  [testWord .NOUN (str! "w-") [.GENDER_FEMININE, .ANIMALITY_INANIMATE], testWord .NOUN (str! "x-") [.GENDER_FEMININE, .ANIMALITY_INANIMATE],
   testWord .NOUN (str! "y-") [.GENDER_FEMININE, .ANIMALITY_INANIMATE, .NUMBER_PLURAL]]

/-- `test_substitute`, `test_substitute__percent_symbol` (lines 157-206). -/
example : ∀ e ∈ [(str! "[external_1|загл] 1 [w-нс,ед,тв|external_2|буд] 2 [external_2|тв,ед]", str! "X-нс,ед,им 1 w-нс,мн,им 2 y-нс,мн,тв"),
      (str! "[external_1|загл] 1 [w-нс,ед,тв|external_2|буд] 2% [external_2|тв,ед]", str! "X-нс,ед,им 1 w-нс,мн,им 2% y-нс,мн,тв")],
    (do
      let d ← Dictionary.new exPy substituteWords
      let t ← Template.empty.parse exPy e.1 testExternals
      let x ← d.getWord (str! "x-нс,ед,им")
      let y ← d.getWord (str! "y-нс,мн,им")
      t.substitute exPy [(str! "external_1", x), (str! "external_2", y)] d) = .ok e.2 := by decide +kernel

/-- `test_get_undictionaried_words` (lines 208-226). -/
example : (do
    let d ← Dictionary.new exPy [testWord .NOUN (str! "w-") [.GENDER_FEMININE, .ANIMALITY_INANIMATE, .NUMBER_PLURAL],
      testWord .NOUN (str! "x-") [.GENDER_FEMININE, .ANIMALITY_INANIMATE],
      testWord .NOUN (str! "y-") [.GENDER_FEMININE, .ANIMALITY_INANIMATE, .NUMBER_PLURAL]]
    let t ← Template.empty.parse exPy (str! "[external_1|загл] 1 [x-нс,ед,тв|external_2|буд] 2 [слово|тв,ед] [бла-бла]") testExternals
    .ok (t.getUndictionariedWords testExternals d)) = (.ok [str! "слово", str! "бла-бла"] : Except PyErr (List Str)) := by decide +kernel

/-! ## utg/tests/test_dictionary.py -/

/-- A test word whose first forms are replaced. -/
def first3 (t : WordType) (texts : List Str) : Word := withFirst (testWord t (str! "w-") []) texts

/-- The dictionary of the words, if building it raised nothing. -/
def dictOf (ws : List Word) : Dictionary :=
  match Dictionary.new exPy ws with
  | .ok d => d
  | .error _ => []

/-- `test_add_word` (lines 22-30), `test_add_word__duplicates_in_one_word` (lines 111-119). -/
example :
    let w := first3 .NOUN [str! "x1", str! "x2", str! "x3"]
    let v := first3 .NOUN [str! "x1", str! "x2", str! "x1"]
    sameForm ((dictOf [w]).getWord (str! "x1")) (.new w (some (props [.NOUN_FORM_NORMAL, .CASE_NOMINATIVE, .NUMBER_SINGULAR]))) = true ∧
    sameForm ((dictOf [w]).getWord (str! "x2")) (.new w (some (props [.NOUN_FORM_NORMAL, .CASE_GENITIVE, .NUMBER_SINGULAR]))) = true ∧
    sameForm ((dictOf [w]).getWord (str! "x3")) (.new w (some (props [.NOUN_FORM_NORMAL, .CASE_DATIVE, .NUMBER_SINGULAR]))) = true ∧
    sameForm ((dictOf [v]).getWord (str! "x1")) (.new v (some (props [.NOUN_FORM_NORMAL, .CASE_NOMINATIVE, .NUMBER_SINGULAR]))) = true ∧
    sameForm ((dictOf [v]).getWord (str! "x2")) (.new v (some (props [.NOUN_FORM_NORMAL, .CASE_GENITIVE, .NUMBER_SINGULAR]))) = true := by
  decide +kernel

/-- `test_add_word__duplicate_normal_form`, in both orders (lines 32-58). -/
example :
    let n := first3 .NOUN [str! "x1", str! "x2", str! "x3"]
    let v := first3 .VERB [str! "x1", str! "y2", str! "y3"]
    ∀ ws ∈ [[n, v], [v, n]],
      ((dictOf ws).getWord (str! "x1")).map (fun f => f.word.type) = .ok .NOUN ∧
      ((dictOf ws).getWord (str! "x2")).map (fun f => f.word.type) = .ok .NOUN ∧
      ((dictOf ws).getWord (str! "y2")).map (fun f => f.word.type) = .ok .VERB := by decide +kernel

/-- `check_add_order` (lines 61-74). -/
def addOrder (text : Str) (w v expected : Word) : Bool :=
  [[w, v], [v, w]].all fun ws => match (dictOf ws).getWord text with
    | .ok f => f.word.eq expected
    | .error _ => false

/-- `test_add_order__type`, `..._forms`, `..._manhattan`, `..._on_word` (lines 77-108). -/
example :
    let m := withFirst (testWord .VERB (str! "w-") [.NUMBER_PLURAL, .CASE_DATIVE, .TIME_FUTURE]) [str! "x1"]
    let k := withFirst (testWord .VERB (str! "w-") [.TIME_FUTURE, .PERSON_SECOND]) [str! "x1"]
    addOrder (str! "x1") (first3 .NOUN [str! "x1"]) (first3 .VERB [str! "x1"]) (first3 .NOUN [str! "x1"]) = true ∧
    addOrder (str! "x1") (first3 .VERB [str! "x1"]) (first3 .VERB [str! "x2"]) (first3 .VERB [str! "x1"]) = true ∧
    addOrder (str! "x1") m k k = true ∧ addOrder (str! "x1") m m m = true := by decide +kernel

/-- `test_add_word__duplicates_in_defferent_words`, in both orders, `test_get_word`, `test_has_word`, `test_get_word__no_words`
(lines 122-214). -/
example :
    let n := first3 .NOUN [str! "x1", str! "x2", str! "x3"]
    let v := first3 .VERB [str! "y1", str! "x2", str! "y3"]
    ∀ ws ∈ [[n, v], [v, n]],
      sameForm ((dictOf ws).getWord (str! "x1")) (.new n (some (props [.NOUN_FORM_NORMAL, .CASE_NOMINATIVE, .NUMBER_SINGULAR]))) = true ∧
      sameForm ((dictOf ws).getWord (str! "x2")) (.new n (some (props [.NOUN_FORM_NORMAL, .CASE_GENITIVE, .NUMBER_SINGULAR]))) = true ∧
      sameForm ((dictOf ws).getWord (str! "x3")) (.new n (some (props [.NOUN_FORM_NORMAL, .CASE_DATIVE, .NUMBER_SINGULAR]))) = true ∧
      sameForm ((dictOf ws).getWord (str! "y1")) (.new v (some (props [.VERB_FORM_INFINITIVE]))) = true ∧
      sameForm ((dictOf ws).getWord (str! "y3"))
        (.new v (some (props [.GENDER_NEUTER, .VERB_FORM_INDICATIVE, .TIME_PAST, .NUMBER_SINGULAR]))) = true ∧
      [str! "z", str! "x1", str! "x2", str! "x3", str! "y1", str! "y3"].map (dictOf ws).hasWord = [false, true, true, true, true, true] ∧
      raises ((dictOf ws).getWord (str! "z")) (.NoWordsFoundError (str! "z")) = true := by decide +kernel

/-! ## utg/tests/test_lexicon.py -/

/-- `test_add_template`, `test_add_template__restrictions` (lines 18-32). -/
example : ((Lexicon.empty (K := Nat) (T := Nat) (R := Nat)).addTemplate 1 1 |>.addTemplate 2 2 |>.addTemplate 1 3 {1, 2}) =
    [(1, [(1, ∅), (3, {1, 2})]), (2, [(2, ∅)])] := by decide +kernel

/-- `test_get_random_template__restrictions` (lines 61-74): the templates `random.choice` chooses from. -/
example :
    let l := (Lexicon.empty (K := Nat) (T := Nat) (R := Nat)).addTemplate 1 1 |>.addTemplate 1 2 {1, 2} |>.addTemplate 1 3 {1, 3}
    l.getTemplates 1 ∅ = [1] ∧ l.getTemplates 1 {1} = [1] ∧ l.getTemplates 1 {2} = [1] ∧ l.getTemplates 1 {3} = [1] ∧
    l.getTemplates 1 {1, 2} = [1, 2] ∧ l.getTemplates 1 {1, 3} = [1, 3] ∧ l.getTemplates 1 {2, 3} = [1] ∧
    l.getTemplates 1 {1, 2, 3} = [1, 2, 3] := by decide +kernel

/-- The lexicon of `test_get_nearest_templates`. -/
def nearestLexicon : Lexicon Nat Nat Nat :=
  Lexicon.empty.addTemplate 1 1 {1} |>.addTemplate 2 2 {2} |>.addTemplate 1 3 {1, 3} |>.addTemplate 1 4 {1, 4} |>.addTemplate 1 5 {3, 4}
    |>.addTemplate 1 6 {2, 1, 3, 4} |>.addTemplate 1 7 {2}

/-- `test_get_nearest_templates` (lines 83-106). -/
example : nearestLexicon.getNearestTemplates 1 {5} = [] ∧ nearestLexicon.getNearestTemplates 1 {1, 2, 3, 4, 5, 6} = [6] ∧
    nearestLexicon.getNearestTemplates 1 {1, 3} = [3] ∧ nearestLexicon.getNearestTemplates 1 {1, 3, 4} = [3, 4, 5] ∧
    nearestLexicon.getNearestTemplates 1 {1, 2} = [1, 7] := by decide +kernel

/-- The message of an exception does not matter here. -/
def isUnknownKey (r : Except PyErr Nat) : Bool := match r with | .error (.UnknownLexiconKeyError ..) => true | _ => false

/-- `test_get_random_template__no_key`, `test_get_random_nearest_template__no_key`, `..._no_templates` (lines 76-81, 131-144). -/
example : isUnknownKey (nearestLexicon.getRandomTemplate 3 ∅ 0) = true ∧ isUnknownKey (nearestLexicon.getRandomNearestTemplate 3 ∅ 0) = true ∧
    (match nearestLexicon.getRandomNearestTemplate 2 {4} 0 with | .error (.NoTemplatesWithSpecifiedRestrictions ..) => true | _ => false) = true := by
  decide +kernel

/-! ## utg/tests/test_constructors.py -/

/-- `test_construct_integer` (lines 15-59). -/
example : ∀ e ∈ ([(1, [.NUMBER_SINGULAR, .INTEGER_FORM_SINGULAR]), (1001, [.NUMBER_PLURAL, .INTEGER_FORM_SINGULAR])] ++
      [2, 3, 4].map (fun n => (n, [.NUMBER_PLURAL, .INTEGER_FORM_DUAL])) ++
      [24, 1002, 1003, 1004, 1024].map (fun n => (n, [.NUMBER_PLURAL, .INTEGER_FORM_COMPOSITE_DUAL])) ++
      [5, 10, 11, 12, 13, 14, 15, 25, 1005, 1010, 1011, 1012, 1013, 1014, 1015, 1025].map (fun n => (n, [.NUMBER_PLURAL, .INTEGER_FORM_PLURAL])) ++
      [1000000, 1000000000].map (fun n => (n, [.NUMBER_PLURAL, .INTEGER_FORM_MIL_BIL])) : List (Int × List Rec)),
    sameForm (constructIntegerFresh e.1) (.new ⟨.INTEGER, [pyStr e.1], props e.2⟩) = true := by decide +kernel

/-! ## utg/tests/test_transformators.py: prepositions -/

/-- `test_preposition_consonants` (lines 168-221), for every record that `random.choice` may give. -/
example :
    let prep (a b c : Str) : Word := ⟨.PREPOSITION, [a, b, c], props []⟩
    let dream : Word := ⟨.NOUN, [str! "сновидение", str! "сновидения", str! "сновидению", str! "сновидение", str! "сновидением", str! "сновидении",
      str! "сновидения", str! "сновидений", str! "сновидениям", str! "сновидения", str! "сновидениями", str! "сновидениях",
      str! "сновидения", str! "сновидений", str! "сновидениям", str! "сновидения", str! "сновидениями", str! "сновидениях"],
      props [.GENDER_NEUTER, .ANIMALITY_INANIMATE]⟩
    let power : Word := ⟨.NOUN, [str! "власть", str! "власти", str! "власти", str! "власть", str! "властью", str! "власти"] ++ List.replicate 12 [],
      props [.GENDER_MASCULINE, .ANIMALITY_INANIMATE, .NUMBER_SINGULAR]⟩
    let masters : List WordForm := [.new son (some (props [.CASE_NOMINATIVE])), .new son (some (props [.CASE_DATIVE])), .new dream, .new power]
    ∀ r ∈ Group.records .PREPOSITION_FORM,
      [(prep (str! "под") (str! "подо") (str! "подо"), [r, .PREPOSITION_FORM_ALTERNATIVE, r, r]),
       (prep (str! "за") (str! "за") (str! "за"), [r, r, r, r]),
       (prep (str! "в") (str! "во") (str! "во"), [r, .PREPOSITION_FORM_ALTERNATIVE, r, .PREPOSITION_FORM_ALTERNATIVE]),
       (prep (str! "с") (str! "со") (str! "со"), [r, .PREPOSITION_FORM_ALTERNATIVE, .PREPOSITION_FORM_ALTERNATIVE, r])].all (fun e =>
        (masters.zip e.2).all fun m => sameProps (prepositionAny exPy e.1 (props [r]) m.1) (props [m.2])) = true := by decide +kernel

/-- `test_preposition_vovels` (lines 224-268), for every record that `random.choice` may give. -/
example :
    let prep (a b c : Str) : Word := ⟨.PREPOSITION, [a, b, c], props []⟩
    let dinner : Word := ⟨.NOUN, [str! "ужин", str! "ужина", str! "ужину", str! "ужин", str! "ужином", str! "ужине",
      str! "ужины", str! "ужинов", str! "ужинам", str! "ужины", str! "ужинами", str! "ужинах",
      str! "ужины", str! "ужинов", str! "ужинам", str! "ужины", str! "ужинами", str! "ужинах"], props [.GENDER_MASCULINE, .ANIMALITY_INANIMATE]⟩
    let lawyer : Word := ⟨.NOUN, [str! "юрист", str! "юриста", str! "юристу", str! "юриста", str! "юристом", str! "юристе",
      str! "юристы", str! "юристов", str! "юристам", str! "юристов", str! "юристами", str! "юристах",
      str! "юристы", str! "юристов", str! "юристам", str! "юристов", str! "юристами", str! "юристах"], props [.GENDER_NEUTER, .ANIMALITY_INANIMATE]⟩
    let singular := [str! "я", str! "я", str! "я", str! "меня", str! "меня", str! "меня", str! "мне", str! "мне", str! "мне",
      str! "меня", str! "меня", str! "меня", str! "мной", str! "мной", str! "мной", str! "мне", str! "мне", str! "мне",
      str! "мы", str! "нас", str! "нам", str! "нас", str! "нами", str! "нас"]
    let me : Word := ⟨.PRONOUN, singular ++ singular, props [.PRONOUN_CATEGORY_PERSONAL]⟩
    let masters : List WordForm := [.new dinner (some (props [.CASE_NOMINATIVE])), .new dinner (some (props [.CASE_DATIVE])), .new lawyer, .new me,
      .new me (some (props [.CASE_DATIVE]))]
    (WordForm.new me (some (props [.CASE_DATIVE]))).form exPy = .ok (str! "мне") ∧
    ∀ r ∈ Group.records .PREPOSITION_FORM,
      [(prep (str! "о") (str! "об") (str! "обо"), [Rec.PREPOSITION_FORM_ALTERNATIVE, .PREPOSITION_FORM_ALTERNATIVE, r, r, .PREPOSITION_FORM_SPECIAL]),
       (prep (str! "у") (str! "у") (str! "у"), [.PREPOSITION_FORM_ALTERNATIVE, .PREPOSITION_FORM_ALTERNATIVE, r, r, r])].all (fun e =>
        (masters.zip e.2).all fun m => sameProps (prepositionAny exPy e.1 (props [r]) m.1) (props [m.2])) = true := by decide +kernel

end Utg
