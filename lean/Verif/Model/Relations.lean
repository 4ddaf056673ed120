import Verif.Py.Str
/-!
# `utg/relations.py`

Generated by `tools/gen_relations.py` from the text of `/repo/utg/relations.py` (regular expressions only), then read
against it. `rels` record classes become one flat enumeration `Rec`; relation classes become `Group`.
A record `CASE.DATIVE` of the source is `Rec.CASE_DATIVE` here. Record texts (third column) are display-only and dropped.
-/

namespace Utg
open Py

/-- The subclasses of `WORD_PROPERTY`, in order of definition (utg/relations.py:6-118). This is the value of
`logic.get_property_relations()` (utg/logic.py:6-9), which walks the module dictionary in that order. -/
inductive Group where
  | CASE
  | ANIMALITY
  | NUMBER
  | GENDER
  | VERB_FORM
  | VOICE
  | TIME
  | PERSON
  | ASPECT
  | ADJECTIVE_CATEGORY
  | GRADE
  | PRONOUN_CATEGORY
  | INTEGER_FORM
  | NOUN_FORM
  | ADJECTIVE_FORM
  | PARTICIPLE_FORM
  | WORD_CASE
  | DEPENDENCY_MODE
  | PREPOSITION_FORM
  | WORD_TYPE
  deriving DecidableEq, Repr

/-- `logic.get_property_relations()` (utg/logic.py:6-9): all relations, in order of definition. -/
def Group.all : List Group :=
  [.CASE, .ANIMALITY, .NUMBER, .GENDER, .VERB_FORM, .VOICE, .TIME, .PERSON, .ASPECT, .ADJECTIVE_CATEGORY, .GRADE, .PRONOUN_CATEGORY, .INTEGER_FORM, .NOUN_FORM, .ADJECTIVE_FORM, .PARTICIPLE_FORM, .WORD_CASE, .DEPENDENCY_MODE, .PREPOSITION_FORM, .WORD_TYPE]

/-- All records of all property relations (utg/relations.py:10-118). -/
inductive Rec where
  | CASE_NOMINATIVE
  | CASE_GENITIVE
  | CASE_DATIVE
  | CASE_ACCUSATIVE
  | CASE_INSTRUMENTAL
  | CASE_PREPOSITIONAL
  | ANIMALITY_ANIMATE
  | ANIMALITY_INANIMATE
  | NUMBER_SINGULAR
  | NUMBER_PLURAL
  | GENDER_MASCULINE
  | GENDER_NEUTER
  | GENDER_FEMININE
  | VERB_FORM_INFINITIVE
  | VERB_FORM_INDICATIVE
  | VERB_FORM_IMPERATIVE
  | VOICE_DIRECT
  | VOICE_REVERSE
  | TIME_PAST
  | TIME_PRESENT
  | TIME_FUTURE
  | PERSON_FIRST
  | PERSON_SECOND
  | PERSON_THIRD
  | ASPECT_IMPERFECTIVE
  | ASPECT_PERFECTIVE
  | ADJECTIVE_CATEGORY_QUALITY
  | ADJECTIVE_CATEGORY_RELATIVE
  | ADJECTIVE_CATEGORY_POSSESSIVE
  | GRADE_POSITIVE
  | GRADE_COMPARATIVE
  | GRADE_SUPERLATIVE
  | PRONOUN_CATEGORY_PERSONAL
  | PRONOUN_CATEGORY_REFLEXIVE
  | PRONOUN_CATEGORY_POSSESSIVE
  | PRONOUN_CATEGORY_INTERROGATIVE
  | PRONOUN_CATEGORY_RELATIVE
  | PRONOUN_CATEGORY_DEMONSTRATIVE
  | PRONOUN_CATEGORY_ATTRIBUTIVE
  | PRONOUN_CATEGORY_NEGATIVE
  | PRONOUN_CATEGORY_VAGUE
  | PRONOUN_CATEGORY_MUTUAL
  | INTEGER_FORM_SINGULAR
  | INTEGER_FORM_DUAL
  | INTEGER_FORM_COMPOSITE_DUAL
  | INTEGER_FORM_PLURAL
  | INTEGER_FORM_MIL_BIL
  | NOUN_FORM_NORMAL
  | NOUN_FORM_COUNTABLE
  | ADJECTIVE_FORM_FULL
  | ADJECTIVE_FORM_SHORT
  | PARTICIPLE_FORM_FULL
  | PARTICIPLE_FORM_SHORT
  | WORD_CASE_LOWER
  | WORD_CASE_UPPER
  | DEPENDENCY_MODE_FULL
  | DEPENDENCY_MODE_SEMANTIC
  | PREPOSITION_FORM_NORMAL
  | PREPOSITION_FORM_ALTERNATIVE
  | PREPOSITION_FORM_SPECIAL
  | WORD_TYPE_NOUN
  | WORD_TYPE_ADJECTIVE
  | WORD_TYPE_PRONOUN
  | WORD_TYPE_VERB
  | WORD_TYPE_PARTICIPLE
  | WORD_TYPE_INTEGER
  | WORD_TYPE_TEXT
  | WORD_TYPE_PREPOSITION
  deriving DecidableEq, Repr

/-- `relation.records` (utg/relations.py:10-118), in order of declaration. -/
def Group.records : Group → List Rec
  | .CASE => [.CASE_NOMINATIVE, .CASE_GENITIVE, .CASE_DATIVE, .CASE_ACCUSATIVE, .CASE_INSTRUMENTAL, .CASE_PREPOSITIONAL]  -- lines 10-16
  | .ANIMALITY => [.ANIMALITY_ANIMATE, .ANIMALITY_INANIMATE]  -- lines 19-21
  | .NUMBER => [.NUMBER_SINGULAR, .NUMBER_PLURAL]  -- lines 23-25
  | .GENDER => [.GENDER_MASCULINE, .GENDER_NEUTER, .GENDER_FEMININE]  -- lines 27-30
  | .VERB_FORM => [.VERB_FORM_INFINITIVE, .VERB_FORM_INDICATIVE, .VERB_FORM_IMPERATIVE]  -- lines 32-36
  | .VOICE => [.VOICE_DIRECT, .VOICE_REVERSE]  -- lines 38-40
  | .TIME => [.TIME_PAST, .TIME_PRESENT, .TIME_FUTURE]  -- lines 42-45
  | .PERSON => [.PERSON_FIRST, .PERSON_SECOND, .PERSON_THIRD]  -- lines 47-50
  | .ASPECT => [.ASPECT_IMPERFECTIVE, .ASPECT_PERFECTIVE]  -- lines 52-54
  | .ADJECTIVE_CATEGORY => [.ADJECTIVE_CATEGORY_QUALITY, .ADJECTIVE_CATEGORY_RELATIVE, .ADJECTIVE_CATEGORY_POSSESSIVE]  -- lines 56-59
  | .GRADE => [.GRADE_POSITIVE, .GRADE_COMPARATIVE, .GRADE_SUPERLATIVE]  -- lines 61-64
  | .PRONOUN_CATEGORY => [.PRONOUN_CATEGORY_PERSONAL, .PRONOUN_CATEGORY_REFLEXIVE, .PRONOUN_CATEGORY_POSSESSIVE, .PRONOUN_CATEGORY_INTERROGATIVE, .PRONOUN_CATEGORY_RELATIVE, .PRONOUN_CATEGORY_DEMONSTRATIVE, .PRONOUN_CATEGORY_ATTRIBUTIVE, .PRONOUN_CATEGORY_NEGATIVE, .PRONOUN_CATEGORY_VAGUE, .PRONOUN_CATEGORY_MUTUAL]  -- lines 67-77
  | .INTEGER_FORM => [.INTEGER_FORM_SINGULAR, .INTEGER_FORM_DUAL, .INTEGER_FORM_COMPOSITE_DUAL, .INTEGER_FORM_PLURAL, .INTEGER_FORM_MIL_BIL]  -- lines 80-85
  | .NOUN_FORM => [.NOUN_FORM_NORMAL, .NOUN_FORM_COUNTABLE]  -- lines 87-89
  | .ADJECTIVE_FORM => [.ADJECTIVE_FORM_FULL, .ADJECTIVE_FORM_SHORT]  -- lines 91-93
  | .PARTICIPLE_FORM => [.PARTICIPLE_FORM_FULL, .PARTICIPLE_FORM_SHORT]  -- lines 95-97
  | .WORD_CASE => [.WORD_CASE_LOWER, .WORD_CASE_UPPER]  -- lines 100-102
  | .DEPENDENCY_MODE => [.DEPENDENCY_MODE_FULL, .DEPENDENCY_MODE_SEMANTIC]  -- lines 104-106
  | .PREPOSITION_FORM => [.PREPOSITION_FORM_NORMAL, .PREPOSITION_FORM_ALTERNATIVE, .PREPOSITION_FORM_SPECIAL]  -- lines 109-112
  | .WORD_TYPE => [.WORD_TYPE_NOUN, .WORD_TYPE_ADJECTIVE, .WORD_TYPE_PRONOUN, .WORD_TYPE_VERB, .WORD_TYPE_PARTICIPLE, .WORD_TYPE_INTEGER, .WORD_TYPE_TEXT, .WORD_TYPE_PREPOSITION]  -- lines 115-126

/-- `record._relation` of `rels`: the relation a record belongs to. -/
def Rec.group : Rec → Group
  | .CASE_NOMINATIVE => .CASE
  | .CASE_GENITIVE => .CASE
  | .CASE_DATIVE => .CASE
  | .CASE_ACCUSATIVE => .CASE
  | .CASE_INSTRUMENTAL => .CASE
  | .CASE_PREPOSITIONAL => .CASE
  | .ANIMALITY_ANIMATE => .ANIMALITY
  | .ANIMALITY_INANIMATE => .ANIMALITY
  | .NUMBER_SINGULAR => .NUMBER
  | .NUMBER_PLURAL => .NUMBER
  | .GENDER_MASCULINE => .GENDER
  | .GENDER_NEUTER => .GENDER
  | .GENDER_FEMININE => .GENDER
  | .VERB_FORM_INFINITIVE => .VERB_FORM
  | .VERB_FORM_INDICATIVE => .VERB_FORM
  | .VERB_FORM_IMPERATIVE => .VERB_FORM
  | .VOICE_DIRECT => .VOICE
  | .VOICE_REVERSE => .VOICE
  | .TIME_PAST => .TIME
  | .TIME_PRESENT => .TIME
  | .TIME_FUTURE => .TIME
  | .PERSON_FIRST => .PERSON
  | .PERSON_SECOND => .PERSON
  | .PERSON_THIRD => .PERSON
  | .ASPECT_IMPERFECTIVE => .ASPECT
  | .ASPECT_PERFECTIVE => .ASPECT
  | .ADJECTIVE_CATEGORY_QUALITY => .ADJECTIVE_CATEGORY
  | .ADJECTIVE_CATEGORY_RELATIVE => .ADJECTIVE_CATEGORY
  | .ADJECTIVE_CATEGORY_POSSESSIVE => .ADJECTIVE_CATEGORY
  | .GRADE_POSITIVE => .GRADE
  | .GRADE_COMPARATIVE => .GRADE
  | .GRADE_SUPERLATIVE => .GRADE
  | .PRONOUN_CATEGORY_PERSONAL => .PRONOUN_CATEGORY
  | .PRONOUN_CATEGORY_REFLEXIVE => .PRONOUN_CATEGORY
  | .PRONOUN_CATEGORY_POSSESSIVE => .PRONOUN_CATEGORY
  | .PRONOUN_CATEGORY_INTERROGATIVE => .PRONOUN_CATEGORY
  | .PRONOUN_CATEGORY_RELATIVE => .PRONOUN_CATEGORY
  | .PRONOUN_CATEGORY_DEMONSTRATIVE => .PRONOUN_CATEGORY
  | .PRONOUN_CATEGORY_ATTRIBUTIVE => .PRONOUN_CATEGORY
  | .PRONOUN_CATEGORY_NEGATIVE => .PRONOUN_CATEGORY
  | .PRONOUN_CATEGORY_VAGUE => .PRONOUN_CATEGORY
  | .PRONOUN_CATEGORY_MUTUAL => .PRONOUN_CATEGORY
  | .INTEGER_FORM_SINGULAR => .INTEGER_FORM
  | .INTEGER_FORM_DUAL => .INTEGER_FORM
  | .INTEGER_FORM_COMPOSITE_DUAL => .INTEGER_FORM
  | .INTEGER_FORM_PLURAL => .INTEGER_FORM
  | .INTEGER_FORM_MIL_BIL => .INTEGER_FORM
  | .NOUN_FORM_NORMAL => .NOUN_FORM
  | .NOUN_FORM_COUNTABLE => .NOUN_FORM
  | .ADJECTIVE_FORM_FULL => .ADJECTIVE_FORM
  | .ADJECTIVE_FORM_SHORT => .ADJECTIVE_FORM
  | .PARTICIPLE_FORM_FULL => .PARTICIPLE_FORM
  | .PARTICIPLE_FORM_SHORT => .PARTICIPLE_FORM
  | .WORD_CASE_LOWER => .WORD_CASE
  | .WORD_CASE_UPPER => .WORD_CASE
  | .DEPENDENCY_MODE_FULL => .DEPENDENCY_MODE
  | .DEPENDENCY_MODE_SEMANTIC => .DEPENDENCY_MODE
  | .PREPOSITION_FORM_NORMAL => .PREPOSITION_FORM
  | .PREPOSITION_FORM_ALTERNATIVE => .PREPOSITION_FORM
  | .PREPOSITION_FORM_SPECIAL => .PREPOSITION_FORM
  | .WORD_TYPE_NOUN => .WORD_TYPE
  | .WORD_TYPE_ADJECTIVE => .WORD_TYPE
  | .WORD_TYPE_PRONOUN => .WORD_TYPE
  | .WORD_TYPE_VERB => .WORD_TYPE
  | .WORD_TYPE_PARTICIPLE => .WORD_TYPE
  | .WORD_TYPE_INTEGER => .WORD_TYPE
  | .WORD_TYPE_TEXT => .WORD_TYPE
  | .WORD_TYPE_PREPOSITION => .WORD_TYPE

/-- `record.value`: second column of the tables in utg/relations.py:10-118. -/
def Rec.value : Rec → Nat
  | .CASE_NOMINATIVE => 0  -- line 11
  | .CASE_GENITIVE => 1  -- line 12
  | .CASE_DATIVE => 2  -- line 13
  | .CASE_ACCUSATIVE => 3  -- line 14
  | .CASE_INSTRUMENTAL => 4  -- line 15
  | .CASE_PREPOSITIONAL => 5  -- line 16
  | .ANIMALITY_ANIMATE => 0  -- line 20
  | .ANIMALITY_INANIMATE => 1  -- line 21
  | .NUMBER_SINGULAR => 0  -- line 24
  | .NUMBER_PLURAL => 1  -- line 25
  | .GENDER_MASCULINE => 0  -- line 28
  | .GENDER_NEUTER => 1  -- line 29
  | .GENDER_FEMININE => 2  -- line 30
  | .VERB_FORM_INFINITIVE => 0  -- line 33
  | .VERB_FORM_INDICATIVE => 1  -- line 34
  | .VERB_FORM_IMPERATIVE => 3  -- line 36
  | .VOICE_DIRECT => 0  -- line 39
  | .VOICE_REVERSE => 1  -- line 40
  | .TIME_PAST => 1  -- line 43
  | .TIME_PRESENT => 2  -- line 44
  | .TIME_FUTURE => 3  -- line 45
  | .PERSON_FIRST => 0  -- line 48
  | .PERSON_SECOND => 1  -- line 49
  | .PERSON_THIRD => 2  -- line 50
  | .ASPECT_IMPERFECTIVE => 0  -- line 53
  | .ASPECT_PERFECTIVE => 1  -- line 54
  | .ADJECTIVE_CATEGORY_QUALITY => 0  -- line 57
  | .ADJECTIVE_CATEGORY_RELATIVE => 1  -- line 58
  | .ADJECTIVE_CATEGORY_POSSESSIVE => 2  -- line 59
  | .GRADE_POSITIVE => 0  -- line 62
  | .GRADE_COMPARATIVE => 1  -- line 63
  | .GRADE_SUPERLATIVE => 2  -- line 64
  | .PRONOUN_CATEGORY_PERSONAL => 0  -- line 68
  | .PRONOUN_CATEGORY_REFLEXIVE => 1  -- line 69
  | .PRONOUN_CATEGORY_POSSESSIVE => 2  -- line 70
  | .PRONOUN_CATEGORY_INTERROGATIVE => 3  -- line 71
  | .PRONOUN_CATEGORY_RELATIVE => 4  -- line 72
  | .PRONOUN_CATEGORY_DEMONSTRATIVE => 5  -- line 73
  | .PRONOUN_CATEGORY_ATTRIBUTIVE => 6  -- line 74
  | .PRONOUN_CATEGORY_NEGATIVE => 7  -- line 75
  | .PRONOUN_CATEGORY_VAGUE => 8  -- line 76
  | .PRONOUN_CATEGORY_MUTUAL => 9  -- line 77
  | .INTEGER_FORM_SINGULAR => 0  -- line 81
  | .INTEGER_FORM_DUAL => 1  -- line 82
  | .INTEGER_FORM_COMPOSITE_DUAL => 2  -- line 83
  | .INTEGER_FORM_PLURAL => 3  -- line 84
  | .INTEGER_FORM_MIL_BIL => 4  -- line 85
  | .NOUN_FORM_NORMAL => 0  -- line 88
  | .NOUN_FORM_COUNTABLE => 1  -- line 89
  | .ADJECTIVE_FORM_FULL => 0  -- line 92
  | .ADJECTIVE_FORM_SHORT => 1  -- line 93
  | .PARTICIPLE_FORM_FULL => 0  -- line 96
  | .PARTICIPLE_FORM_SHORT => 1  -- line 97
  | .WORD_CASE_LOWER => 0  -- line 101
  | .WORD_CASE_UPPER => 1  -- line 102
  | .DEPENDENCY_MODE_FULL => 0  -- line 105
  | .DEPENDENCY_MODE_SEMANTIC => 1  -- line 106
  | .PREPOSITION_FORM_NORMAL => 0  -- line 110
  | .PREPOSITION_FORM_ALTERNATIVE => 1  -- line 111
  | .PREPOSITION_FORM_SPECIAL => 2  -- line 112
  | .WORD_TYPE_NOUN => 0  -- line 119
  | .WORD_TYPE_ADJECTIVE => 1  -- line 120
  | .WORD_TYPE_PRONOUN => 2  -- line 121
  | .WORD_TYPE_VERB => 3  -- line 122
  | .WORD_TYPE_PARTICIPLE => 4  -- line 123
  | .WORD_TYPE_INTEGER => 5  -- line 124
  | .WORD_TYPE_TEXT => 6  -- line 125
  | .WORD_TYPE_PREPOSITION => 10  -- line 126

/-- `record.verbose_id`: fourth column of the tables in utg/relations.py:10-118. -/
def Rec.verboseId : Rec → Str
  | .CASE_NOMINATIVE => str! "им"  -- line 11
  | .CASE_GENITIVE => str! "рд"  -- line 12
  | .CASE_DATIVE => str! "дт"  -- line 13
  | .CASE_ACCUSATIVE => str! "вн"  -- line 14
  | .CASE_INSTRUMENTAL => str! "тв"  -- line 15
  | .CASE_PREPOSITIONAL => str! "пр"  -- line 16
  | .ANIMALITY_ANIMATE => str! "од"  -- line 20
  | .ANIMALITY_INANIMATE => str! "но"  -- line 21
  | .NUMBER_SINGULAR => str! "ед"  -- line 24
  | .NUMBER_PLURAL => str! "мн"  -- line 25
  | .GENDER_MASCULINE => str! "мр"  -- line 28
  | .GENDER_NEUTER => str! "ср"  -- line 29
  | .GENDER_FEMININE => str! "жр"  -- line 30
  | .VERB_FORM_INFINITIVE => str! "инф"  -- line 33
  | .VERB_FORM_INDICATIVE => str! "изъяв"  -- line 34
  | .VERB_FORM_IMPERATIVE => str! "пов"  -- line 36
  | .VOICE_DIRECT => str! "прям"  -- line 39
  | .VOICE_REVERSE => str! "взв"  -- line 40
  | .TIME_PAST => str! "прш"  -- line 43
  | .TIME_PRESENT => str! "нст"  -- line 44
  | .TIME_FUTURE => str! "буд"  -- line 45
  | .PERSON_FIRST => str! "1л"  -- line 48
  | .PERSON_SECOND => str! "2л"  -- line 49
  | .PERSON_THIRD => str! "3л"  -- line 50
  | .ASPECT_IMPERFECTIVE => str! "несов"  -- line 53
  | .ASPECT_PERFECTIVE => str! "сов"  -- line 54
  | .ADJECTIVE_CATEGORY_QUALITY => str! "кач"  -- line 57
  | .ADJECTIVE_CATEGORY_RELATIVE => str! "отн"  -- line 58
  | .ADJECTIVE_CATEGORY_POSSESSIVE => str! "прит"  -- line 59
  | .GRADE_POSITIVE => str! "пол"  -- line 62
  | .GRADE_COMPARATIVE => str! "сравн"  -- line 63
  | .GRADE_SUPERLATIVE => str! "прев"  -- line 64
  | .PRONOUN_CATEGORY_PERSONAL => str! "личн"  -- line 68
  | .PRONOUN_CATEGORY_REFLEXIVE => str! "возвр"  -- line 69
  | .PRONOUN_CATEGORY_POSSESSIVE => str! "притяж"  -- line 70
  | .PRONOUN_CATEGORY_INTERROGATIVE => str! "вопр"  -- line 71
  | .PRONOUN_CATEGORY_RELATIVE => str! "относ"  -- line 72
  | .PRONOUN_CATEGORY_DEMONSTRATIVE => str! "указат"  -- line 73
  | .PRONOUN_CATEGORY_ATTRIBUTIVE => str! "опред"  -- line 74
  | .PRONOUN_CATEGORY_NEGATIVE => str! "отриц"  -- line 75
  | .PRONOUN_CATEGORY_VAGUE => str! "неопр"  -- line 76
  | .PRONOUN_CATEGORY_MUTUAL => str! "взаимн"  -- line 77
  | .INTEGER_FORM_SINGULAR => str! "цо"  -- line 81
  | .INTEGER_FORM_DUAL => str! "цд"  -- line 82
  | .INTEGER_FORM_COMPOSITE_DUAL => str! "цсд"  -- line 83
  | .INTEGER_FORM_PLURAL => str! "цост"  -- line 84
  | .INTEGER_FORM_MIL_BIL => str! "цмм"  -- line 85
  | .NOUN_FORM_NORMAL => str! "нс"  -- line 88
  | .NOUN_FORM_COUNTABLE => str! "счт"  -- line 89
  | .ADJECTIVE_FORM_FULL => str! "полнприл"  -- line 92
  | .ADJECTIVE_FORM_SHORT => str! "крприл"  -- line 93
  | .PARTICIPLE_FORM_FULL => str! "полнприч"  -- line 96
  | .PARTICIPLE_FORM_SHORT => str! "крприч"  -- line 97
  | .WORD_CASE_LOWER => str! "строч"  -- line 101
  | .WORD_CASE_UPPER => str! "загл"  -- line 102
  | .DEPENDENCY_MODE_FULL => str! "пзв"  -- line 105
  | .DEPENDENCY_MODE_SEMANTIC => str! "сзв"  -- line 106
  | .PREPOSITION_FORM_NORMAL => str! "осн"  -- line 110
  | .PREPOSITION_FORM_ALTERNATIVE => str! "алт"  -- line 111
  | .PREPOSITION_FORM_SPECIAL => str! "спц"  -- line 112
  | .WORD_TYPE_NOUN => str! "сущ"  -- line 119
  | .WORD_TYPE_ADJECTIVE => str! "прил"  -- line 120
  | .WORD_TYPE_PRONOUN => str! "мест"  -- line 121
  | .WORD_TYPE_VERB => str! "гл"  -- line 122
  | .WORD_TYPE_PARTICIPLE => str! "прич"  -- line 123
  | .WORD_TYPE_INTEGER => str! "целое"  -- line 124
  | .WORD_TYPE_TEXT => str! "текст"  -- line 125
  | .WORD_TYPE_PREPOSITION => str! "предл"  -- line 126

/-- `PROPERTY_TYPE.records` as relations, in order of declaration (utg/relations.py:132-152). -/
def propertyTypeRecords : List Group :=
  [.CASE, .ANIMALITY, .NUMBER, .GENDER, .VERB_FORM, .TIME, .PERSON, .ASPECT, .ADJECTIVE_CATEGORY, .GRADE, .PRONOUN_CATEGORY, .WORD_CASE, .WORD_TYPE, .INTEGER_FORM, .VOICE, .PREPOSITION_FORM, .ADJECTIVE_FORM, .PARTICIPLE_FORM, .NOUN_FORM, .DEPENDENCY_MODE]

/-- `PROPERTY_TYPE.index_relation[relation].value` (utg/relations.py:132-152). -/
def Group.code : Group → Nat
  | .CASE => 0  -- line 132
  | .ANIMALITY => 1  -- line 133
  | .NUMBER => 2  -- line 134
  | .GENDER => 3  -- line 135
  | .VERB_FORM => 4  -- line 136
  | .TIME => 5  -- line 137
  | .PERSON => 6  -- line 138
  | .ASPECT => 7  -- line 139
  | .ADJECTIVE_CATEGORY => 9  -- line 141
  | .GRADE => 10  -- line 142
  | .PRONOUN_CATEGORY => 11  -- line 143
  | .WORD_CASE => 12  -- line 144
  | .WORD_TYPE => 13  -- line 145
  | .INTEGER_FORM => 14  -- line 146
  | .VOICE => 15  -- line 147
  | .PREPOSITION_FORM => 16  -- line 148
  | .ADJECTIVE_FORM => 17  -- line 149
  | .PARTICIPLE_FORM => 18  -- line 150
  | .NOUN_FORM => 19  -- line 151
  | .DEPENDENCY_MODE => 20  -- line 152

/-- The records of `WORD_TYPE` as a type of their own (utg/relations.py:119-126); `WordType.toRec` embeds them in `Rec`. -/
inductive WordType where
  | NOUN
  | ADJECTIVE
  | PRONOUN
  | VERB
  | PARTICIPLE
  | INTEGER
  | TEXT
  | PREPOSITION
  deriving DecidableEq, Repr

/-- `WORD_TYPE.records` (utg/relations.py:119-126). -/
def WordType.all : List WordType :=
  [.NOUN, .ADJECTIVE, .PRONOUN, .VERB, .PARTICIPLE, .INTEGER, .TEXT, .PREPOSITION]

/-- A word type as a record of the relation `WORD_TYPE`. -/
def WordType.toRec : WordType → Rec
  | .NOUN => .WORD_TYPE_NOUN
  | .ADJECTIVE => .WORD_TYPE_ADJECTIVE
  | .PRONOUN => .WORD_TYPE_PRONOUN
  | .VERB => .WORD_TYPE_VERB
  | .PARTICIPLE => .WORD_TYPE_PARTICIPLE
  | .INTEGER => .WORD_TYPE_INTEGER
  | .TEXT => .WORD_TYPE_TEXT
  | .PREPOSITION => .WORD_TYPE_PREPOSITION

/-- `word_type.value` (utg/relations.py:119-126). -/
def WordType.value (t : WordType) : Nat := t.toRec.value

/-- `word_type.schema`: fifth column of `WORD_TYPE` (utg/relations.py:119-126). -/
def WordType.schema : WordType → List Group
  | .NOUN => [.NOUN_FORM, .NUMBER, .CASE]  -- line 119
  | .ADJECTIVE => [.ADJECTIVE_FORM, .GRADE, .ANIMALITY, .NUMBER, .CASE, .GENDER]  -- line 120
  | .PRONOUN => [.ANIMALITY, .NUMBER, .CASE, .GENDER]  -- line 121
  | .VERB => [.VERB_FORM, .TIME, .NUMBER, .PERSON, .GENDER]  -- line 122
  | .PARTICIPLE => [.PARTICIPLE_FORM, .TIME, .ANIMALITY, .NUMBER, .CASE, .GENDER]  -- line 123
  | .INTEGER => []  -- line 124
  | .TEXT => []  -- line 125
  | .PREPOSITION => [.PREPOSITION_FORM]  -- line 126

/-- `word_type.properties`: sixth column of `WORD_TYPE` (relation, required) (utg/relations.py:119-126). -/
def WordType.properties : WordType → List (Group × Bool)
  | .NOUN => [(.ANIMALITY, true), (.GENDER, true), (.NUMBER, false)]  -- line 119
  | .ADJECTIVE => [(.ADJECTIVE_CATEGORY, true)]  -- line 120
  | .PRONOUN => [(.PRONOUN_CATEGORY, true), (.PERSON, false)]  -- line 121
  | .VERB => [(.ASPECT, true), (.VOICE, true)]  -- line 122
  | .PARTICIPLE => [(.ASPECT, true), (.VOICE, true)]  -- line 123
  | .INTEGER => [(.NUMBER, true), (.INTEGER_FORM, true)]  -- line 124
  | .TEXT => []  -- line 125
  | .PREPOSITION => []  -- line 126

end Utg
