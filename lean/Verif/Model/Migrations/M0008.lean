import Verif.Model.Migrations.Common
/-!
# The key tables of `utg/migrations/m_0008_lower_animiality_nearest_priority.py`

Generated by `tools/gen_migrations.py` from the text of the source (regular expressions only), then read against it.
-/

namespace Utg.M0008
open Py

/-- `OLD_CACHES[WORD_TYPE.NOUN]` (utg/migrations/m_0008_lower_animiality_nearest_priority.py:29-46). -/
def oldNoun : Dict Key Nat :=
  [([some .NOUN_FORM_NORMAL, some .NUMBER_SINGULAR, some .CASE_NOMINATIVE], 0),
   ([some .NOUN_FORM_NORMAL, some .NUMBER_SINGULAR, some .CASE_GENITIVE], 1),
   ([some .NOUN_FORM_NORMAL, some .NUMBER_SINGULAR, some .CASE_DATIVE], 2),
   ([some .NOUN_FORM_NORMAL, some .NUMBER_SINGULAR, some .CASE_ACCUSATIVE], 3),
   ([some .NOUN_FORM_NORMAL, some .NUMBER_SINGULAR, some .CASE_INSTRUMENTAL], 4),
   ([some .NOUN_FORM_NORMAL, some .NUMBER_SINGULAR, some .CASE_PREPOSITIONAL], 5),
   ([some .NOUN_FORM_NORMAL, some .NUMBER_PLURAL, some .CASE_NOMINATIVE], 6),
   ([some .NOUN_FORM_NORMAL, some .NUMBER_PLURAL, some .CASE_GENITIVE], 7),
   ([some .NOUN_FORM_NORMAL, some .NUMBER_PLURAL, some .CASE_DATIVE], 8),
   ([some .NOUN_FORM_NORMAL, some .NUMBER_PLURAL, some .CASE_ACCUSATIVE], 9),
   ([some .NOUN_FORM_NORMAL, some .NUMBER_PLURAL, some .CASE_INSTRUMENTAL], 10),
   ([some .NOUN_FORM_NORMAL, some .NUMBER_PLURAL, some .CASE_PREPOSITIONAL], 11),
   ([some .NOUN_FORM_COUNTABLE, some .NUMBER_PLURAL, some .CASE_NOMINATIVE], 12),
   ([some .NOUN_FORM_COUNTABLE, some .NUMBER_PLURAL, some .CASE_GENITIVE], 13),
   ([some .NOUN_FORM_COUNTABLE, some .NUMBER_PLURAL, some .CASE_DATIVE], 14),
   ([some .NOUN_FORM_COUNTABLE, some .NUMBER_PLURAL, some .CASE_ACCUSATIVE], 15),
   ([some .NOUN_FORM_COUNTABLE, some .NUMBER_PLURAL, some .CASE_INSTRUMENTAL], 16),
   ([some .NOUN_FORM_COUNTABLE, some .NUMBER_PLURAL, some .CASE_PREPOSITIONAL], 17)]

/-- `OLD_CACHES[WORD_TYPE.ADJECTIVE]` (utg/migrations/m_0008_lower_animiality_nearest_priority.py:47-147). -/
def oldAdjective : Dict Key Nat :=
  [([some .ADJECTIVE_FORM_FULL, some .GRADE_POSITIVE, some .ANIMALITY_ANIMATE, some .NUMBER_SINGULAR, some .CASE_NOMINATIVE, some .GENDER_MASCULINE], 0),
   ([some .ADJECTIVE_FORM_FULL, some .GRADE_POSITIVE, some .ANIMALITY_ANIMATE, some .NUMBER_SINGULAR, some .CASE_NOMINATIVE, some .GENDER_NEUTER], 2),
   ([some .ADJECTIVE_FORM_FULL, some .GRADE_POSITIVE, some .ANIMALITY_ANIMATE, some .NUMBER_SINGULAR, some .CASE_NOMINATIVE, some .GENDER_FEMININE], 4),
   ([some .ADJECTIVE_FORM_FULL, some .GRADE_POSITIVE, some .ANIMALITY_ANIMATE, some .NUMBER_SINGULAR, some .CASE_GENITIVE, some .GENDER_MASCULINE], 6),
   ([some .ADJECTIVE_FORM_FULL, some .GRADE_POSITIVE, some .ANIMALITY_ANIMATE, some .NUMBER_SINGULAR, some .CASE_GENITIVE, some .GENDER_NEUTER], 8),
   ([some .ADJECTIVE_FORM_FULL, some .GRADE_POSITIVE, some .ANIMALITY_ANIMATE, some .NUMBER_SINGULAR, some .CASE_GENITIVE, some .GENDER_FEMININE], 10),
   ([some .ADJECTIVE_FORM_FULL, some .GRADE_POSITIVE, some .ANIMALITY_ANIMATE, some .NUMBER_SINGULAR, some .CASE_DATIVE, some .GENDER_MASCULINE], 12),
   ([some .ADJECTIVE_FORM_FULL, some .GRADE_POSITIVE, some .ANIMALITY_ANIMATE, some .NUMBER_SINGULAR, some .CASE_DATIVE, some .GENDER_NEUTER], 14),
   ([some .ADJECTIVE_FORM_FULL, some .GRADE_POSITIVE, some .ANIMALITY_ANIMATE, some .NUMBER_SINGULAR, some .CASE_DATIVE, some .GENDER_FEMININE], 16),
   ([some .ADJECTIVE_FORM_FULL, some .GRADE_POSITIVE, some .ANIMALITY_ANIMATE, some .NUMBER_SINGULAR, some .CASE_ACCUSATIVE, some .GENDER_MASCULINE], 18),
   ([some .ADJECTIVE_FORM_FULL, some .GRADE_POSITIVE, some .ANIMALITY_ANIMATE, some .NUMBER_SINGULAR, some .CASE_ACCUSATIVE, some .GENDER_NEUTER], 20),
   ([some .ADJECTIVE_FORM_FULL, some .GRADE_POSITIVE, some .ANIMALITY_ANIMATE, some .NUMBER_SINGULAR, some .CASE_ACCUSATIVE, some .GENDER_FEMININE], 22),
   ([some .ADJECTIVE_FORM_FULL, some .GRADE_POSITIVE, some .ANIMALITY_ANIMATE, some .NUMBER_SINGULAR, some .CASE_INSTRUMENTAL, some .GENDER_MASCULINE], 24),
   ([some .ADJECTIVE_FORM_FULL, some .GRADE_POSITIVE, some .ANIMALITY_ANIMATE, some .NUMBER_SINGULAR, some .CASE_INSTRUMENTAL, some .GENDER_NEUTER], 26),
   ([some .ADJECTIVE_FORM_FULL, some .GRADE_POSITIVE, some .ANIMALITY_ANIMATE, some .NUMBER_SINGULAR, some .CASE_INSTRUMENTAL, some .GENDER_FEMININE], 28),
   ([some .ADJECTIVE_FORM_FULL, some .GRADE_POSITIVE, some .ANIMALITY_ANIMATE, some .NUMBER_SINGULAR, some .CASE_PREPOSITIONAL, some .GENDER_MASCULINE], 30),
   ([some .ADJECTIVE_FORM_FULL, some .GRADE_POSITIVE, some .ANIMALITY_ANIMATE, some .NUMBER_SINGULAR, some .CASE_PREPOSITIONAL, some .GENDER_NEUTER], 32),
   ([some .ADJECTIVE_FORM_FULL, some .GRADE_POSITIVE, some .ANIMALITY_ANIMATE, some .NUMBER_SINGULAR, some .CASE_PREPOSITIONAL, some .GENDER_FEMININE], 34),
   ([some .ADJECTIVE_FORM_FULL, some .GRADE_POSITIVE, some .ANIMALITY_ANIMATE, some .NUMBER_PLURAL, some .CASE_NOMINATIVE, none], 36),
   ([some .ADJECTIVE_FORM_FULL, some .GRADE_POSITIVE, some .ANIMALITY_ANIMATE, some .NUMBER_PLURAL, some .CASE_GENITIVE, none], 38),
   ([some .ADJECTIVE_FORM_FULL, some .GRADE_POSITIVE, some .ANIMALITY_ANIMATE, some .NUMBER_PLURAL, some .CASE_DATIVE, none], 40),
   ([some .ADJECTIVE_FORM_FULL, some .GRADE_POSITIVE, some .ANIMALITY_ANIMATE, some .NUMBER_PLURAL, some .CASE_ACCUSATIVE, none], 42),
   ([some .ADJECTIVE_FORM_FULL, some .GRADE_POSITIVE, some .ANIMALITY_ANIMATE, some .NUMBER_PLURAL, some .CASE_INSTRUMENTAL, none], 44),
   ([some .ADJECTIVE_FORM_FULL, some .GRADE_POSITIVE, some .ANIMALITY_ANIMATE, some .NUMBER_PLURAL, some .CASE_PREPOSITIONAL, none], 46),
   ([some .ADJECTIVE_FORM_FULL, some .GRADE_POSITIVE, some .ANIMALITY_INANIMATE, some .NUMBER_SINGULAR, some .CASE_NOMINATIVE, some .GENDER_MASCULINE], 1),
   ([some .ADJECTIVE_FORM_FULL, some .GRADE_POSITIVE, some .ANIMALITY_INANIMATE, some .NUMBER_SINGULAR, some .CASE_NOMINATIVE, some .GENDER_NEUTER], 3),
   ([some .ADJECTIVE_FORM_FULL, some .GRADE_POSITIVE, some .ANIMALITY_INANIMATE, some .NUMBER_SINGULAR, some .CASE_NOMINATIVE, some .GENDER_FEMININE], 5),
   ([some .ADJECTIVE_FORM_FULL, some .GRADE_POSITIVE, some .ANIMALITY_INANIMATE, some .NUMBER_SINGULAR, some .CASE_GENITIVE, some .GENDER_MASCULINE], 7),
   ([some .ADJECTIVE_FORM_FULL, some .GRADE_POSITIVE, some .ANIMALITY_INANIMATE, some .NUMBER_SINGULAR, some .CASE_GENITIVE, some .GENDER_NEUTER], 9),
   ([some .ADJECTIVE_FORM_FULL, some .GRADE_POSITIVE, some .ANIMALITY_INANIMATE, some .NUMBER_SINGULAR, some .CASE_GENITIVE, some .GENDER_FEMININE], 11),
   ([some .ADJECTIVE_FORM_FULL, some .GRADE_POSITIVE, some .ANIMALITY_INANIMATE, some .NUMBER_SINGULAR, some .CASE_DATIVE, some .GENDER_MASCULINE], 13),
   ([some .ADJECTIVE_FORM_FULL, some .GRADE_POSITIVE, some .ANIMALITY_INANIMATE, some .NUMBER_SINGULAR, some .CASE_DATIVE, some .GENDER_NEUTER], 15),
   ([some .ADJECTIVE_FORM_FULL, some .GRADE_POSITIVE, some .ANIMALITY_INANIMATE, some .NUMBER_SINGULAR, some .CASE_DATIVE, some .GENDER_FEMININE], 17),
   ([some .ADJECTIVE_FORM_FULL, some .GRADE_POSITIVE, some .ANIMALITY_INANIMATE, some .NUMBER_SINGULAR, some .CASE_ACCUSATIVE, some .GENDER_MASCULINE], 19),
   ([some .ADJECTIVE_FORM_FULL, some .GRADE_POSITIVE, some .ANIMALITY_INANIMATE, some .NUMBER_SINGULAR, some .CASE_ACCUSATIVE, some .GENDER_NEUTER], 21),
   ([some .ADJECTIVE_FORM_FULL, some .GRADE_POSITIVE, some .ANIMALITY_INANIMATE, some .NUMBER_SINGULAR, some .CASE_ACCUSATIVE, some .GENDER_FEMININE], 23),
   ([some .ADJECTIVE_FORM_FULL, some .GRADE_POSITIVE, some .ANIMALITY_INANIMATE, some .NUMBER_SINGULAR, some .CASE_INSTRUMENTAL, some .GENDER_MASCULINE], 25),
   ([some .ADJECTIVE_FORM_FULL, some .GRADE_POSITIVE, some .ANIMALITY_INANIMATE, some .NUMBER_SINGULAR, some .CASE_INSTRUMENTAL, some .GENDER_NEUTER], 27),
   ([some .ADJECTIVE_FORM_FULL, some .GRADE_POSITIVE, some .ANIMALITY_INANIMATE, some .NUMBER_SINGULAR, some .CASE_INSTRUMENTAL, some .GENDER_FEMININE], 29),
   ([some .ADJECTIVE_FORM_FULL, some .GRADE_POSITIVE, some .ANIMALITY_INANIMATE, some .NUMBER_SINGULAR, some .CASE_PREPOSITIONAL, some .GENDER_MASCULINE], 31),
   ([some .ADJECTIVE_FORM_FULL, some .GRADE_POSITIVE, some .ANIMALITY_INANIMATE, some .NUMBER_SINGULAR, some .CASE_PREPOSITIONAL, some .GENDER_NEUTER], 33),
   ([some .ADJECTIVE_FORM_FULL, some .GRADE_POSITIVE, some .ANIMALITY_INANIMATE, some .NUMBER_SINGULAR, some .CASE_PREPOSITIONAL, some .GENDER_FEMININE], 35),
   ([some .ADJECTIVE_FORM_FULL, some .GRADE_POSITIVE, some .ANIMALITY_INANIMATE, some .NUMBER_PLURAL, some .CASE_NOMINATIVE, none], 37),
   ([some .ADJECTIVE_FORM_FULL, some .GRADE_POSITIVE, some .ANIMALITY_INANIMATE, some .NUMBER_PLURAL, some .CASE_GENITIVE, none], 39),
   ([some .ADJECTIVE_FORM_FULL, some .GRADE_POSITIVE, some .ANIMALITY_INANIMATE, some .NUMBER_PLURAL, some .CASE_DATIVE, none], 41),
   ([some .ADJECTIVE_FORM_FULL, some .GRADE_POSITIVE, some .ANIMALITY_INANIMATE, some .NUMBER_PLURAL, some .CASE_ACCUSATIVE, none], 43),
   ([some .ADJECTIVE_FORM_FULL, some .GRADE_POSITIVE, some .ANIMALITY_INANIMATE, some .NUMBER_PLURAL, some .CASE_INSTRUMENTAL, none], 45),
   ([some .ADJECTIVE_FORM_FULL, some .GRADE_POSITIVE, some .ANIMALITY_INANIMATE, some .NUMBER_PLURAL, some .CASE_PREPOSITIONAL, none], 47),
   ([some .ADJECTIVE_FORM_FULL, some .GRADE_COMPARATIVE, none, none, none, none], 48),
   ([some .ADJECTIVE_FORM_FULL, some .GRADE_SUPERLATIVE, some .ANIMALITY_ANIMATE, some .NUMBER_SINGULAR, some .CASE_NOMINATIVE, some .GENDER_MASCULINE], 49),
   ([some .ADJECTIVE_FORM_FULL, some .GRADE_SUPERLATIVE, some .ANIMALITY_ANIMATE, some .NUMBER_SINGULAR, some .CASE_NOMINATIVE, some .GENDER_NEUTER], 51),
   ([some .ADJECTIVE_FORM_FULL, some .GRADE_SUPERLATIVE, some .ANIMALITY_ANIMATE, some .NUMBER_SINGULAR, some .CASE_NOMINATIVE, some .GENDER_FEMININE], 53),
   ([some .ADJECTIVE_FORM_FULL, some .GRADE_SUPERLATIVE, some .ANIMALITY_ANIMATE, some .NUMBER_SINGULAR, some .CASE_GENITIVE, some .GENDER_MASCULINE], 55),
   ([some .ADJECTIVE_FORM_FULL, some .GRADE_SUPERLATIVE, some .ANIMALITY_ANIMATE, some .NUMBER_SINGULAR, some .CASE_GENITIVE, some .GENDER_NEUTER], 57),
   ([some .ADJECTIVE_FORM_FULL, some .GRADE_SUPERLATIVE, some .ANIMALITY_ANIMATE, some .NUMBER_SINGULAR, some .CASE_GENITIVE, some .GENDER_FEMININE], 59),
   ([some .ADJECTIVE_FORM_FULL, some .GRADE_SUPERLATIVE, some .ANIMALITY_ANIMATE, some .NUMBER_SINGULAR, some .CASE_DATIVE, some .GENDER_MASCULINE], 61),
   ([some .ADJECTIVE_FORM_FULL, some .GRADE_SUPERLATIVE, some .ANIMALITY_ANIMATE, some .NUMBER_SINGULAR, some .CASE_DATIVE, some .GENDER_NEUTER], 63),
   ([some .ADJECTIVE_FORM_FULL, some .GRADE_SUPERLATIVE, some .ANIMALITY_ANIMATE, some .NUMBER_SINGULAR, some .CASE_DATIVE, some .GENDER_FEMININE], 65),
   ([some .ADJECTIVE_FORM_FULL, some .GRADE_SUPERLATIVE, some .ANIMALITY_ANIMATE, some .NUMBER_SINGULAR, some .CASE_ACCUSATIVE, some .GENDER_MASCULINE], 67),
   ([some .ADJECTIVE_FORM_FULL, some .GRADE_SUPERLATIVE, some .ANIMALITY_ANIMATE, some .NUMBER_SINGULAR, some .CASE_ACCUSATIVE, some .GENDER_NEUTER], 69),
   ([some .ADJECTIVE_FORM_FULL, some .GRADE_SUPERLATIVE, some .ANIMALITY_ANIMATE, some .NUMBER_SINGULAR, some .CASE_ACCUSATIVE, some .GENDER_FEMININE], 71),
   ([some .ADJECTIVE_FORM_FULL, some .GRADE_SUPERLATIVE, some .ANIMALITY_ANIMATE, some .NUMBER_SINGULAR, some .CASE_INSTRUMENTAL, some .GENDER_MASCULINE], 73),
   ([some .ADJECTIVE_FORM_FULL, some .GRADE_SUPERLATIVE, some .ANIMALITY_ANIMATE, some .NUMBER_SINGULAR, some .CASE_INSTRUMENTAL, some .GENDER_NEUTER], 75),
   ([some .ADJECTIVE_FORM_FULL, some .GRADE_SUPERLATIVE, some .ANIMALITY_ANIMATE, some .NUMBER_SINGULAR, some .CASE_INSTRUMENTAL, some .GENDER_FEMININE], 77),
   ([some .ADJECTIVE_FORM_FULL, some .GRADE_SUPERLATIVE, some .ANIMALITY_ANIMATE, some .NUMBER_SINGULAR, some .CASE_PREPOSITIONAL, some .GENDER_MASCULINE], 79),
   ([some .ADJECTIVE_FORM_FULL, some .GRADE_SUPERLATIVE, some .ANIMALITY_ANIMATE, some .NUMBER_SINGULAR, some .CASE_PREPOSITIONAL, some .GENDER_NEUTER], 81),
   ([some .ADJECTIVE_FORM_FULL, some .GRADE_SUPERLATIVE, some .ANIMALITY_ANIMATE, some .NUMBER_SINGULAR, some .CASE_PREPOSITIONAL, some .GENDER_FEMININE], 83),
   ([some .ADJECTIVE_FORM_FULL, some .GRADE_SUPERLATIVE, some .ANIMALITY_ANIMATE, some .NUMBER_PLURAL, some .CASE_NOMINATIVE, none], 85),
   ([some .ADJECTIVE_FORM_FULL, some .GRADE_SUPERLATIVE, some .ANIMALITY_ANIMATE, some .NUMBER_PLURAL, some .CASE_GENITIVE, none], 87),
   ([some .ADJECTIVE_FORM_FULL, some .GRADE_SUPERLATIVE, some .ANIMALITY_ANIMATE, some .NUMBER_PLURAL, some .CASE_DATIVE, none], 89),
   ([some .ADJECTIVE_FORM_FULL, some .GRADE_SUPERLATIVE, some .ANIMALITY_ANIMATE, some .NUMBER_PLURAL, some .CASE_ACCUSATIVE, none], 91),
   ([some .ADJECTIVE_FORM_FULL, some .GRADE_SUPERLATIVE, some .ANIMALITY_ANIMATE, some .NUMBER_PLURAL, some .CASE_INSTRUMENTAL, none], 93),
   ([some .ADJECTIVE_FORM_FULL, some .GRADE_SUPERLATIVE, some .ANIMALITY_ANIMATE, some .NUMBER_PLURAL, some .CASE_PREPOSITIONAL, none], 95),
   ([some .ADJECTIVE_FORM_FULL, some .GRADE_SUPERLATIVE, some .ANIMALITY_INANIMATE, some .NUMBER_SINGULAR, some .CASE_NOMINATIVE, some .GENDER_MASCULINE], 50),
   ([some .ADJECTIVE_FORM_FULL, some .GRADE_SUPERLATIVE, some .ANIMALITY_INANIMATE, some .NUMBER_SINGULAR, some .CASE_NOMINATIVE, some .GENDER_NEUTER], 52),
   ([some .ADJECTIVE_FORM_FULL, some .GRADE_SUPERLATIVE, some .ANIMALITY_INANIMATE, some .NUMBER_SINGULAR, some .CASE_NOMINATIVE, some .GENDER_FEMININE], 54),
   ([some .ADJECTIVE_FORM_FULL, some .GRADE_SUPERLATIVE, some .ANIMALITY_INANIMATE, some .NUMBER_SINGULAR, some .CASE_GENITIVE, some .GENDER_MASCULINE], 56),
   ([some .ADJECTIVE_FORM_FULL, some .GRADE_SUPERLATIVE, some .ANIMALITY_INANIMATE, some .NUMBER_SINGULAR, some .CASE_GENITIVE, some .GENDER_NEUTER], 58),
   ([some .ADJECTIVE_FORM_FULL, some .GRADE_SUPERLATIVE, some .ANIMALITY_INANIMATE, some .NUMBER_SINGULAR, some .CASE_GENITIVE, some .GENDER_FEMININE], 60),
   ([some .ADJECTIVE_FORM_FULL, some .GRADE_SUPERLATIVE, some .ANIMALITY_INANIMATE, some .NUMBER_SINGULAR, some .CASE_DATIVE, some .GENDER_MASCULINE], 62),
   ([some .ADJECTIVE_FORM_FULL, some .GRADE_SUPERLATIVE, some .ANIMALITY_INANIMATE, some .NUMBER_SINGULAR, some .CASE_DATIVE, some .GENDER_NEUTER], 64),
   ([some .ADJECTIVE_FORM_FULL, some .GRADE_SUPERLATIVE, some .ANIMALITY_INANIMATE, some .NUMBER_SINGULAR, some .CASE_DATIVE, some .GENDER_FEMININE], 66),
   ([some .ADJECTIVE_FORM_FULL, some .GRADE_SUPERLATIVE, some .ANIMALITY_INANIMATE, some .NUMBER_SINGULAR, some .CASE_ACCUSATIVE, some .GENDER_MASCULINE], 68),
   ([some .ADJECTIVE_FORM_FULL, some .GRADE_SUPERLATIVE, some .ANIMALITY_INANIMATE, some .NUMBER_SINGULAR, some .CASE_ACCUSATIVE, some .GENDER_NEUTER], 70),
   ([some .ADJECTIVE_FORM_FULL, some .GRADE_SUPERLATIVE, some .ANIMALITY_INANIMATE, some .NUMBER_SINGULAR, some .CASE_ACCUSATIVE, some .GENDER_FEMININE], 72),
   ([some .ADJECTIVE_FORM_FULL, some .GRADE_SUPERLATIVE, some .ANIMALITY_INANIMATE, some .NUMBER_SINGULAR, some .CASE_INSTRUMENTAL, some .GENDER_MASCULINE], 74),
   ([some .ADJECTIVE_FORM_FULL, some .GRADE_SUPERLATIVE, some .ANIMALITY_INANIMATE, some .NUMBER_SINGULAR, some .CASE_INSTRUMENTAL, some .GENDER_NEUTER], 76),
   ([some .ADJECTIVE_FORM_FULL, some .GRADE_SUPERLATIVE, some .ANIMALITY_INANIMATE, some .NUMBER_SINGULAR, some .CASE_INSTRUMENTAL, some .GENDER_FEMININE], 78),
   ([some .ADJECTIVE_FORM_FULL, some .GRADE_SUPERLATIVE, some .ANIMALITY_INANIMATE, some .NUMBER_SINGULAR, some .CASE_PREPOSITIONAL, some .GENDER_MASCULINE], 80),
   ([some .ADJECTIVE_FORM_FULL, some .GRADE_SUPERLATIVE, some .ANIMALITY_INANIMATE, some .NUMBER_SINGULAR, some .CASE_PREPOSITIONAL, some .GENDER_NEUTER], 82),
   ([some .ADJECTIVE_FORM_FULL, some .GRADE_SUPERLATIVE, some .ANIMALITY_INANIMATE, some .NUMBER_SINGULAR, some .CASE_PREPOSITIONAL, some .GENDER_FEMININE], 84),
   ([some .ADJECTIVE_FORM_FULL, some .GRADE_SUPERLATIVE, some .ANIMALITY_INANIMATE, some .NUMBER_PLURAL, some .CASE_NOMINATIVE, none], 86),
   ([some .ADJECTIVE_FORM_FULL, some .GRADE_SUPERLATIVE, some .ANIMALITY_INANIMATE, some .NUMBER_PLURAL, some .CASE_GENITIVE, none], 88),
   ([some .ADJECTIVE_FORM_FULL, some .GRADE_SUPERLATIVE, some .ANIMALITY_INANIMATE, some .NUMBER_PLURAL, some .CASE_DATIVE, none], 90),
   ([some .ADJECTIVE_FORM_FULL, some .GRADE_SUPERLATIVE, some .ANIMALITY_INANIMATE, some .NUMBER_PLURAL, some .CASE_ACCUSATIVE, none], 92),
   ([some .ADJECTIVE_FORM_FULL, some .GRADE_SUPERLATIVE, some .ANIMALITY_INANIMATE, some .NUMBER_PLURAL, some .CASE_INSTRUMENTAL, none], 94),
   ([some .ADJECTIVE_FORM_FULL, some .GRADE_SUPERLATIVE, some .ANIMALITY_INANIMATE, some .NUMBER_PLURAL, some .CASE_PREPOSITIONAL, none], 96),
   ([some .ADJECTIVE_FORM_SHORT, none, none, some .NUMBER_SINGULAR, none, some .GENDER_MASCULINE], 97),
   ([some .ADJECTIVE_FORM_SHORT, none, none, some .NUMBER_SINGULAR, none, some .GENDER_NEUTER], 98),
   ([some .ADJECTIVE_FORM_SHORT, none, none, some .NUMBER_SINGULAR, none, some .GENDER_FEMININE], 99),
   ([some .ADJECTIVE_FORM_SHORT, none, none, some .NUMBER_PLURAL, none, none], 100)]

/-- `OLD_CACHES[WORD_TYPE.PRONOUN]` (utg/migrations/m_0008_lower_animiality_nearest_priority.py:148-219). -/
def oldPronoun : Dict Key Nat :=
  [([some .NUMBER_SINGULAR, some .CASE_NOMINATIVE, some .PERSON_FIRST, some .GENDER_MASCULINE], 0),
   ([some .NUMBER_SINGULAR, some .CASE_NOMINATIVE, some .PERSON_FIRST, some .GENDER_NEUTER], 1),
   ([some .NUMBER_SINGULAR, some .CASE_NOMINATIVE, some .PERSON_FIRST, some .GENDER_FEMININE], 2),
   ([some .NUMBER_SINGULAR, some .CASE_NOMINATIVE, some .PERSON_SECOND, some .GENDER_MASCULINE], 3),
   ([some .NUMBER_SINGULAR, some .CASE_NOMINATIVE, some .PERSON_SECOND, some .GENDER_NEUTER], 4),
   ([some .NUMBER_SINGULAR, some .CASE_NOMINATIVE, some .PERSON_SECOND, some .GENDER_FEMININE], 5),
   ([some .NUMBER_SINGULAR, some .CASE_NOMINATIVE, some .PERSON_THIRD, some .GENDER_MASCULINE], 6),
   ([some .NUMBER_SINGULAR, some .CASE_NOMINATIVE, some .PERSON_THIRD, some .GENDER_NEUTER], 7),
   ([some .NUMBER_SINGULAR, some .CASE_NOMINATIVE, some .PERSON_THIRD, some .GENDER_FEMININE], 8),
   ([some .NUMBER_SINGULAR, some .CASE_GENITIVE, some .PERSON_FIRST, some .GENDER_MASCULINE], 9),
   ([some .NUMBER_SINGULAR, some .CASE_GENITIVE, some .PERSON_FIRST, some .GENDER_NEUTER], 10),
   ([some .NUMBER_SINGULAR, some .CASE_GENITIVE, some .PERSON_FIRST, some .GENDER_FEMININE], 11),
   ([some .NUMBER_SINGULAR, some .CASE_GENITIVE, some .PERSON_SECOND, some .GENDER_MASCULINE], 12),
   ([some .NUMBER_SINGULAR, some .CASE_GENITIVE, some .PERSON_SECOND, some .GENDER_NEUTER], 13),
   ([some .NUMBER_SINGULAR, some .CASE_GENITIVE, some .PERSON_SECOND, some .GENDER_FEMININE], 14),
   ([some .NUMBER_SINGULAR, some .CASE_GENITIVE, some .PERSON_THIRD, some .GENDER_MASCULINE], 15),
   ([some .NUMBER_SINGULAR, some .CASE_GENITIVE, some .PERSON_THIRD, some .GENDER_NEUTER], 16),
   ([some .NUMBER_SINGULAR, some .CASE_GENITIVE, some .PERSON_THIRD, some .GENDER_FEMININE], 17),
   ([some .NUMBER_SINGULAR, some .CASE_DATIVE, some .PERSON_FIRST, some .GENDER_MASCULINE], 18),
   ([some .NUMBER_SINGULAR, some .CASE_DATIVE, some .PERSON_FIRST, some .GENDER_NEUTER], 19),
   ([some .NUMBER_SINGULAR, some .CASE_DATIVE, some .PERSON_FIRST, some .GENDER_FEMININE], 20),
   ([some .NUMBER_SINGULAR, some .CASE_DATIVE, some .PERSON_SECOND, some .GENDER_MASCULINE], 21),
   ([some .NUMBER_SINGULAR, some .CASE_DATIVE, some .PERSON_SECOND, some .GENDER_NEUTER], 22),
   ([some .NUMBER_SINGULAR, some .CASE_DATIVE, some .PERSON_SECOND, some .GENDER_FEMININE], 23),
   ([some .NUMBER_SINGULAR, some .CASE_DATIVE, some .PERSON_THIRD, some .GENDER_MASCULINE], 24),
   ([some .NUMBER_SINGULAR, some .CASE_DATIVE, some .PERSON_THIRD, some .GENDER_NEUTER], 25),
   ([some .NUMBER_SINGULAR, some .CASE_DATIVE, some .PERSON_THIRD, some .GENDER_FEMININE], 26),
   ([some .NUMBER_SINGULAR, some .CASE_ACCUSATIVE, some .PERSON_FIRST, some .GENDER_MASCULINE], 27),
   ([some .NUMBER_SINGULAR, some .CASE_ACCUSATIVE, some .PERSON_FIRST, some .GENDER_NEUTER], 28),
   ([some .NUMBER_SINGULAR, some .CASE_ACCUSATIVE, some .PERSON_FIRST, some .GENDER_FEMININE], 29),
   ([some .NUMBER_SINGULAR, some .CASE_ACCUSATIVE, some .PERSON_SECOND, some .GENDER_MASCULINE], 30),
   ([some .NUMBER_SINGULAR, some .CASE_ACCUSATIVE, some .PERSON_SECOND, some .GENDER_NEUTER], 31),
   ([some .NUMBER_SINGULAR, some .CASE_ACCUSATIVE, some .PERSON_SECOND, some .GENDER_FEMININE], 32),
   ([some .NUMBER_SINGULAR, some .CASE_ACCUSATIVE, some .PERSON_THIRD, some .GENDER_MASCULINE], 33),
   ([some .NUMBER_SINGULAR, some .CASE_ACCUSATIVE, some .PERSON_THIRD, some .GENDER_NEUTER], 34),
   ([some .NUMBER_SINGULAR, some .CASE_ACCUSATIVE, some .PERSON_THIRD, some .GENDER_FEMININE], 35),
   ([some .NUMBER_SINGULAR, some .CASE_INSTRUMENTAL, some .PERSON_FIRST, some .GENDER_MASCULINE], 36),
   ([some .NUMBER_SINGULAR, some .CASE_INSTRUMENTAL, some .PERSON_FIRST, some .GENDER_NEUTER], 37),
   ([some .NUMBER_SINGULAR, some .CASE_INSTRUMENTAL, some .PERSON_FIRST, some .GENDER_FEMININE], 38),
   ([some .NUMBER_SINGULAR, some .CASE_INSTRUMENTAL, some .PERSON_SECOND, some .GENDER_MASCULINE], 39),
   ([some .NUMBER_SINGULAR, some .CASE_INSTRUMENTAL, some .PERSON_SECOND, some .GENDER_NEUTER], 40),
   ([some .NUMBER_SINGULAR, some .CASE_INSTRUMENTAL, some .PERSON_SECOND, some .GENDER_FEMININE], 41),
   ([some .NUMBER_SINGULAR, some .CASE_INSTRUMENTAL, some .PERSON_THIRD, some .GENDER_MASCULINE], 42),
   ([some .NUMBER_SINGULAR, some .CASE_INSTRUMENTAL, some .PERSON_THIRD, some .GENDER_NEUTER], 43),
   ([some .NUMBER_SINGULAR, some .CASE_INSTRUMENTAL, some .PERSON_THIRD, some .GENDER_FEMININE], 44),
   ([some .NUMBER_SINGULAR, some .CASE_PREPOSITIONAL, some .PERSON_FIRST, some .GENDER_MASCULINE], 45),
   ([some .NUMBER_SINGULAR, some .CASE_PREPOSITIONAL, some .PERSON_FIRST, some .GENDER_NEUTER], 46),
   ([some .NUMBER_SINGULAR, some .CASE_PREPOSITIONAL, some .PERSON_FIRST, some .GENDER_FEMININE], 47),
   ([some .NUMBER_SINGULAR, some .CASE_PREPOSITIONAL, some .PERSON_SECOND, some .GENDER_MASCULINE], 48),
   ([some .NUMBER_SINGULAR, some .CASE_PREPOSITIONAL, some .PERSON_SECOND, some .GENDER_NEUTER], 49),
   ([some .NUMBER_SINGULAR, some .CASE_PREPOSITIONAL, some .PERSON_SECOND, some .GENDER_FEMININE], 50),
   ([some .NUMBER_SINGULAR, some .CASE_PREPOSITIONAL, some .PERSON_THIRD, some .GENDER_MASCULINE], 51),
   ([some .NUMBER_SINGULAR, some .CASE_PREPOSITIONAL, some .PERSON_THIRD, some .GENDER_NEUTER], 52),
   ([some .NUMBER_SINGULAR, some .CASE_PREPOSITIONAL, some .PERSON_THIRD, some .GENDER_FEMININE], 53),
   ([some .NUMBER_PLURAL, some .CASE_NOMINATIVE, some .PERSON_FIRST, none], 54),
   ([some .NUMBER_PLURAL, some .CASE_NOMINATIVE, some .PERSON_SECOND, none], 55),
   ([some .NUMBER_PLURAL, some .CASE_NOMINATIVE, some .PERSON_THIRD, none], 56),
   ([some .NUMBER_PLURAL, some .CASE_GENITIVE, some .PERSON_FIRST, none], 57),
   ([some .NUMBER_PLURAL, some .CASE_GENITIVE, some .PERSON_SECOND, none], 58),
   ([some .NUMBER_PLURAL, some .CASE_GENITIVE, some .PERSON_THIRD, none], 59),
   ([some .NUMBER_PLURAL, some .CASE_DATIVE, some .PERSON_FIRST, none], 60),
   ([some .NUMBER_PLURAL, some .CASE_DATIVE, some .PERSON_SECOND, none], 61),
   ([some .NUMBER_PLURAL, some .CASE_DATIVE, some .PERSON_THIRD, none], 62),
   ([some .NUMBER_PLURAL, some .CASE_ACCUSATIVE, some .PERSON_FIRST, none], 63),
   ([some .NUMBER_PLURAL, some .CASE_ACCUSATIVE, some .PERSON_SECOND, none], 64),
   ([some .NUMBER_PLURAL, some .CASE_ACCUSATIVE, some .PERSON_THIRD, none], 65),
   ([some .NUMBER_PLURAL, some .CASE_INSTRUMENTAL, some .PERSON_FIRST, none], 66),
   ([some .NUMBER_PLURAL, some .CASE_INSTRUMENTAL, some .PERSON_SECOND, none], 67),
   ([some .NUMBER_PLURAL, some .CASE_INSTRUMENTAL, some .PERSON_THIRD, none], 68),
   ([some .NUMBER_PLURAL, some .CASE_PREPOSITIONAL, some .PERSON_FIRST, none], 69),
   ([some .NUMBER_PLURAL, some .CASE_PREPOSITIONAL, some .PERSON_SECOND, none], 70),
   ([some .NUMBER_PLURAL, some .CASE_PREPOSITIONAL, some .PERSON_THIRD, none], 71)]

/-- `OLD_CACHES[WORD_TYPE.VERB]` (utg/migrations/m_0008_lower_animiality_nearest_priority.py:220-239). -/
def oldVerb : Dict Key Nat :=
  [([some .VERB_FORM_INFINITIVE, none, none, none, none], 0),
   ([some .VERB_FORM_INDICATIVE, some .TIME_PAST, some .NUMBER_SINGULAR, none, some .GENDER_MASCULINE], 1),
   ([some .VERB_FORM_INDICATIVE, some .TIME_PAST, some .NUMBER_SINGULAR, none, some .GENDER_NEUTER], 2),
   ([some .VERB_FORM_INDICATIVE, some .TIME_PAST, some .NUMBER_SINGULAR, none, some .GENDER_FEMININE], 3),
   ([some .VERB_FORM_INDICATIVE, some .TIME_PAST, some .NUMBER_PLURAL, none, none], 4),
   ([some .VERB_FORM_INDICATIVE, some .TIME_PRESENT, some .NUMBER_SINGULAR, some .PERSON_FIRST, none], 5),
   ([some .VERB_FORM_INDICATIVE, some .TIME_PRESENT, some .NUMBER_SINGULAR, some .PERSON_SECOND, none], 6),
   ([some .VERB_FORM_INDICATIVE, some .TIME_PRESENT, some .NUMBER_SINGULAR, some .PERSON_THIRD, none], 7),
   ([some .VERB_FORM_INDICATIVE, some .TIME_PRESENT, some .NUMBER_PLURAL, some .PERSON_FIRST, none], 8),
   ([some .VERB_FORM_INDICATIVE, some .TIME_PRESENT, some .NUMBER_PLURAL, some .PERSON_SECOND, none], 9),
   ([some .VERB_FORM_INDICATIVE, some .TIME_PRESENT, some .NUMBER_PLURAL, some .PERSON_THIRD, none], 10),
   ([some .VERB_FORM_INDICATIVE, some .TIME_FUTURE, some .NUMBER_SINGULAR, some .PERSON_FIRST, none], 11),
   ([some .VERB_FORM_INDICATIVE, some .TIME_FUTURE, some .NUMBER_SINGULAR, some .PERSON_SECOND, none], 12),
   ([some .VERB_FORM_INDICATIVE, some .TIME_FUTURE, some .NUMBER_SINGULAR, some .PERSON_THIRD, none], 13),
   ([some .VERB_FORM_INDICATIVE, some .TIME_FUTURE, some .NUMBER_PLURAL, some .PERSON_FIRST, none], 14),
   ([some .VERB_FORM_INDICATIVE, some .TIME_FUTURE, some .NUMBER_PLURAL, some .PERSON_SECOND, none], 15),
   ([some .VERB_FORM_INDICATIVE, some .TIME_FUTURE, some .NUMBER_PLURAL, some .PERSON_THIRD, none], 16),
   ([some .VERB_FORM_IMPERATIVE, none, some .NUMBER_SINGULAR, some .PERSON_SECOND, none], 17),
   ([some .VERB_FORM_IMPERATIVE, none, some .NUMBER_PLURAL, some .PERSON_FIRST, none], 18),
   ([some .VERB_FORM_IMPERATIVE, none, some .NUMBER_PLURAL, some .PERSON_SECOND, none], 19)]

/-- `OLD_CACHES[WORD_TYPE.PARTICIPLE]` (utg/migrations/m_0008_lower_animiality_nearest_priority.py:240-387). -/
def oldParticiple : Dict Key Nat :=
  [([some .PARTICIPLE_FORM_FULL, some .TIME_PAST, some .ANIMALITY_ANIMATE, some .NUMBER_SINGULAR, some .CASE_NOMINATIVE, some .GENDER_MASCULINE], 0),
   ([some .PARTICIPLE_FORM_FULL, some .TIME_PAST, some .ANIMALITY_ANIMATE, some .NUMBER_SINGULAR, some .CASE_NOMINATIVE, some .GENDER_NEUTER], 2),
   ([some .PARTICIPLE_FORM_FULL, some .TIME_PAST, some .ANIMALITY_ANIMATE, some .NUMBER_SINGULAR, some .CASE_NOMINATIVE, some .GENDER_FEMININE], 4),
   ([some .PARTICIPLE_FORM_FULL, some .TIME_PAST, some .ANIMALITY_ANIMATE, some .NUMBER_SINGULAR, some .CASE_GENITIVE, some .GENDER_MASCULINE], 6),
   ([some .PARTICIPLE_FORM_FULL, some .TIME_PAST, some .ANIMALITY_ANIMATE, some .NUMBER_SINGULAR, some .CASE_GENITIVE, some .GENDER_NEUTER], 8),
   ([some .PARTICIPLE_FORM_FULL, some .TIME_PAST, some .ANIMALITY_ANIMATE, some .NUMBER_SINGULAR, some .CASE_GENITIVE, some .GENDER_FEMININE], 10),
   ([some .PARTICIPLE_FORM_FULL, some .TIME_PAST, some .ANIMALITY_ANIMATE, some .NUMBER_SINGULAR, some .CASE_DATIVE, some .GENDER_MASCULINE], 12),
   ([some .PARTICIPLE_FORM_FULL, some .TIME_PAST, some .ANIMALITY_ANIMATE, some .NUMBER_SINGULAR, some .CASE_DATIVE, some .GENDER_NEUTER], 14),
   ([some .PARTICIPLE_FORM_FULL, some .TIME_PAST, some .ANIMALITY_ANIMATE, some .NUMBER_SINGULAR, some .CASE_DATIVE, some .GENDER_FEMININE], 16),
   ([some .PARTICIPLE_FORM_FULL, some .TIME_PAST, some .ANIMALITY_ANIMATE, some .NUMBER_SINGULAR, some .CASE_ACCUSATIVE, some .GENDER_MASCULINE], 18),
   ([some .PARTICIPLE_FORM_FULL, some .TIME_PAST, some .ANIMALITY_ANIMATE, some .NUMBER_SINGULAR, some .CASE_ACCUSATIVE, some .GENDER_NEUTER], 20),
   ([some .PARTICIPLE_FORM_FULL, some .TIME_PAST, some .ANIMALITY_ANIMATE, some .NUMBER_SINGULAR, some .CASE_ACCUSATIVE, some .GENDER_FEMININE], 22),
   ([some .PARTICIPLE_FORM_FULL, some .TIME_PAST, some .ANIMALITY_ANIMATE, some .NUMBER_SINGULAR, some .CASE_INSTRUMENTAL, some .GENDER_MASCULINE], 24),
   ([some .PARTICIPLE_FORM_FULL, some .TIME_PAST, some .ANIMALITY_ANIMATE, some .NUMBER_SINGULAR, some .CASE_INSTRUMENTAL, some .GENDER_NEUTER], 26),
   ([some .PARTICIPLE_FORM_FULL, some .TIME_PAST, some .ANIMALITY_ANIMATE, some .NUMBER_SINGULAR, some .CASE_INSTRUMENTAL, some .GENDER_FEMININE], 28),
   ([some .PARTICIPLE_FORM_FULL, some .TIME_PAST, some .ANIMALITY_ANIMATE, some .NUMBER_SINGULAR, some .CASE_PREPOSITIONAL, some .GENDER_MASCULINE], 30),
   ([some .PARTICIPLE_FORM_FULL, some .TIME_PAST, some .ANIMALITY_ANIMATE, some .NUMBER_SINGULAR, some .CASE_PREPOSITIONAL, some .GENDER_NEUTER], 32),
   ([some .PARTICIPLE_FORM_FULL, some .TIME_PAST, some .ANIMALITY_ANIMATE, some .NUMBER_SINGULAR, some .CASE_PREPOSITIONAL, some .GENDER_FEMININE], 34),
   ([some .PARTICIPLE_FORM_FULL, some .TIME_PAST, some .ANIMALITY_ANIMATE, some .NUMBER_PLURAL, some .CASE_NOMINATIVE, none], 36),
   ([some .PARTICIPLE_FORM_FULL, some .TIME_PAST, some .ANIMALITY_ANIMATE, some .NUMBER_PLURAL, some .CASE_GENITIVE, none], 38),
   ([some .PARTICIPLE_FORM_FULL, some .TIME_PAST, some .ANIMALITY_ANIMATE, some .NUMBER_PLURAL, some .CASE_DATIVE, none], 40),
   ([some .PARTICIPLE_FORM_FULL, some .TIME_PAST, some .ANIMALITY_ANIMATE, some .NUMBER_PLURAL, some .CASE_ACCUSATIVE, none], 42),
   ([some .PARTICIPLE_FORM_FULL, some .TIME_PAST, some .ANIMALITY_ANIMATE, some .NUMBER_PLURAL, some .CASE_INSTRUMENTAL, none], 44),
   ([some .PARTICIPLE_FORM_FULL, some .TIME_PAST, some .ANIMALITY_ANIMATE, some .NUMBER_PLURAL, some .CASE_PREPOSITIONAL, none], 46),
   ([some .PARTICIPLE_FORM_FULL, some .TIME_PAST, some .ANIMALITY_INANIMATE, some .NUMBER_SINGULAR, some .CASE_NOMINATIVE, some .GENDER_MASCULINE], 1),
   ([some .PARTICIPLE_FORM_FULL, some .TIME_PAST, some .ANIMALITY_INANIMATE, some .NUMBER_SINGULAR, some .CASE_NOMINATIVE, some .GENDER_NEUTER], 3),
   ([some .PARTICIPLE_FORM_FULL, some .TIME_PAST, some .ANIMALITY_INANIMATE, some .NUMBER_SINGULAR, some .CASE_NOMINATIVE, some .GENDER_FEMININE], 5),
   ([some .PARTICIPLE_FORM_FULL, some .TIME_PAST, some .ANIMALITY_INANIMATE, some .NUMBER_SINGULAR, some .CASE_GENITIVE, some .GENDER_MASCULINE], 7),
   ([some .PARTICIPLE_FORM_FULL, some .TIME_PAST, some .ANIMALITY_INANIMATE, some .NUMBER_SINGULAR, some .CASE_GENITIVE, some .GENDER_NEUTER], 9),
   ([some .PARTICIPLE_FORM_FULL, some .TIME_PAST, some .ANIMALITY_INANIMATE, some .NUMBER_SINGULAR, some .CASE_GENITIVE, some .GENDER_FEMININE], 11),
   ([some .PARTICIPLE_FORM_FULL, some .TIME_PAST, some .ANIMALITY_INANIMATE, some .NUMBER_SINGULAR, some .CASE_DATIVE, some .GENDER_MASCULINE], 13),
   ([some .PARTICIPLE_FORM_FULL, some .TIME_PAST, some .ANIMALITY_INANIMATE, some .NUMBER_SINGULAR, some .CASE_DATIVE, some .GENDER_NEUTER], 15),
   ([some .PARTICIPLE_FORM_FULL, some .TIME_PAST, some .ANIMALITY_INANIMATE, some .NUMBER_SINGULAR, some .CASE_DATIVE, some .GENDER_FEMININE], 17),
   ([some .PARTICIPLE_FORM_FULL, some .TIME_PAST, some .ANIMALITY_INANIMATE, some .NUMBER_SINGULAR, some .CASE_ACCUSATIVE, some .GENDER_MASCULINE], 19),
   ([some .PARTICIPLE_FORM_FULL, some .TIME_PAST, some .ANIMALITY_INANIMATE, some .NUMBER_SINGULAR, some .CASE_ACCUSATIVE, some .GENDER_NEUTER], 21),
   ([some .PARTICIPLE_FORM_FULL, some .TIME_PAST, some .ANIMALITY_INANIMATE, some .NUMBER_SINGULAR, some .CASE_ACCUSATIVE, some .GENDER_FEMININE], 23),
   ([some .PARTICIPLE_FORM_FULL, some .TIME_PAST, some .ANIMALITY_INANIMATE, some .NUMBER_SINGULAR, some .CASE_INSTRUMENTAL, some .GENDER_MASCULINE], 25),
   ([some .PARTICIPLE_FORM_FULL, some .TIME_PAST, some .ANIMALITY_INANIMATE, some .NUMBER_SINGULAR, some .CASE_INSTRUMENTAL, some .GENDER_NEUTER], 27),
   ([some .PARTICIPLE_FORM_FULL, some .TIME_PAST, some .ANIMALITY_INANIMATE, some .NUMBER_SINGULAR, some .CASE_INSTRUMENTAL, some .GENDER_FEMININE], 29),
   ([some .PARTICIPLE_FORM_FULL, some .TIME_PAST, some .ANIMALITY_INANIMATE, some .NUMBER_SINGULAR, some .CASE_PREPOSITIONAL, some .GENDER_MASCULINE], 31),
   ([some .PARTICIPLE_FORM_FULL, some .TIME_PAST, some .ANIMALITY_INANIMATE, some .NUMBER_SINGULAR, some .CASE_PREPOSITIONAL, some .GENDER_NEUTER], 33),
   ([some .PARTICIPLE_FORM_FULL, some .TIME_PAST, some .ANIMALITY_INANIMATE, some .NUMBER_SINGULAR, some .CASE_PREPOSITIONAL, some .GENDER_FEMININE], 35),
   ([some .PARTICIPLE_FORM_FULL, some .TIME_PAST, some .ANIMALITY_INANIMATE, some .NUMBER_PLURAL, some .CASE_NOMINATIVE, none], 37),
   ([some .PARTICIPLE_FORM_FULL, some .TIME_PAST, some .ANIMALITY_INANIMATE, some .NUMBER_PLURAL, some .CASE_GENITIVE, none], 39),
   ([some .PARTICIPLE_FORM_FULL, some .TIME_PAST, some .ANIMALITY_INANIMATE, some .NUMBER_PLURAL, some .CASE_DATIVE, none], 41),
   ([some .PARTICIPLE_FORM_FULL, some .TIME_PAST, some .ANIMALITY_INANIMATE, some .NUMBER_PLURAL, some .CASE_ACCUSATIVE, none], 43),
   ([some .PARTICIPLE_FORM_FULL, some .TIME_PAST, some .ANIMALITY_INANIMATE, some .NUMBER_PLURAL, some .CASE_INSTRUMENTAL, none], 45),
   ([some .PARTICIPLE_FORM_FULL, some .TIME_PAST, some .ANIMALITY_INANIMATE, some .NUMBER_PLURAL, some .CASE_PREPOSITIONAL, none], 47),
   ([some .PARTICIPLE_FORM_FULL, some .TIME_PRESENT, some .ANIMALITY_ANIMATE, some .NUMBER_SINGULAR, some .CASE_NOMINATIVE, some .GENDER_MASCULINE], 48),
   ([some .PARTICIPLE_FORM_FULL, some .TIME_PRESENT, some .ANIMALITY_ANIMATE, some .NUMBER_SINGULAR, some .CASE_NOMINATIVE, some .GENDER_NEUTER], 50),
   ([some .PARTICIPLE_FORM_FULL, some .TIME_PRESENT, some .ANIMALITY_ANIMATE, some .NUMBER_SINGULAR, some .CASE_NOMINATIVE, some .GENDER_FEMININE], 52),
   ([some .PARTICIPLE_FORM_FULL, some .TIME_PRESENT, some .ANIMALITY_ANIMATE, some .NUMBER_SINGULAR, some .CASE_GENITIVE, some .GENDER_MASCULINE], 54),
   ([some .PARTICIPLE_FORM_FULL, some .TIME_PRESENT, some .ANIMALITY_ANIMATE, some .NUMBER_SINGULAR, some .CASE_GENITIVE, some .GENDER_NEUTER], 56),
   ([some .PARTICIPLE_FORM_FULL, some .TIME_PRESENT, some .ANIMALITY_ANIMATE, some .NUMBER_SINGULAR, some .CASE_GENITIVE, some .GENDER_FEMININE], 58),
   ([some .PARTICIPLE_FORM_FULL, some .TIME_PRESENT, some .ANIMALITY_ANIMATE, some .NUMBER_SINGULAR, some .CASE_DATIVE, some .GENDER_MASCULINE], 60),
   ([some .PARTICIPLE_FORM_FULL, some .TIME_PRESENT, some .ANIMALITY_ANIMATE, some .NUMBER_SINGULAR, some .CASE_DATIVE, some .GENDER_NEUTER], 62),
   ([some .PARTICIPLE_FORM_FULL, some .TIME_PRESENT, some .ANIMALITY_ANIMATE, some .NUMBER_SINGULAR, some .CASE_DATIVE, some .GENDER_FEMININE], 64),
   ([some .PARTICIPLE_FORM_FULL, some .TIME_PRESENT, some .ANIMALITY_ANIMATE, some .NUMBER_SINGULAR, some .CASE_ACCUSATIVE, some .GENDER_MASCULINE], 66),
   ([some .PARTICIPLE_FORM_FULL, some .TIME_PRESENT, some .ANIMALITY_ANIMATE, some .NUMBER_SINGULAR, some .CASE_ACCUSATIVE, some .GENDER_NEUTER], 68),
   ([some .PARTICIPLE_FORM_FULL, some .TIME_PRESENT, some .ANIMALITY_ANIMATE, some .NUMBER_SINGULAR, some .CASE_ACCUSATIVE, some .GENDER_FEMININE], 70),
   ([some .PARTICIPLE_FORM_FULL, some .TIME_PRESENT, some .ANIMALITY_ANIMATE, some .NUMBER_SINGULAR, some .CASE_INSTRUMENTAL, some .GENDER_MASCULINE], 72),
   ([some .PARTICIPLE_FORM_FULL, some .TIME_PRESENT, some .ANIMALITY_ANIMATE, some .NUMBER_SINGULAR, some .CASE_INSTRUMENTAL, some .GENDER_NEUTER], 74),
   ([some .PARTICIPLE_FORM_FULL, some .TIME_PRESENT, some .ANIMALITY_ANIMATE, some .NUMBER_SINGULAR, some .CASE_INSTRUMENTAL, some .GENDER_FEMININE], 76),
   ([some .PARTICIPLE_FORM_FULL, some .TIME_PRESENT, some .ANIMALITY_ANIMATE, some .NUMBER_SINGULAR, some .CASE_PREPOSITIONAL, some .GENDER_MASCULINE], 78),
   ([some .PARTICIPLE_FORM_FULL, some .TIME_PRESENT, some .ANIMALITY_ANIMATE, some .NUMBER_SINGULAR, some .CASE_PREPOSITIONAL, some .GENDER_NEUTER], 80),
   ([some .PARTICIPLE_FORM_FULL, some .TIME_PRESENT, some .ANIMALITY_ANIMATE, some .NUMBER_SINGULAR, some .CASE_PREPOSITIONAL, some .GENDER_FEMININE], 82),
   ([some .PARTICIPLE_FORM_FULL, some .TIME_PRESENT, some .ANIMALITY_ANIMATE, some .NUMBER_PLURAL, some .CASE_NOMINATIVE, none], 84),
   ([some .PARTICIPLE_FORM_FULL, some .TIME_PRESENT, some .ANIMALITY_ANIMATE, some .NUMBER_PLURAL, some .CASE_GENITIVE, none], 86),
   ([some .PARTICIPLE_FORM_FULL, some .TIME_PRESENT, some .ANIMALITY_ANIMATE, some .NUMBER_PLURAL, some .CASE_DATIVE, none], 88),
   ([some .PARTICIPLE_FORM_FULL, some .TIME_PRESENT, some .ANIMALITY_ANIMATE, some .NUMBER_PLURAL, some .CASE_ACCUSATIVE, none], 90),
   ([some .PARTICIPLE_FORM_FULL, some .TIME_PRESENT, some .ANIMALITY_ANIMATE, some .NUMBER_PLURAL, some .CASE_INSTRUMENTAL, none], 92),
   ([some .PARTICIPLE_FORM_FULL, some .TIME_PRESENT, some .ANIMALITY_ANIMATE, some .NUMBER_PLURAL, some .CASE_PREPOSITIONAL, none], 94),
   ([some .PARTICIPLE_FORM_FULL, some .TIME_PRESENT, some .ANIMALITY_INANIMATE, some .NUMBER_SINGULAR, some .CASE_NOMINATIVE, some .GENDER_MASCULINE], 49),
   ([some .PARTICIPLE_FORM_FULL, some .TIME_PRESENT, some .ANIMALITY_INANIMATE, some .NUMBER_SINGULAR, some .CASE_NOMINATIVE, some .GENDER_NEUTER], 51),
   ([some .PARTICIPLE_FORM_FULL, some .TIME_PRESENT, some .ANIMALITY_INANIMATE, some .NUMBER_SINGULAR, some .CASE_NOMINATIVE, some .GENDER_FEMININE], 53),
   ([some .PARTICIPLE_FORM_FULL, some .TIME_PRESENT, some .ANIMALITY_INANIMATE, some .NUMBER_SINGULAR, some .CASE_GENITIVE, some .GENDER_MASCULINE], 55),
   ([some .PARTICIPLE_FORM_FULL, some .TIME_PRESENT, some .ANIMALITY_INANIMATE, some .NUMBER_SINGULAR, some .CASE_GENITIVE, some .GENDER_NEUTER], 57),
   ([some .PARTICIPLE_FORM_FULL, some .TIME_PRESENT, some .ANIMALITY_INANIMATE, some .NUMBER_SINGULAR, some .CASE_GENITIVE, some .GENDER_FEMININE], 59),
   ([some .PARTICIPLE_FORM_FULL, some .TIME_PRESENT, some .ANIMALITY_INANIMATE, some .NUMBER_SINGULAR, some .CASE_DATIVE, some .GENDER_MASCULINE], 61),
   ([some .PARTICIPLE_FORM_FULL, some .TIME_PRESENT, some .ANIMALITY_INANIMATE, some .NUMBER_SINGULAR, some .CASE_DATIVE, some .GENDER_NEUTER], 63),
   ([some .PARTICIPLE_FORM_FULL, some .TIME_PRESENT, some .ANIMALITY_INANIMATE, some .NUMBER_SINGULAR, some .CASE_DATIVE, some .GENDER_FEMININE], 65),
   ([some .PARTICIPLE_FORM_FULL, some .TIME_PRESENT, some .ANIMALITY_INANIMATE, some .NUMBER_SINGULAR, some .CASE_ACCUSATIVE, some .GENDER_MASCULINE], 67),
   ([some .PARTICIPLE_FORM_FULL, some .TIME_PRESENT, some .ANIMALITY_INANIMATE, some .NUMBER_SINGULAR, some .CASE_ACCUSATIVE, some .GENDER_NEUTER], 69),
   ([some .PARTICIPLE_FORM_FULL, some .TIME_PRESENT, some .ANIMALITY_INANIMATE, some .NUMBER_SINGULAR, some .CASE_ACCUSATIVE, some .GENDER_FEMININE], 71),
   ([some .PARTICIPLE_FORM_FULL, some .TIME_PRESENT, some .ANIMALITY_INANIMATE, some .NUMBER_SINGULAR, some .CASE_INSTRUMENTAL, some .GENDER_MASCULINE], 73),
   ([some .PARTICIPLE_FORM_FULL, some .TIME_PRESENT, some .ANIMALITY_INANIMATE, some .NUMBER_SINGULAR, some .CASE_INSTRUMENTAL, some .GENDER_NEUTER], 75),
   ([some .PARTICIPLE_FORM_FULL, some .TIME_PRESENT, some .ANIMALITY_INANIMATE, some .NUMBER_SINGULAR, some .CASE_INSTRUMENTAL, some .GENDER_FEMININE], 77),
   ([some .PARTICIPLE_FORM_FULL, some .TIME_PRESENT, some .ANIMALITY_INANIMATE, some .NUMBER_SINGULAR, some .CASE_PREPOSITIONAL, some .GENDER_MASCULINE], 79),
   ([some .PARTICIPLE_FORM_FULL, some .TIME_PRESENT, some .ANIMALITY_INANIMATE, some .NUMBER_SINGULAR, some .CASE_PREPOSITIONAL, some .GENDER_NEUTER], 81),
   ([some .PARTICIPLE_FORM_FULL, some .TIME_PRESENT, some .ANIMALITY_INANIMATE, some .NUMBER_SINGULAR, some .CASE_PREPOSITIONAL, some .GENDER_FEMININE], 83),
   ([some .PARTICIPLE_FORM_FULL, some .TIME_PRESENT, some .ANIMALITY_INANIMATE, some .NUMBER_PLURAL, some .CASE_NOMINATIVE, none], 85),
   ([some .PARTICIPLE_FORM_FULL, some .TIME_PRESENT, some .ANIMALITY_INANIMATE, some .NUMBER_PLURAL, some .CASE_GENITIVE, none], 87),
   ([some .PARTICIPLE_FORM_FULL, some .TIME_PRESENT, some .ANIMALITY_INANIMATE, some .NUMBER_PLURAL, some .CASE_DATIVE, none], 89),
   ([some .PARTICIPLE_FORM_FULL, some .TIME_PRESENT, some .ANIMALITY_INANIMATE, some .NUMBER_PLURAL, some .CASE_ACCUSATIVE, none], 91),
   ([some .PARTICIPLE_FORM_FULL, some .TIME_PRESENT, some .ANIMALITY_INANIMATE, some .NUMBER_PLURAL, some .CASE_INSTRUMENTAL, none], 93),
   ([some .PARTICIPLE_FORM_FULL, some .TIME_PRESENT, some .ANIMALITY_INANIMATE, some .NUMBER_PLURAL, some .CASE_PREPOSITIONAL, none], 95),
   ([some .PARTICIPLE_FORM_FULL, some .TIME_FUTURE, some .ANIMALITY_ANIMATE, some .NUMBER_SINGULAR, some .CASE_NOMINATIVE, some .GENDER_MASCULINE], 96),
   ([some .PARTICIPLE_FORM_FULL, some .TIME_FUTURE, some .ANIMALITY_ANIMATE, some .NUMBER_SINGULAR, some .CASE_NOMINATIVE, some .GENDER_NEUTER], 98),
   ([some .PARTICIPLE_FORM_FULL, some .TIME_FUTURE, some .ANIMALITY_ANIMATE, some .NUMBER_SINGULAR, some .CASE_NOMINATIVE, some .GENDER_FEMININE], 100),
   ([some .PARTICIPLE_FORM_FULL, some .TIME_FUTURE, some .ANIMALITY_ANIMATE, some .NUMBER_SINGULAR, some .CASE_GENITIVE, some .GENDER_MASCULINE], 102),
   ([some .PARTICIPLE_FORM_FULL, some .TIME_FUTURE, some .ANIMALITY_ANIMATE, some .NUMBER_SINGULAR, some .CASE_GENITIVE, some .GENDER_NEUTER], 104),
   ([some .PARTICIPLE_FORM_FULL, some .TIME_FUTURE, some .ANIMALITY_ANIMATE, some .NUMBER_SINGULAR, some .CASE_GENITIVE, some .GENDER_FEMININE], 106),
   ([some .PARTICIPLE_FORM_FULL, some .TIME_FUTURE, some .ANIMALITY_ANIMATE, some .NUMBER_SINGULAR, some .CASE_DATIVE, some .GENDER_MASCULINE], 108),
   ([some .PARTICIPLE_FORM_FULL, some .TIME_FUTURE, some .ANIMALITY_ANIMATE, some .NUMBER_SINGULAR, some .CASE_DATIVE, some .GENDER_NEUTER], 110),
   ([some .PARTICIPLE_FORM_FULL, some .TIME_FUTURE, some .ANIMALITY_ANIMATE, some .NUMBER_SINGULAR, some .CASE_DATIVE, some .GENDER_FEMININE], 112),
   ([some .PARTICIPLE_FORM_FULL, some .TIME_FUTURE, some .ANIMALITY_ANIMATE, some .NUMBER_SINGULAR, some .CASE_ACCUSATIVE, some .GENDER_MASCULINE], 114),
   ([some .PARTICIPLE_FORM_FULL, some .TIME_FUTURE, some .ANIMALITY_ANIMATE, some .NUMBER_SINGULAR, some .CASE_ACCUSATIVE, some .GENDER_NEUTER], 116),
   ([some .PARTICIPLE_FORM_FULL, some .TIME_FUTURE, some .ANIMALITY_ANIMATE, some .NUMBER_SINGULAR, some .CASE_ACCUSATIVE, some .GENDER_FEMININE], 118),
   ([some .PARTICIPLE_FORM_FULL, some .TIME_FUTURE, some .ANIMALITY_ANIMATE, some .NUMBER_SINGULAR, some .CASE_INSTRUMENTAL, some .GENDER_MASCULINE], 120),
   ([some .PARTICIPLE_FORM_FULL, some .TIME_FUTURE, some .ANIMALITY_ANIMATE, some .NUMBER_SINGULAR, some .CASE_INSTRUMENTAL, some .GENDER_NEUTER], 122),
   ([some .PARTICIPLE_FORM_FULL, some .TIME_FUTURE, some .ANIMALITY_ANIMATE, some .NUMBER_SINGULAR, some .CASE_INSTRUMENTAL, some .GENDER_FEMININE], 124),
   ([some .PARTICIPLE_FORM_FULL, some .TIME_FUTURE, some .ANIMALITY_ANIMATE, some .NUMBER_SINGULAR, some .CASE_PREPOSITIONAL, some .GENDER_MASCULINE], 126),
   ([some .PARTICIPLE_FORM_FULL, some .TIME_FUTURE, some .ANIMALITY_ANIMATE, some .NUMBER_SINGULAR, some .CASE_PREPOSITIONAL, some .GENDER_NEUTER], 128),
   ([some .PARTICIPLE_FORM_FULL, some .TIME_FUTURE, some .ANIMALITY_ANIMATE, some .NUMBER_SINGULAR, some .CASE_PREPOSITIONAL, some .GENDER_FEMININE], 130),
   ([some .PARTICIPLE_FORM_FULL, some .TIME_FUTURE, some .ANIMALITY_ANIMATE, some .NUMBER_PLURAL, some .CASE_NOMINATIVE, none], 132),
   ([some .PARTICIPLE_FORM_FULL, some .TIME_FUTURE, some .ANIMALITY_ANIMATE, some .NUMBER_PLURAL, some .CASE_GENITIVE, none], 134),
   ([some .PARTICIPLE_FORM_FULL, some .TIME_FUTURE, some .ANIMALITY_ANIMATE, some .NUMBER_PLURAL, some .CASE_DATIVE, none], 136),
   ([some .PARTICIPLE_FORM_FULL, some .TIME_FUTURE, some .ANIMALITY_ANIMATE, some .NUMBER_PLURAL, some .CASE_ACCUSATIVE, none], 138),
   ([some .PARTICIPLE_FORM_FULL, some .TIME_FUTURE, some .ANIMALITY_ANIMATE, some .NUMBER_PLURAL, some .CASE_INSTRUMENTAL, none], 140),
   ([some .PARTICIPLE_FORM_FULL, some .TIME_FUTURE, some .ANIMALITY_ANIMATE, some .NUMBER_PLURAL, some .CASE_PREPOSITIONAL, none], 142),
   ([some .PARTICIPLE_FORM_FULL, some .TIME_FUTURE, some .ANIMALITY_INANIMATE, some .NUMBER_SINGULAR, some .CASE_NOMINATIVE, some .GENDER_MASCULINE], 97),
   ([some .PARTICIPLE_FORM_FULL, some .TIME_FUTURE, some .ANIMALITY_INANIMATE, some .NUMBER_SINGULAR, some .CASE_NOMINATIVE, some .GENDER_NEUTER], 99),
   ([some .PARTICIPLE_FORM_FULL, some .TIME_FUTURE, some .ANIMALITY_INANIMATE, some .NUMBER_SINGULAR, some .CASE_NOMINATIVE, some .GENDER_FEMININE], 101),
   ([some .PARTICIPLE_FORM_FULL, some .TIME_FUTURE, some .ANIMALITY_INANIMATE, some .NUMBER_SINGULAR, some .CASE_GENITIVE, some .GENDER_MASCULINE], 103),
   ([some .PARTICIPLE_FORM_FULL, some .TIME_FUTURE, some .ANIMALITY_INANIMATE, some .NUMBER_SINGULAR, some .CASE_GENITIVE, some .GENDER_NEUTER], 105),
   ([some .PARTICIPLE_FORM_FULL, some .TIME_FUTURE, some .ANIMALITY_INANIMATE, some .NUMBER_SINGULAR, some .CASE_GENITIVE, some .GENDER_FEMININE], 107),
   ([some .PARTICIPLE_FORM_FULL, some .TIME_FUTURE, some .ANIMALITY_INANIMATE, some .NUMBER_SINGULAR, some .CASE_DATIVE, some .GENDER_MASCULINE], 109),
   ([some .PARTICIPLE_FORM_FULL, some .TIME_FUTURE, some .ANIMALITY_INANIMATE, some .NUMBER_SINGULAR, some .CASE_DATIVE, some .GENDER_NEUTER], 111),
   ([some .PARTICIPLE_FORM_FULL, some .TIME_FUTURE, some .ANIMALITY_INANIMATE, some .NUMBER_SINGULAR, some .CASE_DATIVE, some .GENDER_FEMININE], 113),
   ([some .PARTICIPLE_FORM_FULL, some .TIME_FUTURE, some .ANIMALITY_INANIMATE, some .NUMBER_SINGULAR, some .CASE_ACCUSATIVE, some .GENDER_MASCULINE], 115),
   ([some .PARTICIPLE_FORM_FULL, some .TIME_FUTURE, some .ANIMALITY_INANIMATE, some .NUMBER_SINGULAR, some .CASE_ACCUSATIVE, some .GENDER_NEUTER], 117),
   ([some .PARTICIPLE_FORM_FULL, some .TIME_FUTURE, some .ANIMALITY_INANIMATE, some .NUMBER_SINGULAR, some .CASE_ACCUSATIVE, some .GENDER_FEMININE], 119),
   ([some .PARTICIPLE_FORM_FULL, some .TIME_FUTURE, some .ANIMALITY_INANIMATE, some .NUMBER_SINGULAR, some .CASE_INSTRUMENTAL, some .GENDER_MASCULINE], 121),
   ([some .PARTICIPLE_FORM_FULL, some .TIME_FUTURE, some .ANIMALITY_INANIMATE, some .NUMBER_SINGULAR, some .CASE_INSTRUMENTAL, some .GENDER_NEUTER], 123),
   ([some .PARTICIPLE_FORM_FULL, some .TIME_FUTURE, some .ANIMALITY_INANIMATE, some .NUMBER_SINGULAR, some .CASE_INSTRUMENTAL, some .GENDER_FEMININE], 125),
   ([some .PARTICIPLE_FORM_FULL, some .TIME_FUTURE, some .ANIMALITY_INANIMATE, some .NUMBER_SINGULAR, some .CASE_PREPOSITIONAL, some .GENDER_MASCULINE], 127),
   ([some .PARTICIPLE_FORM_FULL, some .TIME_FUTURE, some .ANIMALITY_INANIMATE, some .NUMBER_SINGULAR, some .CASE_PREPOSITIONAL, some .GENDER_NEUTER], 129),
   ([some .PARTICIPLE_FORM_FULL, some .TIME_FUTURE, some .ANIMALITY_INANIMATE, some .NUMBER_SINGULAR, some .CASE_PREPOSITIONAL, some .GENDER_FEMININE], 131),
   ([some .PARTICIPLE_FORM_FULL, some .TIME_FUTURE, some .ANIMALITY_INANIMATE, some .NUMBER_PLURAL, some .CASE_NOMINATIVE, none], 133),
   ([some .PARTICIPLE_FORM_FULL, some .TIME_FUTURE, some .ANIMALITY_INANIMATE, some .NUMBER_PLURAL, some .CASE_GENITIVE, none], 135),
   ([some .PARTICIPLE_FORM_FULL, some .TIME_FUTURE, some .ANIMALITY_INANIMATE, some .NUMBER_PLURAL, some .CASE_DATIVE, none], 137),
   ([some .PARTICIPLE_FORM_FULL, some .TIME_FUTURE, some .ANIMALITY_INANIMATE, some .NUMBER_PLURAL, some .CASE_ACCUSATIVE, none], 139),
   ([some .PARTICIPLE_FORM_FULL, some .TIME_FUTURE, some .ANIMALITY_INANIMATE, some .NUMBER_PLURAL, some .CASE_INSTRUMENTAL, none], 141),
   ([some .PARTICIPLE_FORM_FULL, some .TIME_FUTURE, some .ANIMALITY_INANIMATE, some .NUMBER_PLURAL, some .CASE_PREPOSITIONAL, none], 143),
   ([some .PARTICIPLE_FORM_SHORT, none, none, some .NUMBER_SINGULAR, none, some .GENDER_MASCULINE], 144),
   ([some .PARTICIPLE_FORM_SHORT, none, none, some .NUMBER_SINGULAR, none, some .GENDER_NEUTER], 145),
   ([some .PARTICIPLE_FORM_SHORT, none, none, some .NUMBER_SINGULAR, none, some .GENDER_FEMININE], 146),
   ([some .PARTICIPLE_FORM_SHORT, none, none, some .NUMBER_PLURAL, none, none], 147)]

/-- `OLD_CACHES[WORD_TYPE.INTEGER]` (utg/migrations/m_0008_lower_animiality_nearest_priority.py:388-388). -/
def oldInteger : Dict Key Nat :=
  [([], 0)]

/-- `OLD_CACHES[WORD_TYPE.TEXT]` (utg/migrations/m_0008_lower_animiality_nearest_priority.py:389-389). -/
def oldText : Dict Key Nat :=
  [([], 0)]

/-- `OLD_CACHES[WORD_TYPE.PREPOSITION]` (utg/migrations/m_0008_lower_animiality_nearest_priority.py:390-392). -/
def oldPreposition : Dict Key Nat :=
  [([some .PREPOSITION_FORM_NORMAL], 0),
   ([some .PREPOSITION_FORM_ALTERNATIVE], 1),
   ([some .PREPOSITION_FORM_SPECIAL], 2)]

/-- `OLD_CACHES` (utg/migrations/m_0008_lower_animiality_nearest_priority.py). -/
def oldCaches : WordType → Dict Key Nat
  | .NOUN => oldNoun
  | .ADJECTIVE => oldAdjective
  | .PRONOUN => oldPronoun
  | .VERB => oldVerb
  | .PARTICIPLE => oldParticiple
  | .INTEGER => oldInteger
  | .TEXT => oldText
  | .PREPOSITION => oldPreposition

/-- `NEW_CACHES[WORD_TYPE.NOUN]` (utg/migrations/m_0008_lower_animiality_nearest_priority.py:395-412). -/
def newNoun : Dict Key Nat :=
  [([some .NOUN_FORM_NORMAL, some .NUMBER_SINGULAR, some .CASE_NOMINATIVE], 0),
   ([some .NOUN_FORM_NORMAL, some .NUMBER_SINGULAR, some .CASE_GENITIVE], 1),
   ([some .NOUN_FORM_NORMAL, some .NUMBER_SINGULAR, some .CASE_DATIVE], 2),
   ([some .NOUN_FORM_NORMAL, some .NUMBER_SINGULAR, some .CASE_ACCUSATIVE], 3),
   ([some .NOUN_FORM_NORMAL, some .NUMBER_SINGULAR, some .CASE_INSTRUMENTAL], 4),
   ([some .NOUN_FORM_NORMAL, some .NUMBER_SINGULAR, some .CASE_PREPOSITIONAL], 5),
   ([some .NOUN_FORM_NORMAL, some .NUMBER_PLURAL, some .CASE_NOMINATIVE], 6),
   ([some .NOUN_FORM_NORMAL, some .NUMBER_PLURAL, some .CASE_GENITIVE], 7),
   ([some .NOUN_FORM_NORMAL, some .NUMBER_PLURAL, some .CASE_DATIVE], 8),
   ([some .NOUN_FORM_NORMAL, some .NUMBER_PLURAL, some .CASE_ACCUSATIVE], 9),
   ([some .NOUN_FORM_NORMAL, some .NUMBER_PLURAL, some .CASE_INSTRUMENTAL], 10),
   ([some .NOUN_FORM_NORMAL, some .NUMBER_PLURAL, some .CASE_PREPOSITIONAL], 11),
   ([some .NOUN_FORM_COUNTABLE, some .NUMBER_PLURAL, some .CASE_NOMINATIVE], 12),
   ([some .NOUN_FORM_COUNTABLE, some .NUMBER_PLURAL, some .CASE_GENITIVE], 13),
   ([some .NOUN_FORM_COUNTABLE, some .NUMBER_PLURAL, some .CASE_DATIVE], 14),
   ([some .NOUN_FORM_COUNTABLE, some .NUMBER_PLURAL, some .CASE_ACCUSATIVE], 15),
   ([some .NOUN_FORM_COUNTABLE, some .NUMBER_PLURAL, some .CASE_INSTRUMENTAL], 16),
   ([some .NOUN_FORM_COUNTABLE, some .NUMBER_PLURAL, some .CASE_PREPOSITIONAL], 17)]

/-- `NEW_CACHES[WORD_TYPE.ADJECTIVE]` (utg/migrations/m_0008_lower_animiality_nearest_priority.py:413-513). -/
def newAdjective : Dict Key Nat :=
  [([some .ADJECTIVE_FORM_FULL, some .GRADE_POSITIVE, some .ANIMALITY_ANIMATE, some .NUMBER_SINGULAR, some .CASE_NOMINATIVE, some .GENDER_MASCULINE], 0),
   ([some .ADJECTIVE_FORM_FULL, some .GRADE_POSITIVE, some .ANIMALITY_ANIMATE, some .NUMBER_SINGULAR, some .CASE_NOMINATIVE, some .GENDER_NEUTER], 1),
   ([some .ADJECTIVE_FORM_FULL, some .GRADE_POSITIVE, some .ANIMALITY_ANIMATE, some .NUMBER_SINGULAR, some .CASE_NOMINATIVE, some .GENDER_FEMININE], 2),
   ([some .ADJECTIVE_FORM_FULL, some .GRADE_POSITIVE, some .ANIMALITY_ANIMATE, some .NUMBER_SINGULAR, some .CASE_GENITIVE, some .GENDER_MASCULINE], 3),
   ([some .ADJECTIVE_FORM_FULL, some .GRADE_POSITIVE, some .ANIMALITY_ANIMATE, some .NUMBER_SINGULAR, some .CASE_GENITIVE, some .GENDER_NEUTER], 4),
   ([some .ADJECTIVE_FORM_FULL, some .GRADE_POSITIVE, some .ANIMALITY_ANIMATE, some .NUMBER_SINGULAR, some .CASE_GENITIVE, some .GENDER_FEMININE], 5),
   ([some .ADJECTIVE_FORM_FULL, some .GRADE_POSITIVE, some .ANIMALITY_ANIMATE, some .NUMBER_SINGULAR, some .CASE_DATIVE, some .GENDER_MASCULINE], 6),
   ([some .ADJECTIVE_FORM_FULL, some .GRADE_POSITIVE, some .ANIMALITY_ANIMATE, some .NUMBER_SINGULAR, some .CASE_DATIVE, some .GENDER_NEUTER], 7),
   ([some .ADJECTIVE_FORM_FULL, some .GRADE_POSITIVE, some .ANIMALITY_ANIMATE, some .NUMBER_SINGULAR, some .CASE_DATIVE, some .GENDER_FEMININE], 8),
   ([some .ADJECTIVE_FORM_FULL, some .GRADE_POSITIVE, some .ANIMALITY_ANIMATE, some .NUMBER_SINGULAR, some .CASE_ACCUSATIVE, some .GENDER_MASCULINE], 9),
   ([some .ADJECTIVE_FORM_FULL, some .GRADE_POSITIVE, some .ANIMALITY_ANIMATE, some .NUMBER_SINGULAR, some .CASE_ACCUSATIVE, some .GENDER_NEUTER], 10),
   ([some .ADJECTIVE_FORM_FULL, some .GRADE_POSITIVE, some .ANIMALITY_ANIMATE, some .NUMBER_SINGULAR, some .CASE_ACCUSATIVE, some .GENDER_FEMININE], 11),
   ([some .ADJECTIVE_FORM_FULL, some .GRADE_POSITIVE, some .ANIMALITY_ANIMATE, some .NUMBER_SINGULAR, some .CASE_INSTRUMENTAL, some .GENDER_MASCULINE], 12),
   ([some .ADJECTIVE_FORM_FULL, some .GRADE_POSITIVE, some .ANIMALITY_ANIMATE, some .NUMBER_SINGULAR, some .CASE_INSTRUMENTAL, some .GENDER_NEUTER], 13),
   ([some .ADJECTIVE_FORM_FULL, some .GRADE_POSITIVE, some .ANIMALITY_ANIMATE, some .NUMBER_SINGULAR, some .CASE_INSTRUMENTAL, some .GENDER_FEMININE], 14),
   ([some .ADJECTIVE_FORM_FULL, some .GRADE_POSITIVE, some .ANIMALITY_ANIMATE, some .NUMBER_SINGULAR, some .CASE_PREPOSITIONAL, some .GENDER_MASCULINE], 15),
   ([some .ADJECTIVE_FORM_FULL, some .GRADE_POSITIVE, some .ANIMALITY_ANIMATE, some .NUMBER_SINGULAR, some .CASE_PREPOSITIONAL, some .GENDER_NEUTER], 16),
   ([some .ADJECTIVE_FORM_FULL, some .GRADE_POSITIVE, some .ANIMALITY_ANIMATE, some .NUMBER_SINGULAR, some .CASE_PREPOSITIONAL, some .GENDER_FEMININE], 17),
   ([some .ADJECTIVE_FORM_FULL, some .GRADE_POSITIVE, some .ANIMALITY_ANIMATE, some .NUMBER_PLURAL, some .CASE_NOMINATIVE, none], 18),
   ([some .ADJECTIVE_FORM_FULL, some .GRADE_POSITIVE, some .ANIMALITY_ANIMATE, some .NUMBER_PLURAL, some .CASE_GENITIVE, none], 19),
   ([some .ADJECTIVE_FORM_FULL, some .GRADE_POSITIVE, some .ANIMALITY_ANIMATE, some .NUMBER_PLURAL, some .CASE_DATIVE, none], 20),
   ([some .ADJECTIVE_FORM_FULL, some .GRADE_POSITIVE, some .ANIMALITY_ANIMATE, some .NUMBER_PLURAL, some .CASE_ACCUSATIVE, none], 21),
   ([some .ADJECTIVE_FORM_FULL, some .GRADE_POSITIVE, some .ANIMALITY_ANIMATE, some .NUMBER_PLURAL, some .CASE_INSTRUMENTAL, none], 22),
   ([some .ADJECTIVE_FORM_FULL, some .GRADE_POSITIVE, some .ANIMALITY_ANIMATE, some .NUMBER_PLURAL, some .CASE_PREPOSITIONAL, none], 23),
   ([some .ADJECTIVE_FORM_FULL, some .GRADE_POSITIVE, some .ANIMALITY_INANIMATE, some .NUMBER_SINGULAR, some .CASE_NOMINATIVE, some .GENDER_MASCULINE], 24),
   ([some .ADJECTIVE_FORM_FULL, some .GRADE_POSITIVE, some .ANIMALITY_INANIMATE, some .NUMBER_SINGULAR, some .CASE_NOMINATIVE, some .GENDER_NEUTER], 25),
   ([some .ADJECTIVE_FORM_FULL, some .GRADE_POSITIVE, some .ANIMALITY_INANIMATE, some .NUMBER_SINGULAR, some .CASE_NOMINATIVE, some .GENDER_FEMININE], 26),
   ([some .ADJECTIVE_FORM_FULL, some .GRADE_POSITIVE, some .ANIMALITY_INANIMATE, some .NUMBER_SINGULAR, some .CASE_GENITIVE, some .GENDER_MASCULINE], 27),
   ([some .ADJECTIVE_FORM_FULL, some .GRADE_POSITIVE, some .ANIMALITY_INANIMATE, some .NUMBER_SINGULAR, some .CASE_GENITIVE, some .GENDER_NEUTER], 28),
   ([some .ADJECTIVE_FORM_FULL, some .GRADE_POSITIVE, some .ANIMALITY_INANIMATE, some .NUMBER_SINGULAR, some .CASE_GENITIVE, some .GENDER_FEMININE], 29),
   ([some .ADJECTIVE_FORM_FULL, some .GRADE_POSITIVE, some .ANIMALITY_INANIMATE, some .NUMBER_SINGULAR, some .CASE_DATIVE, some .GENDER_MASCULINE], 30),
   ([some .ADJECTIVE_FORM_FULL, some .GRADE_POSITIVE, some .ANIMALITY_INANIMATE, some .NUMBER_SINGULAR, some .CASE_DATIVE, some .GENDER_NEUTER], 31),
   ([some .ADJECTIVE_FORM_FULL, some .GRADE_POSITIVE, some .ANIMALITY_INANIMATE, some .NUMBER_SINGULAR, some .CASE_DATIVE, some .GENDER_FEMININE], 32),
   ([some .ADJECTIVE_FORM_FULL, some .GRADE_POSITIVE, some .ANIMALITY_INANIMATE, some .NUMBER_SINGULAR, some .CASE_ACCUSATIVE, some .GENDER_MASCULINE], 33),
   ([some .ADJECTIVE_FORM_FULL, some .GRADE_POSITIVE, some .ANIMALITY_INANIMATE, some .NUMBER_SINGULAR, some .CASE_ACCUSATIVE, some .GENDER_NEUTER], 34),
   ([some .ADJECTIVE_FORM_FULL, some .GRADE_POSITIVE, some .ANIMALITY_INANIMATE, some .NUMBER_SINGULAR, some .CASE_ACCUSATIVE, some .GENDER_FEMININE], 35),
   ([some .ADJECTIVE_FORM_FULL, some .GRADE_POSITIVE, some .ANIMALITY_INANIMATE, some .NUMBER_SINGULAR, some .CASE_INSTRUMENTAL, some .GENDER_MASCULINE], 36),
   ([some .ADJECTIVE_FORM_FULL, some .GRADE_POSITIVE, some .ANIMALITY_INANIMATE, some .NUMBER_SINGULAR, some .CASE_INSTRUMENTAL, some .GENDER_NEUTER], 37),
   ([some .ADJECTIVE_FORM_FULL, some .GRADE_POSITIVE, some .ANIMALITY_INANIMATE, some .NUMBER_SINGULAR, some .CASE_INSTRUMENTAL, some .GENDER_FEMININE], 38),
   ([some .ADJECTIVE_FORM_FULL, some .GRADE_POSITIVE, some .ANIMALITY_INANIMATE, some .NUMBER_SINGULAR, some .CASE_PREPOSITIONAL, some .GENDER_MASCULINE], 39),
   ([some .ADJECTIVE_FORM_FULL, some .GRADE_POSITIVE, some .ANIMALITY_INANIMATE, some .NUMBER_SINGULAR, some .CASE_PREPOSITIONAL, some .GENDER_NEUTER], 40),
   ([some .ADJECTIVE_FORM_FULL, some .GRADE_POSITIVE, some .ANIMALITY_INANIMATE, some .NUMBER_SINGULAR, some .CASE_PREPOSITIONAL, some .GENDER_FEMININE], 41),
   ([some .ADJECTIVE_FORM_FULL, some .GRADE_POSITIVE, some .ANIMALITY_INANIMATE, some .NUMBER_PLURAL, some .CASE_NOMINATIVE, none], 42),
   ([some .ADJECTIVE_FORM_FULL, some .GRADE_POSITIVE, some .ANIMALITY_INANIMATE, some .NUMBER_PLURAL, some .CASE_GENITIVE, none], 43),
   ([some .ADJECTIVE_FORM_FULL, some .GRADE_POSITIVE, some .ANIMALITY_INANIMATE, some .NUMBER_PLURAL, some .CASE_DATIVE, none], 44),
   ([some .ADJECTIVE_FORM_FULL, some .GRADE_POSITIVE, some .ANIMALITY_INANIMATE, some .NUMBER_PLURAL, some .CASE_ACCUSATIVE, none], 45),
   ([some .ADJECTIVE_FORM_FULL, some .GRADE_POSITIVE, some .ANIMALITY_INANIMATE, some .NUMBER_PLURAL, some .CASE_INSTRUMENTAL, none], 46),
   ([some .ADJECTIVE_FORM_FULL, some .GRADE_POSITIVE, some .ANIMALITY_INANIMATE, some .NUMBER_PLURAL, some .CASE_PREPOSITIONAL, none], 47),
   ([some .ADJECTIVE_FORM_FULL, some .GRADE_COMPARATIVE, none, none, none, none], 48),
   ([some .ADJECTIVE_FORM_FULL, some .GRADE_SUPERLATIVE, some .ANIMALITY_ANIMATE, some .NUMBER_SINGULAR, some .CASE_NOMINATIVE, some .GENDER_MASCULINE], 49),
   ([some .ADJECTIVE_FORM_FULL, some .GRADE_SUPERLATIVE, some .ANIMALITY_ANIMATE, some .NUMBER_SINGULAR, some .CASE_NOMINATIVE, some .GENDER_NEUTER], 50),
   ([some .ADJECTIVE_FORM_FULL, some .GRADE_SUPERLATIVE, some .ANIMALITY_ANIMATE, some .NUMBER_SINGULAR, some .CASE_NOMINATIVE, some .GENDER_FEMININE], 51),
   ([some .ADJECTIVE_FORM_FULL, some .GRADE_SUPERLATIVE, some .ANIMALITY_ANIMATE, some .NUMBER_SINGULAR, some .CASE_GENITIVE, some .GENDER_MASCULINE], 52),
   ([some .ADJECTIVE_FORM_FULL, some .GRADE_SUPERLATIVE, some .ANIMALITY_ANIMATE, some .NUMBER_SINGULAR, some .CASE_GENITIVE, some .GENDER_NEUTER], 53),
   ([some .ADJECTIVE_FORM_FULL, some .GRADE_SUPERLATIVE, some .ANIMALITY_ANIMATE, some .NUMBER_SINGULAR, some .CASE_GENITIVE, some .GENDER_FEMININE], 54),
   ([some .ADJECTIVE_FORM_FULL, some .GRADE_SUPERLATIVE, some .ANIMALITY_ANIMATE, some .NUMBER_SINGULAR, some .CASE_DATIVE, some .GENDER_MASCULINE], 55),
   ([some .ADJECTIVE_FORM_FULL, some .GRADE_SUPERLATIVE, some .ANIMALITY_ANIMATE, some .NUMBER_SINGULAR, some .CASE_DATIVE, some .GENDER_NEUTER], 56),
   ([some .ADJECTIVE_FORM_FULL, some .GRADE_SUPERLATIVE, some .ANIMALITY_ANIMATE, some .NUMBER_SINGULAR, some .CASE_DATIVE, some .GENDER_FEMININE], 57),
   ([some .ADJECTIVE_FORM_FULL, some .GRADE_SUPERLATIVE, some .ANIMALITY_ANIMATE, some .NUMBER_SINGULAR, some .CASE_ACCUSATIVE, some .GENDER_MASCULINE], 58),
   ([some .ADJECTIVE_FORM_FULL, some .GRADE_SUPERLATIVE, some .ANIMALITY_ANIMATE, some .NUMBER_SINGULAR, some .CASE_ACCUSATIVE, some .GENDER_NEUTER], 59),
   ([some .ADJECTIVE_FORM_FULL, some .GRADE_SUPERLATIVE, some .ANIMALITY_ANIMATE, some .NUMBER_SINGULAR, some .CASE_ACCUSATIVE, some .GENDER_FEMININE], 60),
   ([some .ADJECTIVE_FORM_FULL, some .GRADE_SUPERLATIVE, some .ANIMALITY_ANIMATE, some .NUMBER_SINGULAR, some .CASE_INSTRUMENTAL, some .GENDER_MASCULINE], 61),
   ([some .ADJECTIVE_FORM_FULL, some .GRADE_SUPERLATIVE, some .ANIMALITY_ANIMATE, some .NUMBER_SINGULAR, some .CASE_INSTRUMENTAL, some .GENDER_NEUTER], 62),
   ([some .ADJECTIVE_FORM_FULL, some .GRADE_SUPERLATIVE, some .ANIMALITY_ANIMATE, some .NUMBER_SINGULAR, some .CASE_INSTRUMENTAL, some .GENDER_FEMININE], 63),
   ([some .ADJECTIVE_FORM_FULL, some .GRADE_SUPERLATIVE, some .ANIMALITY_ANIMATE, some .NUMBER_SINGULAR, some .CASE_PREPOSITIONAL, some .GENDER_MASCULINE], 64),
   ([some .ADJECTIVE_FORM_FULL, some .GRADE_SUPERLATIVE, some .ANIMALITY_ANIMATE, some .NUMBER_SINGULAR, some .CASE_PREPOSITIONAL, some .GENDER_NEUTER], 65),
   ([some .ADJECTIVE_FORM_FULL, some .GRADE_SUPERLATIVE, some .ANIMALITY_ANIMATE, some .NUMBER_SINGULAR, some .CASE_PREPOSITIONAL, some .GENDER_FEMININE], 66),
   ([some .ADJECTIVE_FORM_FULL, some .GRADE_SUPERLATIVE, some .ANIMALITY_ANIMATE, some .NUMBER_PLURAL, some .CASE_NOMINATIVE, none], 67),
   ([some .ADJECTIVE_FORM_FULL, some .GRADE_SUPERLATIVE, some .ANIMALITY_ANIMATE, some .NUMBER_PLURAL, some .CASE_GENITIVE, none], 68),
   ([some .ADJECTIVE_FORM_FULL, some .GRADE_SUPERLATIVE, some .ANIMALITY_ANIMATE, some .NUMBER_PLURAL, some .CASE_DATIVE, none], 69),
   ([some .ADJECTIVE_FORM_FULL, some .GRADE_SUPERLATIVE, some .ANIMALITY_ANIMATE, some .NUMBER_PLURAL, some .CASE_ACCUSATIVE, none], 70),
   ([some .ADJECTIVE_FORM_FULL, some .GRADE_SUPERLATIVE, some .ANIMALITY_ANIMATE, some .NUMBER_PLURAL, some .CASE_INSTRUMENTAL, none], 71),
   ([some .ADJECTIVE_FORM_FULL, some .GRADE_SUPERLATIVE, some .ANIMALITY_ANIMATE, some .NUMBER_PLURAL, some .CASE_PREPOSITIONAL, none], 72),
   ([some .ADJECTIVE_FORM_FULL, some .GRADE_SUPERLATIVE, some .ANIMALITY_INANIMATE, some .NUMBER_SINGULAR, some .CASE_NOMINATIVE, some .GENDER_MASCULINE], 73),
   ([some .ADJECTIVE_FORM_FULL, some .GRADE_SUPERLATIVE, some .ANIMALITY_INANIMATE, some .NUMBER_SINGULAR, some .CASE_NOMINATIVE, some .GENDER_NEUTER], 74),
   ([some .ADJECTIVE_FORM_FULL, some .GRADE_SUPERLATIVE, some .ANIMALITY_INANIMATE, some .NUMBER_SINGULAR, some .CASE_NOMINATIVE, some .GENDER_FEMININE], 75),
   ([some .ADJECTIVE_FORM_FULL, some .GRADE_SUPERLATIVE, some .ANIMALITY_INANIMATE, some .NUMBER_SINGULAR, some .CASE_GENITIVE, some .GENDER_MASCULINE], 76),
   ([some .ADJECTIVE_FORM_FULL, some .GRADE_SUPERLATIVE, some .ANIMALITY_INANIMATE, some .NUMBER_SINGULAR, some .CASE_GENITIVE, some .GENDER_NEUTER], 77),
   ([some .ADJECTIVE_FORM_FULL, some .GRADE_SUPERLATIVE, some .ANIMALITY_INANIMATE, some .NUMBER_SINGULAR, some .CASE_GENITIVE, some .GENDER_FEMININE], 78),
   ([some .ADJECTIVE_FORM_FULL, some .GRADE_SUPERLATIVE, some .ANIMALITY_INANIMATE, some .NUMBER_SINGULAR, some .CASE_DATIVE, some .GENDER_MASCULINE], 79),
   ([some .ADJECTIVE_FORM_FULL, some .GRADE_SUPERLATIVE, some .ANIMALITY_INANIMATE, some .NUMBER_SINGULAR, some .CASE_DATIVE, some .GENDER_NEUTER], 80),
   ([some .ADJECTIVE_FORM_FULL, some .GRADE_SUPERLATIVE, some .ANIMALITY_INANIMATE, some .NUMBER_SINGULAR, some .CASE_DATIVE, some .GENDER_FEMININE], 81),
   ([some .ADJECTIVE_FORM_FULL, some .GRADE_SUPERLATIVE, some .ANIMALITY_INANIMATE, some .NUMBER_SINGULAR, some .CASE_ACCUSATIVE, some .GENDER_MASCULINE], 82),
   ([some .ADJECTIVE_FORM_FULL, some .GRADE_SUPERLATIVE, some .ANIMALITY_INANIMATE, some .NUMBER_SINGULAR, some .CASE_ACCUSATIVE, some .GENDER_NEUTER], 83),
   ([some .ADJECTIVE_FORM_FULL, some .GRADE_SUPERLATIVE, some .ANIMALITY_INANIMATE, some .NUMBER_SINGULAR, some .CASE_ACCUSATIVE, some .GENDER_FEMININE], 84),
   ([some .ADJECTIVE_FORM_FULL, some .GRADE_SUPERLATIVE, some .ANIMALITY_INANIMATE, some .NUMBER_SINGULAR, some .CASE_INSTRUMENTAL, some .GENDER_MASCULINE], 85),
   ([some .ADJECTIVE_FORM_FULL, some .GRADE_SUPERLATIVE, some .ANIMALITY_INANIMATE, some .NUMBER_SINGULAR, some .CASE_INSTRUMENTAL, some .GENDER_NEUTER], 86),
   ([some .ADJECTIVE_FORM_FULL, some .GRADE_SUPERLATIVE, some .ANIMALITY_INANIMATE, some .NUMBER_SINGULAR, some .CASE_INSTRUMENTAL, some .GENDER_FEMININE], 87),
   ([some .ADJECTIVE_FORM_FULL, some .GRADE_SUPERLATIVE, some .ANIMALITY_INANIMATE, some .NUMBER_SINGULAR, some .CASE_PREPOSITIONAL, some .GENDER_MASCULINE], 88),
   ([some .ADJECTIVE_FORM_FULL, some .GRADE_SUPERLATIVE, some .ANIMALITY_INANIMATE, some .NUMBER_SINGULAR, some .CASE_PREPOSITIONAL, some .GENDER_NEUTER], 89),
   ([some .ADJECTIVE_FORM_FULL, some .GRADE_SUPERLATIVE, some .ANIMALITY_INANIMATE, some .NUMBER_SINGULAR, some .CASE_PREPOSITIONAL, some .GENDER_FEMININE], 90),
   ([some .ADJECTIVE_FORM_FULL, some .GRADE_SUPERLATIVE, some .ANIMALITY_INANIMATE, some .NUMBER_PLURAL, some .CASE_NOMINATIVE, none], 91),
   ([some .ADJECTIVE_FORM_FULL, some .GRADE_SUPERLATIVE, some .ANIMALITY_INANIMATE, some .NUMBER_PLURAL, some .CASE_GENITIVE, none], 92),
   ([some .ADJECTIVE_FORM_FULL, some .GRADE_SUPERLATIVE, some .ANIMALITY_INANIMATE, some .NUMBER_PLURAL, some .CASE_DATIVE, none], 93),
   ([some .ADJECTIVE_FORM_FULL, some .GRADE_SUPERLATIVE, some .ANIMALITY_INANIMATE, some .NUMBER_PLURAL, some .CASE_ACCUSATIVE, none], 94),
   ([some .ADJECTIVE_FORM_FULL, some .GRADE_SUPERLATIVE, some .ANIMALITY_INANIMATE, some .NUMBER_PLURAL, some .CASE_INSTRUMENTAL, none], 95),
   ([some .ADJECTIVE_FORM_FULL, some .GRADE_SUPERLATIVE, some .ANIMALITY_INANIMATE, some .NUMBER_PLURAL, some .CASE_PREPOSITIONAL, none], 96),
   ([some .ADJECTIVE_FORM_SHORT, none, none, some .NUMBER_SINGULAR, none, some .GENDER_MASCULINE], 97),
   ([some .ADJECTIVE_FORM_SHORT, none, none, some .NUMBER_SINGULAR, none, some .GENDER_NEUTER], 98),
   ([some .ADJECTIVE_FORM_SHORT, none, none, some .NUMBER_SINGULAR, none, some .GENDER_FEMININE], 99),
   ([some .ADJECTIVE_FORM_SHORT, none, none, some .NUMBER_PLURAL, none, none], 100)]

/-- `NEW_CACHES[WORD_TYPE.PRONOUN]` (utg/migrations/m_0008_lower_animiality_nearest_priority.py:514-585). -/
def newPronoun : Dict Key Nat :=
  [([some .NUMBER_SINGULAR, some .CASE_NOMINATIVE, some .PERSON_FIRST, some .GENDER_MASCULINE], 0),
   ([some .NUMBER_SINGULAR, some .CASE_NOMINATIVE, some .PERSON_FIRST, some .GENDER_NEUTER], 1),
   ([some .NUMBER_SINGULAR, some .CASE_NOMINATIVE, some .PERSON_FIRST, some .GENDER_FEMININE], 2),
   ([some .NUMBER_SINGULAR, some .CASE_NOMINATIVE, some .PERSON_SECOND, some .GENDER_MASCULINE], 3),
   ([some .NUMBER_SINGULAR, some .CASE_NOMINATIVE, some .PERSON_SECOND, some .GENDER_NEUTER], 4),
   ([some .NUMBER_SINGULAR, some .CASE_NOMINATIVE, some .PERSON_SECOND, some .GENDER_FEMININE], 5),
   ([some .NUMBER_SINGULAR, some .CASE_NOMINATIVE, some .PERSON_THIRD, some .GENDER_MASCULINE], 6),
   ([some .NUMBER_SINGULAR, some .CASE_NOMINATIVE, some .PERSON_THIRD, some .GENDER_NEUTER], 7),
   ([some .NUMBER_SINGULAR, some .CASE_NOMINATIVE, some .PERSON_THIRD, some .GENDER_FEMININE], 8),
   ([some .NUMBER_SINGULAR, some .CASE_GENITIVE, some .PERSON_FIRST, some .GENDER_MASCULINE], 9),
   ([some .NUMBER_SINGULAR, some .CASE_GENITIVE, some .PERSON_FIRST, some .GENDER_NEUTER], 10),
   ([some .NUMBER_SINGULAR, some .CASE_GENITIVE, some .PERSON_FIRST, some .GENDER_FEMININE], 11),
   ([some .NUMBER_SINGULAR, some .CASE_GENITIVE, some .PERSON_SECOND, some .GENDER_MASCULINE], 12),
   ([some .NUMBER_SINGULAR, some .CASE_GENITIVE, some .PERSON_SECOND, some .GENDER_NEUTER], 13),
   ([some .NUMBER_SINGULAR, some .CASE_GENITIVE, some .PERSON_SECOND, some .GENDER_FEMININE], 14),
   ([some .NUMBER_SINGULAR, some .CASE_GENITIVE, some .PERSON_THIRD, some .GENDER_MASCULINE], 15),
   ([some .NUMBER_SINGULAR, some .CASE_GENITIVE, some .PERSON_THIRD, some .GENDER_NEUTER], 16),
   ([some .NUMBER_SINGULAR, some .CASE_GENITIVE, some .PERSON_THIRD, some .GENDER_FEMININE], 17),
   ([some .NUMBER_SINGULAR, some .CASE_DATIVE, some .PERSON_FIRST, some .GENDER_MASCULINE], 18),
   ([some .NUMBER_SINGULAR, some .CASE_DATIVE, some .PERSON_FIRST, some .GENDER_NEUTER], 19),
   ([some .NUMBER_SINGULAR, some .CASE_DATIVE, some .PERSON_FIRST, some .GENDER_FEMININE], 20),
   ([some .NUMBER_SINGULAR, some .CASE_DATIVE, some .PERSON_SECOND, some .GENDER_MASCULINE], 21),
   ([some .NUMBER_SINGULAR, some .CASE_DATIVE, some .PERSON_SECOND, some .GENDER_NEUTER], 22),
   ([some .NUMBER_SINGULAR, some .CASE_DATIVE, some .PERSON_SECOND, some .GENDER_FEMININE], 23),
   ([some .NUMBER_SINGULAR, some .CASE_DATIVE, some .PERSON_THIRD, some .GENDER_MASCULINE], 24),
   ([some .NUMBER_SINGULAR, some .CASE_DATIVE, some .PERSON_THIRD, some .GENDER_NEUTER], 25),
   ([some .NUMBER_SINGULAR, some .CASE_DATIVE, some .PERSON_THIRD, some .GENDER_FEMININE], 26),
   ([some .NUMBER_SINGULAR, some .CASE_ACCUSATIVE, some .PERSON_FIRST, some .GENDER_MASCULINE], 27),
   ([some .NUMBER_SINGULAR, some .CASE_ACCUSATIVE, some .PERSON_FIRST, some .GENDER_NEUTER], 28),
   ([some .NUMBER_SINGULAR, some .CASE_ACCUSATIVE, some .PERSON_FIRST, some .GENDER_FEMININE], 29),
   ([some .NUMBER_SINGULAR, some .CASE_ACCUSATIVE, some .PERSON_SECOND, some .GENDER_MASCULINE], 30),
   ([some .NUMBER_SINGULAR, some .CASE_ACCUSATIVE, some .PERSON_SECOND, some .GENDER_NEUTER], 31),
   ([some .NUMBER_SINGULAR, some .CASE_ACCUSATIVE, some .PERSON_SECOND, some .GENDER_FEMININE], 32),
   ([some .NUMBER_SINGULAR, some .CASE_ACCUSATIVE, some .PERSON_THIRD, some .GENDER_MASCULINE], 33),
   ([some .NUMBER_SINGULAR, some .CASE_ACCUSATIVE, some .PERSON_THIRD, some .GENDER_NEUTER], 34),
   ([some .NUMBER_SINGULAR, some .CASE_ACCUSATIVE, some .PERSON_THIRD, some .GENDER_FEMININE], 35),
   ([some .NUMBER_SINGULAR, some .CASE_INSTRUMENTAL, some .PERSON_FIRST, some .GENDER_MASCULINE], 36),
   ([some .NUMBER_SINGULAR, some .CASE_INSTRUMENTAL, some .PERSON_FIRST, some .GENDER_NEUTER], 37),
   ([some .NUMBER_SINGULAR, some .CASE_INSTRUMENTAL, some .PERSON_FIRST, some .GENDER_FEMININE], 38),
   ([some .NUMBER_SINGULAR, some .CASE_INSTRUMENTAL, some .PERSON_SECOND, some .GENDER_MASCULINE], 39),
   ([some .NUMBER_SINGULAR, some .CASE_INSTRUMENTAL, some .PERSON_SECOND, some .GENDER_NEUTER], 40),
   ([some .NUMBER_SINGULAR, some .CASE_INSTRUMENTAL, some .PERSON_SECOND, some .GENDER_FEMININE], 41),
   ([some .NUMBER_SINGULAR, some .CASE_INSTRUMENTAL, some .PERSON_THIRD, some .GENDER_MASCULINE], 42),
   ([some .NUMBER_SINGULAR, some .CASE_INSTRUMENTAL, some .PERSON_THIRD, some .GENDER_NEUTER], 43),
   ([some .NUMBER_SINGULAR, some .CASE_INSTRUMENTAL, some .PERSON_THIRD, some .GENDER_FEMININE], 44),
   ([some .NUMBER_SINGULAR, some .CASE_PREPOSITIONAL, some .PERSON_FIRST, some .GENDER_MASCULINE], 45),
   ([some .NUMBER_SINGULAR, some .CASE_PREPOSITIONAL, some .PERSON_FIRST, some .GENDER_NEUTER], 46),
   ([some .NUMBER_SINGULAR, some .CASE_PREPOSITIONAL, some .PERSON_FIRST, some .GENDER_FEMININE], 47),
   ([some .NUMBER_SINGULAR, some .CASE_PREPOSITIONAL, some .PERSON_SECOND, some .GENDER_MASCULINE], 48),
   ([some .NUMBER_SINGULAR, some .CASE_PREPOSITIONAL, some .PERSON_SECOND, some .GENDER_NEUTER], 49),
   ([some .NUMBER_SINGULAR, some .CASE_PREPOSITIONAL, some .PERSON_SECOND, some .GENDER_FEMININE], 50),
   ([some .NUMBER_SINGULAR, some .CASE_PREPOSITIONAL, some .PERSON_THIRD, some .GENDER_MASCULINE], 51),
   ([some .NUMBER_SINGULAR, some .CASE_PREPOSITIONAL, some .PERSON_THIRD, some .GENDER_NEUTER], 52),
   ([some .NUMBER_SINGULAR, some .CASE_PREPOSITIONAL, some .PERSON_THIRD, some .GENDER_FEMININE], 53),
   ([some .NUMBER_PLURAL, some .CASE_NOMINATIVE, some .PERSON_FIRST, none], 54),
   ([some .NUMBER_PLURAL, some .CASE_NOMINATIVE, some .PERSON_SECOND, none], 55),
   ([some .NUMBER_PLURAL, some .CASE_NOMINATIVE, some .PERSON_THIRD, none], 56),
   ([some .NUMBER_PLURAL, some .CASE_GENITIVE, some .PERSON_FIRST, none], 57),
   ([some .NUMBER_PLURAL, some .CASE_GENITIVE, some .PERSON_SECOND, none], 58),
   ([some .NUMBER_PLURAL, some .CASE_GENITIVE, some .PERSON_THIRD, none], 59),
   ([some .NUMBER_PLURAL, some .CASE_DATIVE, some .PERSON_FIRST, none], 60),
   ([some .NUMBER_PLURAL, some .CASE_DATIVE, some .PERSON_SECOND, none], 61),
   ([some .NUMBER_PLURAL, some .CASE_DATIVE, some .PERSON_THIRD, none], 62),
   ([some .NUMBER_PLURAL, some .CASE_ACCUSATIVE, some .PERSON_FIRST, none], 63),
   ([some .NUMBER_PLURAL, some .CASE_ACCUSATIVE, some .PERSON_SECOND, none], 64),
   ([some .NUMBER_PLURAL, some .CASE_ACCUSATIVE, some .PERSON_THIRD, none], 65),
   ([some .NUMBER_PLURAL, some .CASE_INSTRUMENTAL, some .PERSON_FIRST, none], 66),
   ([some .NUMBER_PLURAL, some .CASE_INSTRUMENTAL, some .PERSON_SECOND, none], 67),
   ([some .NUMBER_PLURAL, some .CASE_INSTRUMENTAL, some .PERSON_THIRD, none], 68),
   ([some .NUMBER_PLURAL, some .CASE_PREPOSITIONAL, some .PERSON_FIRST, none], 69),
   ([some .NUMBER_PLURAL, some .CASE_PREPOSITIONAL, some .PERSON_SECOND, none], 70),
   ([some .NUMBER_PLURAL, some .CASE_PREPOSITIONAL, some .PERSON_THIRD, none], 71)]

/-- `NEW_CACHES[WORD_TYPE.VERB]` (utg/migrations/m_0008_lower_animiality_nearest_priority.py:586-605). -/
def newVerb : Dict Key Nat :=
  [([some .VERB_FORM_INFINITIVE, none, none, none, none], 0),
   ([some .VERB_FORM_INDICATIVE, some .TIME_PAST, some .NUMBER_SINGULAR, none, some .GENDER_MASCULINE], 1),
   ([some .VERB_FORM_INDICATIVE, some .TIME_PAST, some .NUMBER_SINGULAR, none, some .GENDER_NEUTER], 2),
   ([some .VERB_FORM_INDICATIVE, some .TIME_PAST, some .NUMBER_SINGULAR, none, some .GENDER_FEMININE], 3),
   ([some .VERB_FORM_INDICATIVE, some .TIME_PAST, some .NUMBER_PLURAL, none, none], 4),
   ([some .VERB_FORM_INDICATIVE, some .TIME_PRESENT, some .NUMBER_SINGULAR, some .PERSON_FIRST, none], 5),
   ([some .VERB_FORM_INDICATIVE, some .TIME_PRESENT, some .NUMBER_SINGULAR, some .PERSON_SECOND, none], 6),
   ([some .VERB_FORM_INDICATIVE, some .TIME_PRESENT, some .NUMBER_SINGULAR, some .PERSON_THIRD, none], 7),
   ([some .VERB_FORM_INDICATIVE, some .TIME_PRESENT, some .NUMBER_PLURAL, some .PERSON_FIRST, none], 8),
   ([some .VERB_FORM_INDICATIVE, some .TIME_PRESENT, some .NUMBER_PLURAL, some .PERSON_SECOND, none], 9),
   ([some .VERB_FORM_INDICATIVE, some .TIME_PRESENT, some .NUMBER_PLURAL, some .PERSON_THIRD, none], 10),
   ([some .VERB_FORM_INDICATIVE, some .TIME_FUTURE, some .NUMBER_SINGULAR, some .PERSON_FIRST, none], 11),
   ([some .VERB_FORM_INDICATIVE, some .TIME_FUTURE, some .NUMBER_SINGULAR, some .PERSON_SECOND, none], 12),
   ([some .VERB_FORM_INDICATIVE, some .TIME_FUTURE, some .NUMBER_SINGULAR, some .PERSON_THIRD, none], 13),
   ([some .VERB_FORM_INDICATIVE, some .TIME_FUTURE, some .NUMBER_PLURAL, some .PERSON_FIRST, none], 14),
   ([some .VERB_FORM_INDICATIVE, some .TIME_FUTURE, some .NUMBER_PLURAL, some .PERSON_SECOND, none], 15),
   ([some .VERB_FORM_INDICATIVE, some .TIME_FUTURE, some .NUMBER_PLURAL, some .PERSON_THIRD, none], 16),
   ([some .VERB_FORM_IMPERATIVE, none, some .NUMBER_SINGULAR, some .PERSON_SECOND, none], 17),
   ([some .VERB_FORM_IMPERATIVE, none, some .NUMBER_PLURAL, some .PERSON_FIRST, none], 18),
   ([some .VERB_FORM_IMPERATIVE, none, some .NUMBER_PLURAL, some .PERSON_SECOND, none], 19)]

/-- `NEW_CACHES[WORD_TYPE.PARTICIPLE]` (utg/migrations/m_0008_lower_animiality_nearest_priority.py:606-753). -/
def newParticiple : Dict Key Nat :=
  [([some .PARTICIPLE_FORM_FULL, some .TIME_PAST, some .ANIMALITY_ANIMATE, some .NUMBER_SINGULAR, some .CASE_NOMINATIVE, some .GENDER_MASCULINE], 0),
   ([some .PARTICIPLE_FORM_FULL, some .TIME_PAST, some .ANIMALITY_ANIMATE, some .NUMBER_SINGULAR, some .CASE_NOMINATIVE, some .GENDER_NEUTER], 1),
   ([some .PARTICIPLE_FORM_FULL, some .TIME_PAST, some .ANIMALITY_ANIMATE, some .NUMBER_SINGULAR, some .CASE_NOMINATIVE, some .GENDER_FEMININE], 2),
   ([some .PARTICIPLE_FORM_FULL, some .TIME_PAST, some .ANIMALITY_ANIMATE, some .NUMBER_SINGULAR, some .CASE_GENITIVE, some .GENDER_MASCULINE], 3),
   ([some .PARTICIPLE_FORM_FULL, some .TIME_PAST, some .ANIMALITY_ANIMATE, some .NUMBER_SINGULAR, some .CASE_GENITIVE, some .GENDER_NEUTER], 4),
   ([some .PARTICIPLE_FORM_FULL, some .TIME_PAST, some .ANIMALITY_ANIMATE, some .NUMBER_SINGULAR, some .CASE_GENITIVE, some .GENDER_FEMININE], 5),
   ([some .PARTICIPLE_FORM_FULL, some .TIME_PAST, some .ANIMALITY_ANIMATE, some .NUMBER_SINGULAR, some .CASE_DATIVE, some .GENDER_MASCULINE], 6),
   ([some .PARTICIPLE_FORM_FULL, some .TIME_PAST, some .ANIMALITY_ANIMATE, some .NUMBER_SINGULAR, some .CASE_DATIVE, some .GENDER_NEUTER], 7),
   ([some .PARTICIPLE_FORM_FULL, some .TIME_PAST, some .ANIMALITY_ANIMATE, some .NUMBER_SINGULAR, some .CASE_DATIVE, some .GENDER_FEMININE], 8),
   ([some .PARTICIPLE_FORM_FULL, some .TIME_PAST, some .ANIMALITY_ANIMATE, some .NUMBER_SINGULAR, some .CASE_ACCUSATIVE, some .GENDER_MASCULINE], 9),
   ([some .PARTICIPLE_FORM_FULL, some .TIME_PAST, some .ANIMALITY_ANIMATE, some .NUMBER_SINGULAR, some .CASE_ACCUSATIVE, some .GENDER_NEUTER], 10),
   ([some .PARTICIPLE_FORM_FULL, some .TIME_PAST, some .ANIMALITY_ANIMATE, some .NUMBER_SINGULAR, some .CASE_ACCUSATIVE, some .GENDER_FEMININE], 11),
   ([some .PARTICIPLE_FORM_FULL, some .TIME_PAST, some .ANIMALITY_ANIMATE, some .NUMBER_SINGULAR, some .CASE_INSTRUMENTAL, some .GENDER_MASCULINE], 12),
   ([some .PARTICIPLE_FORM_FULL, some .TIME_PAST, some .ANIMALITY_ANIMATE, some .NUMBER_SINGULAR, some .CASE_INSTRUMENTAL, some .GENDER_NEUTER], 13),
   ([some .PARTICIPLE_FORM_FULL, some .TIME_PAST, some .ANIMALITY_ANIMATE, some .NUMBER_SINGULAR, some .CASE_INSTRUMENTAL, some .GENDER_FEMININE], 14),
   ([some .PARTICIPLE_FORM_FULL, some .TIME_PAST, some .ANIMALITY_ANIMATE, some .NUMBER_SINGULAR, some .CASE_PREPOSITIONAL, some .GENDER_MASCULINE], 15),
   ([some .PARTICIPLE_FORM_FULL, some .TIME_PAST, some .ANIMALITY_ANIMATE, some .NUMBER_SINGULAR, some .CASE_PREPOSITIONAL, some .GENDER_NEUTER], 16),
   ([some .PARTICIPLE_FORM_FULL, some .TIME_PAST, some .ANIMALITY_ANIMATE, some .NUMBER_SINGULAR, some .CASE_PREPOSITIONAL, some .GENDER_FEMININE], 17),
   ([some .PARTICIPLE_FORM_FULL, some .TIME_PAST, some .ANIMALITY_ANIMATE, some .NUMBER_PLURAL, some .CASE_NOMINATIVE, none], 18),
   ([some .PARTICIPLE_FORM_FULL, some .TIME_PAST, some .ANIMALITY_ANIMATE, some .NUMBER_PLURAL, some .CASE_GENITIVE, none], 19),
   ([some .PARTICIPLE_FORM_FULL, some .TIME_PAST, some .ANIMALITY_ANIMATE, some .NUMBER_PLURAL, some .CASE_DATIVE, none], 20),
   ([some .PARTICIPLE_FORM_FULL, some .TIME_PAST, some .ANIMALITY_ANIMATE, some .NUMBER_PLURAL, some .CASE_ACCUSATIVE, none], 21),
   ([some .PARTICIPLE_FORM_FULL, some .TIME_PAST, some .ANIMALITY_ANIMATE, some .NUMBER_PLURAL, some .CASE_INSTRUMENTAL, none], 22),
   ([some .PARTICIPLE_FORM_FULL, some .TIME_PAST, some .ANIMALITY_ANIMATE, some .NUMBER_PLURAL, some .CASE_PREPOSITIONAL, none], 23),
   ([some .PARTICIPLE_FORM_FULL, some .TIME_PAST, some .ANIMALITY_INANIMATE, some .NUMBER_SINGULAR, some .CASE_NOMINATIVE, some .GENDER_MASCULINE], 24),
   ([some .PARTICIPLE_FORM_FULL, some .TIME_PAST, some .ANIMALITY_INANIMATE, some .NUMBER_SINGULAR, some .CASE_NOMINATIVE, some .GENDER_NEUTER], 25),
   ([some .PARTICIPLE_FORM_FULL, some .TIME_PAST, some .ANIMALITY_INANIMATE, some .NUMBER_SINGULAR, some .CASE_NOMINATIVE, some .GENDER_FEMININE], 26),
   ([some .PARTICIPLE_FORM_FULL, some .TIME_PAST, some .ANIMALITY_INANIMATE, some .NUMBER_SINGULAR, some .CASE_GENITIVE, some .GENDER_MASCULINE], 27),
   ([some .PARTICIPLE_FORM_FULL, some .TIME_PAST, some .ANIMALITY_INANIMATE, some .NUMBER_SINGULAR, some .CASE_GENITIVE, some .GENDER_NEUTER], 28),
   ([some .PARTICIPLE_FORM_FULL, some .TIME_PAST, some .ANIMALITY_INANIMATE, some .NUMBER_SINGULAR, some .CASE_GENITIVE, some .GENDER_FEMININE], 29),
   ([some .PARTICIPLE_FORM_FULL, some .TIME_PAST, some .ANIMALITY_INANIMATE, some .NUMBER_SINGULAR, some .CASE_DATIVE, some .GENDER_MASCULINE], 30),
   ([some .PARTICIPLE_FORM_FULL, some .TIME_PAST, some .ANIMALITY_INANIMATE, some .NUMBER_SINGULAR, some .CASE_DATIVE, some .GENDER_NEUTER], 31),
   ([some .PARTICIPLE_FORM_FULL, some .TIME_PAST, some .ANIMALITY_INANIMATE, some .NUMBER_SINGULAR, some .CASE_DATIVE, some .GENDER_FEMININE], 32),
   ([some .PARTICIPLE_FORM_FULL, some .TIME_PAST, some .ANIMALITY_INANIMATE, some .NUMBER_SINGULAR, some .CASE_ACCUSATIVE, some .GENDER_MASCULINE], 33),
   ([some .PARTICIPLE_FORM_FULL, some .TIME_PAST, some .ANIMALITY_INANIMATE, some .NUMBER_SINGULAR, some .CASE_ACCUSATIVE, some .GENDER_NEUTER], 34),
   ([some .PARTICIPLE_FORM_FULL, some .TIME_PAST, some .ANIMALITY_INANIMATE, some .NUMBER_SINGULAR, some .CASE_ACCUSATIVE, some .GENDER_FEMININE], 35),
   ([some .PARTICIPLE_FORM_FULL, some .TIME_PAST, some .ANIMALITY_INANIMATE, some .NUMBER_SINGULAR, some .CASE_INSTRUMENTAL, some .GENDER_MASCULINE], 36),
   ([some .PARTICIPLE_FORM_FULL, some .TIME_PAST, some .ANIMALITY_INANIMATE, some .NUMBER_SINGULAR, some .CASE_INSTRUMENTAL, some .GENDER_NEUTER], 37),
   ([some .PARTICIPLE_FORM_FULL, some .TIME_PAST, some .ANIMALITY_INANIMATE, some .NUMBER_SINGULAR, some .CASE_INSTRUMENTAL, some .GENDER_FEMININE], 38),
   ([some .PARTICIPLE_FORM_FULL, some .TIME_PAST, some .ANIMALITY_INANIMATE, some .NUMBER_SINGULAR, some .CASE_PREPOSITIONAL, some .GENDER_MASCULINE], 39),
   ([some .PARTICIPLE_FORM_FULL, some .TIME_PAST, some .ANIMALITY_INANIMATE, some .NUMBER_SINGULAR, some .CASE_PREPOSITIONAL, some .GENDER_NEUTER], 40),
   ([some .PARTICIPLE_FORM_FULL, some .TIME_PAST, some .ANIMALITY_INANIMATE, some .NUMBER_SINGULAR, some .CASE_PREPOSITIONAL, some .GENDER_FEMININE], 41),
   ([some .PARTICIPLE_FORM_FULL, some .TIME_PAST, some .ANIMALITY_INANIMATE, some .NUMBER_PLURAL, some .CASE_NOMINATIVE, none], 42),
   ([some .PARTICIPLE_FORM_FULL, some .TIME_PAST, some .ANIMALITY_INANIMATE, some .NUMBER_PLURAL, some .CASE_GENITIVE, none], 43),
   ([some .PARTICIPLE_FORM_FULL, some .TIME_PAST, some .ANIMALITY_INANIMATE, some .NUMBER_PLURAL, some .CASE_DATIVE, none], 44),
   ([some .PARTICIPLE_FORM_FULL, some .TIME_PAST, some .ANIMALITY_INANIMATE, some .NUMBER_PLURAL, some .CASE_ACCUSATIVE, none], 45),
   ([some .PARTICIPLE_FORM_FULL, some .TIME_PAST, some .ANIMALITY_INANIMATE, some .NUMBER_PLURAL, some .CASE_INSTRUMENTAL, none], 46),
   ([some .PARTICIPLE_FORM_FULL, some .TIME_PAST, some .ANIMALITY_INANIMATE, some .NUMBER_PLURAL, some .CASE_PREPOSITIONAL, none], 47),
   ([some .PARTICIPLE_FORM_FULL, some .TIME_PRESENT, some .ANIMALITY_ANIMATE, some .NUMBER_SINGULAR, some .CASE_NOMINATIVE, some .GENDER_MASCULINE], 48),
   ([some .PARTICIPLE_FORM_FULL, some .TIME_PRESENT, some .ANIMALITY_ANIMATE, some .NUMBER_SINGULAR, some .CASE_NOMINATIVE, some .GENDER_NEUTER], 49),
   ([some .PARTICIPLE_FORM_FULL, some .TIME_PRESENT, some .ANIMALITY_ANIMATE, some .NUMBER_SINGULAR, some .CASE_NOMINATIVE, some .GENDER_FEMININE], 50),
   ([some .PARTICIPLE_FORM_FULL, some .TIME_PRESENT, some .ANIMALITY_ANIMATE, some .NUMBER_SINGULAR, some .CASE_GENITIVE, some .GENDER_MASCULINE], 51),
   ([some .PARTICIPLE_FORM_FULL, some .TIME_PRESENT, some .ANIMALITY_ANIMATE, some .NUMBER_SINGULAR, some .CASE_GENITIVE, some .GENDER_NEUTER], 52),
   ([some .PARTICIPLE_FORM_FULL, some .TIME_PRESENT, some .ANIMALITY_ANIMATE, some .NUMBER_SINGULAR, some .CASE_GENITIVE, some .GENDER_FEMININE], 53),
   ([some .PARTICIPLE_FORM_FULL, some .TIME_PRESENT, some .ANIMALITY_ANIMATE, some .NUMBER_SINGULAR, some .CASE_DATIVE, some .GENDER_MASCULINE], 54),
   ([some .PARTICIPLE_FORM_FULL, some .TIME_PRESENT, some .ANIMALITY_ANIMATE, some .NUMBER_SINGULAR, some .CASE_DATIVE, some .GENDER_NEUTER], 55),
   ([some .PARTICIPLE_FORM_FULL, some .TIME_PRESENT, some .ANIMALITY_ANIMATE, some .NUMBER_SINGULAR, some .CASE_DATIVE, some .GENDER_FEMININE], 56),
   ([some .PARTICIPLE_FORM_FULL, some .TIME_PRESENT, some .ANIMALITY_ANIMATE, some .NUMBER_SINGULAR, some .CASE_ACCUSATIVE, some .GENDER_MASCULINE], 57),
   ([some .PARTICIPLE_FORM_FULL, some .TIME_PRESENT, some .ANIMALITY_ANIMATE, some .NUMBER_SINGULAR, some .CASE_ACCUSATIVE, some .GENDER_NEUTER], 58),
   ([some .PARTICIPLE_FORM_FULL, some .TIME_PRESENT, some .ANIMALITY_ANIMATE, some .NUMBER_SINGULAR, some .CASE_ACCUSATIVE, some .GENDER_FEMININE], 59),
   ([some .PARTICIPLE_FORM_FULL, some .TIME_PRESENT, some .ANIMALITY_ANIMATE, some .NUMBER_SINGULAR, some .CASE_INSTRUMENTAL, some .GENDER_MASCULINE], 60),
   ([some .PARTICIPLE_FORM_FULL, some .TIME_PRESENT, some .ANIMALITY_ANIMATE, some .NUMBER_SINGULAR, some .CASE_INSTRUMENTAL, some .GENDER_NEUTER], 61),
   ([some .PARTICIPLE_FORM_FULL, some .TIME_PRESENT, some .ANIMALITY_ANIMATE, some .NUMBER_SINGULAR, some .CASE_INSTRUMENTAL, some .GENDER_FEMININE], 62),
   ([some .PARTICIPLE_FORM_FULL, some .TIME_PRESENT, some .ANIMALITY_ANIMATE, some .NUMBER_SINGULAR, some .CASE_PREPOSITIONAL, some .GENDER_MASCULINE], 63),
   ([some .PARTICIPLE_FORM_FULL, some .TIME_PRESENT, some .ANIMALITY_ANIMATE, some .NUMBER_SINGULAR, some .CASE_PREPOSITIONAL, some .GENDER_NEUTER], 64),
   ([some .PARTICIPLE_FORM_FULL, some .TIME_PRESENT, some .ANIMALITY_ANIMATE, some .NUMBER_SINGULAR, some .CASE_PREPOSITIONAL, some .GENDER_FEMININE], 65),
   ([some .PARTICIPLE_FORM_FULL, some .TIME_PRESENT, some .ANIMALITY_ANIMATE, some .NUMBER_PLURAL, some .CASE_NOMINATIVE, none], 66),
   ([some .PARTICIPLE_FORM_FULL, some .TIME_PRESENT, some .ANIMALITY_ANIMATE, some .NUMBER_PLURAL, some .CASE_GENITIVE, none], 67),
   ([some .PARTICIPLE_FORM_FULL, some .TIME_PRESENT, some .ANIMALITY_ANIMATE, some .NUMBER_PLURAL, some .CASE_DATIVE, none], 68),
   ([some .PARTICIPLE_FORM_FULL, some .TIME_PRESENT, some .ANIMALITY_ANIMATE, some .NUMBER_PLURAL, some .CASE_ACCUSATIVE, none], 69),
   ([some .PARTICIPLE_FORM_FULL, some .TIME_PRESENT, some .ANIMALITY_ANIMATE, some .NUMBER_PLURAL, some .CASE_INSTRUMENTAL, none], 70),
   ([some .PARTICIPLE_FORM_FULL, some .TIME_PRESENT, some .ANIMALITY_ANIMATE, some .NUMBER_PLURAL, some .CASE_PREPOSITIONAL, none], 71),
   ([some .PARTICIPLE_FORM_FULL, some .TIME_PRESENT, some .ANIMALITY_INANIMATE, some .NUMBER_SINGULAR, some .CASE_NOMINATIVE, some .GENDER_MASCULINE], 72),
   ([some .PARTICIPLE_FORM_FULL, some .TIME_PRESENT, some .ANIMALITY_INANIMATE, some .NUMBER_SINGULAR, some .CASE_NOMINATIVE, some .GENDER_NEUTER], 73),
   ([some .PARTICIPLE_FORM_FULL, some .TIME_PRESENT, some .ANIMALITY_INANIMATE, some .NUMBER_SINGULAR, some .CASE_NOMINATIVE, some .GENDER_FEMININE], 74),
   ([some .PARTICIPLE_FORM_FULL, some .TIME_PRESENT, some .ANIMALITY_INANIMATE, some .NUMBER_SINGULAR, some .CASE_GENITIVE, some .GENDER_MASCULINE], 75),
   ([some .PARTICIPLE_FORM_FULL, some .TIME_PRESENT, some .ANIMALITY_INANIMATE, some .NUMBER_SINGULAR, some .CASE_GENITIVE, some .GENDER_NEUTER], 76),
   ([some .PARTICIPLE_FORM_FULL, some .TIME_PRESENT, some .ANIMALITY_INANIMATE, some .NUMBER_SINGULAR, some .CASE_GENITIVE, some .GENDER_FEMININE], 77),
   ([some .PARTICIPLE_FORM_FULL, some .TIME_PRESENT, some .ANIMALITY_INANIMATE, some .NUMBER_SINGULAR, some .CASE_DATIVE, some .GENDER_MASCULINE], 78),
   ([some .PARTICIPLE_FORM_FULL, some .TIME_PRESENT, some .ANIMALITY_INANIMATE, some .NUMBER_SINGULAR, some .CASE_DATIVE, some .GENDER_NEUTER], 79),
   ([some .PARTICIPLE_FORM_FULL, some .TIME_PRESENT, some .ANIMALITY_INANIMATE, some .NUMBER_SINGULAR, some .CASE_DATIVE, some .GENDER_FEMININE], 80),
   ([some .PARTICIPLE_FORM_FULL, some .TIME_PRESENT, some .ANIMALITY_INANIMATE, some .NUMBER_SINGULAR, some .CASE_ACCUSATIVE, some .GENDER_MASCULINE], 81),
   ([some .PARTICIPLE_FORM_FULL, some .TIME_PRESENT, some .ANIMALITY_INANIMATE, some .NUMBER_SINGULAR, some .CASE_ACCUSATIVE, some .GENDER_NEUTER], 82),
   ([some .PARTICIPLE_FORM_FULL, some .TIME_PRESENT, some .ANIMALITY_INANIMATE, some .NUMBER_SINGULAR, some .CASE_ACCUSATIVE, some .GENDER_FEMININE], 83),
   ([some .PARTICIPLE_FORM_FULL, some .TIME_PRESENT, some .ANIMALITY_INANIMATE, some .NUMBER_SINGULAR, some .CASE_INSTRUMENTAL, some .GENDER_MASCULINE], 84),
   ([some .PARTICIPLE_FORM_FULL, some .TIME_PRESENT, some .ANIMALITY_INANIMATE, some .NUMBER_SINGULAR, some .CASE_INSTRUMENTAL, some .GENDER_NEUTER], 85),
   ([some .PARTICIPLE_FORM_FULL, some .TIME_PRESENT, some .ANIMALITY_INANIMATE, some .NUMBER_SINGULAR, some .CASE_INSTRUMENTAL, some .GENDER_FEMININE], 86),
   ([some .PARTICIPLE_FORM_FULL, some .TIME_PRESENT, some .ANIMALITY_INANIMATE, some .NUMBER_SINGULAR, some .CASE_PREPOSITIONAL, some .GENDER_MASCULINE], 87),
   ([some .PARTICIPLE_FORM_FULL, some .TIME_PRESENT, some .ANIMALITY_INANIMATE, some .NUMBER_SINGULAR, some .CASE_PREPOSITIONAL, some .GENDER_NEUTER], 88),
   ([some .PARTICIPLE_FORM_FULL, some .TIME_PRESENT, some .ANIMALITY_INANIMATE, some .NUMBER_SINGULAR, some .CASE_PREPOSITIONAL, some .GENDER_FEMININE], 89),
   ([some .PARTICIPLE_FORM_FULL, some .TIME_PRESENT, some .ANIMALITY_INANIMATE, some .NUMBER_PLURAL, some .CASE_NOMINATIVE, none], 90),
   ([some .PARTICIPLE_FORM_FULL, some .TIME_PRESENT, some .ANIMALITY_INANIMATE, some .NUMBER_PLURAL, some .CASE_GENITIVE, none], 91),
   ([some .PARTICIPLE_FORM_FULL, some .TIME_PRESENT, some .ANIMALITY_INANIMATE, some .NUMBER_PLURAL, some .CASE_DATIVE, none], 92),
   ([some .PARTICIPLE_FORM_FULL, some .TIME_PRESENT, some .ANIMALITY_INANIMATE, some .NUMBER_PLURAL, some .CASE_ACCUSATIVE, none], 93),
   ([some .PARTICIPLE_FORM_FULL, some .TIME_PRESENT, some .ANIMALITY_INANIMATE, some .NUMBER_PLURAL, some .CASE_INSTRUMENTAL, none], 94),
   ([some .PARTICIPLE_FORM_FULL, some .TIME_PRESENT, some .ANIMALITY_INANIMATE, some .NUMBER_PLURAL, some .CASE_PREPOSITIONAL, none], 95),
   ([some .PARTICIPLE_FORM_FULL, some .TIME_FUTURE, some .ANIMALITY_ANIMATE, some .NUMBER_SINGULAR, some .CASE_NOMINATIVE, some .GENDER_MASCULINE], 96),
   ([some .PARTICIPLE_FORM_FULL, some .TIME_FUTURE, some .ANIMALITY_ANIMATE, some .NUMBER_SINGULAR, some .CASE_NOMINATIVE, some .GENDER_NEUTER], 97),
   ([some .PARTICIPLE_FORM_FULL, some .TIME_FUTURE, some .ANIMALITY_ANIMATE, some .NUMBER_SINGULAR, some .CASE_NOMINATIVE, some .GENDER_FEMININE], 98),
   ([some .PARTICIPLE_FORM_FULL, some .TIME_FUTURE, some .ANIMALITY_ANIMATE, some .NUMBER_SINGULAR, some .CASE_GENITIVE, some .GENDER_MASCULINE], 99),
   ([some .PARTICIPLE_FORM_FULL, some .TIME_FUTURE, some .ANIMALITY_ANIMATE, some .NUMBER_SINGULAR, some .CASE_GENITIVE, some .GENDER_NEUTER], 100),
   ([some .PARTICIPLE_FORM_FULL, some .TIME_FUTURE, some .ANIMALITY_ANIMATE, some .NUMBER_SINGULAR, some .CASE_GENITIVE, some .GENDER_FEMININE], 101),
   ([some .PARTICIPLE_FORM_FULL, some .TIME_FUTURE, some .ANIMALITY_ANIMATE, some .NUMBER_SINGULAR, some .CASE_DATIVE, some .GENDER_MASCULINE], 102),
   ([some .PARTICIPLE_FORM_FULL, some .TIME_FUTURE, some .ANIMALITY_ANIMATE, some .NUMBER_SINGULAR, some .CASE_DATIVE, some .GENDER_NEUTER], 103),
   ([some .PARTICIPLE_FORM_FULL, some .TIME_FUTURE, some .ANIMALITY_ANIMATE, some .NUMBER_SINGULAR, some .CASE_DATIVE, some .GENDER_FEMININE], 104),
   ([some .PARTICIPLE_FORM_FULL, some .TIME_FUTURE, some .ANIMALITY_ANIMATE, some .NUMBER_SINGULAR, some .CASE_ACCUSATIVE, some .GENDER_MASCULINE], 105),
   ([some .PARTICIPLE_FORM_FULL, some .TIME_FUTURE, some .ANIMALITY_ANIMATE, some .NUMBER_SINGULAR, some .CASE_ACCUSATIVE, some .GENDER_NEUTER], 106),
   ([some .PARTICIPLE_FORM_FULL, some .TIME_FUTURE, some .ANIMALITY_ANIMATE, some .NUMBER_SINGULAR, some .CASE_ACCUSATIVE, some .GENDER_FEMININE], 107),
   ([some .PARTICIPLE_FORM_FULL, some .TIME_FUTURE, some .ANIMALITY_ANIMATE, some .NUMBER_SINGULAR, some .CASE_INSTRUMENTAL, some .GENDER_MASCULINE], 108),
   ([some .PARTICIPLE_FORM_FULL, some .TIME_FUTURE, some .ANIMALITY_ANIMATE, some .NUMBER_SINGULAR, some .CASE_INSTRUMENTAL, some .GENDER_NEUTER], 109),
   ([some .PARTICIPLE_FORM_FULL, some .TIME_FUTURE, some .ANIMALITY_ANIMATE, some .NUMBER_SINGULAR, some .CASE_INSTRUMENTAL, some .GENDER_FEMININE], 110),
   ([some .PARTICIPLE_FORM_FULL, some .TIME_FUTURE, some .ANIMALITY_ANIMATE, some .NUMBER_SINGULAR, some .CASE_PREPOSITIONAL, some .GENDER_MASCULINE], 111),
   ([some .PARTICIPLE_FORM_FULL, some .TIME_FUTURE, some .ANIMALITY_ANIMATE, some .NUMBER_SINGULAR, some .CASE_PREPOSITIONAL, some .GENDER_NEUTER], 112),
   ([some .PARTICIPLE_FORM_FULL, some .TIME_FUTURE, some .ANIMALITY_ANIMATE, some .NUMBER_SINGULAR, some .CASE_PREPOSITIONAL, some .GENDER_FEMININE], 113),
   ([some .PARTICIPLE_FORM_FULL, some .TIME_FUTURE, some .ANIMALITY_ANIMATE, some .NUMBER_PLURAL, some .CASE_NOMINATIVE, none], 114),
   ([some .PARTICIPLE_FORM_FULL, some .TIME_FUTURE, some .ANIMALITY_ANIMATE, some .NUMBER_PLURAL, some .CASE_GENITIVE, none], 115),
   ([some .PARTICIPLE_FORM_FULL, some .TIME_FUTURE, some .ANIMALITY_ANIMATE, some .NUMBER_PLURAL, some .CASE_DATIVE, none], 116),
   ([some .PARTICIPLE_FORM_FULL, some .TIME_FUTURE, some .ANIMALITY_ANIMATE, some .NUMBER_PLURAL, some .CASE_ACCUSATIVE, none], 117),
   ([some .PARTICIPLE_FORM_FULL, some .TIME_FUTURE, some .ANIMALITY_ANIMATE, some .NUMBER_PLURAL, some .CASE_INSTRUMENTAL, none], 118),
   ([some .PARTICIPLE_FORM_FULL, some .TIME_FUTURE, some .ANIMALITY_ANIMATE, some .NUMBER_PLURAL, some .CASE_PREPOSITIONAL, none], 119),
   ([some .PARTICIPLE_FORM_FULL, some .TIME_FUTURE, some .ANIMALITY_INANIMATE, some .NUMBER_SINGULAR, some .CASE_NOMINATIVE, some .GENDER_MASCULINE], 120),
   ([some .PARTICIPLE_FORM_FULL, some .TIME_FUTURE, some .ANIMALITY_INANIMATE, some .NUMBER_SINGULAR, some .CASE_NOMINATIVE, some .GENDER_NEUTER], 121),
   ([some .PARTICIPLE_FORM_FULL, some .TIME_FUTURE, some .ANIMALITY_INANIMATE, some .NUMBER_SINGULAR, some .CASE_NOMINATIVE, some .GENDER_FEMININE], 122),
   ([some .PARTICIPLE_FORM_FULL, some .TIME_FUTURE, some .ANIMALITY_INANIMATE, some .NUMBER_SINGULAR, some .CASE_GENITIVE, some .GENDER_MASCULINE], 123),
   ([some .PARTICIPLE_FORM_FULL, some .TIME_FUTURE, some .ANIMALITY_INANIMATE, some .NUMBER_SINGULAR, some .CASE_GENITIVE, some .GENDER_NEUTER], 124),
   ([some .PARTICIPLE_FORM_FULL, some .TIME_FUTURE, some .ANIMALITY_INANIMATE, some .NUMBER_SINGULAR, some .CASE_GENITIVE, some .GENDER_FEMININE], 125),
   ([some .PARTICIPLE_FORM_FULL, some .TIME_FUTURE, some .ANIMALITY_INANIMATE, some .NUMBER_SINGULAR, some .CASE_DATIVE, some .GENDER_MASCULINE], 126),
   ([some .PARTICIPLE_FORM_FULL, some .TIME_FUTURE, some .ANIMALITY_INANIMATE, some .NUMBER_SINGULAR, some .CASE_DATIVE, some .GENDER_NEUTER], 127),
   ([some .PARTICIPLE_FORM_FULL, some .TIME_FUTURE, some .ANIMALITY_INANIMATE, some .NUMBER_SINGULAR, some .CASE_DATIVE, some .GENDER_FEMININE], 128),
   ([some .PARTICIPLE_FORM_FULL, some .TIME_FUTURE, some .ANIMALITY_INANIMATE, some .NUMBER_SINGULAR, some .CASE_ACCUSATIVE, some .GENDER_MASCULINE], 129),
   ([some .PARTICIPLE_FORM_FULL, some .TIME_FUTURE, some .ANIMALITY_INANIMATE, some .NUMBER_SINGULAR, some .CASE_ACCUSATIVE, some .GENDER_NEUTER], 130),
   ([some .PARTICIPLE_FORM_FULL, some .TIME_FUTURE, some .ANIMALITY_INANIMATE, some .NUMBER_SINGULAR, some .CASE_ACCUSATIVE, some .GENDER_FEMININE], 131),
   ([some .PARTICIPLE_FORM_FULL, some .TIME_FUTURE, some .ANIMALITY_INANIMATE, some .NUMBER_SINGULAR, some .CASE_INSTRUMENTAL, some .GENDER_MASCULINE], 132),
   ([some .PARTICIPLE_FORM_FULL, some .TIME_FUTURE, some .ANIMALITY_INANIMATE, some .NUMBER_SINGULAR, some .CASE_INSTRUMENTAL, some .GENDER_NEUTER], 133),
   ([some .PARTICIPLE_FORM_FULL, some .TIME_FUTURE, some .ANIMALITY_INANIMATE, some .NUMBER_SINGULAR, some .CASE_INSTRUMENTAL, some .GENDER_FEMININE], 134),
   ([some .PARTICIPLE_FORM_FULL, some .TIME_FUTURE, some .ANIMALITY_INANIMATE, some .NUMBER_SINGULAR, some .CASE_PREPOSITIONAL, some .GENDER_MASCULINE], 135),
   ([some .PARTICIPLE_FORM_FULL, some .TIME_FUTURE, some .ANIMALITY_INANIMATE, some .NUMBER_SINGULAR, some .CASE_PREPOSITIONAL, some .GENDER_NEUTER], 136),
   ([some .PARTICIPLE_FORM_FULL, some .TIME_FUTURE, some .ANIMALITY_INANIMATE, some .NUMBER_SINGULAR, some .CASE_PREPOSITIONAL, some .GENDER_FEMININE], 137),
   ([some .PARTICIPLE_FORM_FULL, some .TIME_FUTURE, some .ANIMALITY_INANIMATE, some .NUMBER_PLURAL, some .CASE_NOMINATIVE, none], 138),
   ([some .PARTICIPLE_FORM_FULL, some .TIME_FUTURE, some .ANIMALITY_INANIMATE, some .NUMBER_PLURAL, some .CASE_GENITIVE, none], 139),
   ([some .PARTICIPLE_FORM_FULL, some .TIME_FUTURE, some .ANIMALITY_INANIMATE, some .NUMBER_PLURAL, some .CASE_DATIVE, none], 140),
   ([some .PARTICIPLE_FORM_FULL, some .TIME_FUTURE, some .ANIMALITY_INANIMATE, some .NUMBER_PLURAL, some .CASE_ACCUSATIVE, none], 141),
   ([some .PARTICIPLE_FORM_FULL, some .TIME_FUTURE, some .ANIMALITY_INANIMATE, some .NUMBER_PLURAL, some .CASE_INSTRUMENTAL, none], 142),
   ([some .PARTICIPLE_FORM_FULL, some .TIME_FUTURE, some .ANIMALITY_INANIMATE, some .NUMBER_PLURAL, some .CASE_PREPOSITIONAL, none], 143),
   ([some .PARTICIPLE_FORM_SHORT, none, none, some .NUMBER_SINGULAR, none, some .GENDER_MASCULINE], 144),
   ([some .PARTICIPLE_FORM_SHORT, none, none, some .NUMBER_SINGULAR, none, some .GENDER_NEUTER], 145),
   ([some .PARTICIPLE_FORM_SHORT, none, none, some .NUMBER_SINGULAR, none, some .GENDER_FEMININE], 146),
   ([some .PARTICIPLE_FORM_SHORT, none, none, some .NUMBER_PLURAL, none, none], 147)]

/-- `NEW_CACHES[WORD_TYPE.INTEGER]` (utg/migrations/m_0008_lower_animiality_nearest_priority.py:754-754). -/
def newInteger : Dict Key Nat :=
  [([], 0)]

/-- `NEW_CACHES[WORD_TYPE.TEXT]` (utg/migrations/m_0008_lower_animiality_nearest_priority.py:755-755). -/
def newText : Dict Key Nat :=
  [([], 0)]

/-- `NEW_CACHES[WORD_TYPE.PREPOSITION]` (utg/migrations/m_0008_lower_animiality_nearest_priority.py:756-758). -/
def newPreposition : Dict Key Nat :=
  [([some .PREPOSITION_FORM_NORMAL], 0),
   ([some .PREPOSITION_FORM_ALTERNATIVE], 1),
   ([some .PREPOSITION_FORM_SPECIAL], 2)]

/-- `NEW_CACHES` (utg/migrations/m_0008_lower_animiality_nearest_priority.py). -/
def newCaches : WordType → Dict Key Nat
  | .NOUN => newNoun
  | .ADJECTIVE => newAdjective
  | .PRONOUN => newPronoun
  | .VERB => newVerb
  | .PARTICIPLE => newParticiple
  | .INTEGER => newInteger
  | .TEXT => newText
  | .PREPOSITION => newPreposition

end Utg.M0008
