import Verif.Model.Migrations.Common
/-!
# The key tables of `utg/migrations/m_0007_reduce_words_forms.py`

Generated by `tools/gen_migrations.py` from the text of the source (regular expressions only), then read against it.
-/

namespace Utg.M0007
open Py

/-- `OLD_CACHES[WORD_TYPE.NOUN]` (utg/migrations/m_0007_reduce_words_forms.py:29-46). -/
def oldNoun : Dict Key Nat :=
  [([some .NOUN_FORM_NORMAL, some .NUMBER_SINGULAR, some .CASE_NOMINATIVE], 0),
   ([some .NOUN_FORM_NORMAL, some .NUMBER_SINGULAR, some .CASE_GENITIVE], 1),
   ([some .NOUN_FORM_NORMAL, some .NUMBER_SINGULAR, some .CASE_DATIVE], 2),
   ([some .NOUN_FORM_NORMAL, some .NUMBER_SINGULAR, some .CASE_ACCUSATIVE], 3),
   ([some .NOUN_FORM_NORMAL, some .NUMBER_SINGULAR, some .CASE_INSTRUMENTAL], 4),
   ([some .NOUN_FORM_NORMAL, some .NUMBER_SINGULAR, some .CASE_PREPOSITIONAL], 5),
   ([some .NOUN_FORM_NORMAL, some .NUMBER_PLURAL, some .CASE_NOMINATIVE], 6),
   ([some .NOUN_FORM_NORMAL, some .NUMBER_PLURAL, some .CASE_GENITIVE], 7),
   ([some .NOUN_FORM_NORMAL, some .NUMBER_PLURAL, some .CASE_DATIVE], 8),
   ([some .NOUN_FORM_NORMAL, some .NUMBER_PLURAL, some .CASE_ACCUSATIVE], 9),
   ([some .NOUN_FORM_NORMAL, some .NUMBER_PLURAL, some .CASE_INSTRUMENTAL], 10),
   ([some .NOUN_FORM_NORMAL, some .NUMBER_PLURAL, some .CASE_PREPOSITIONAL], 11),
   ([some .NOUN_FORM_COUNTABLE, some .NUMBER_PLURAL, some .CASE_NOMINATIVE], 12),
   ([some .NOUN_FORM_COUNTABLE, some .NUMBER_PLURAL, some .CASE_GENITIVE], 13),
   ([some .NOUN_FORM_COUNTABLE, some .NUMBER_PLURAL, some .CASE_DATIVE], 14),
   ([some .NOUN_FORM_COUNTABLE, some .NUMBER_PLURAL, some .CASE_ACCUSATIVE], 15),
   ([some .NOUN_FORM_COUNTABLE, some .NUMBER_PLURAL, some .CASE_INSTRUMENTAL], 16),
   ([some .NOUN_FORM_COUNTABLE, some .NUMBER_PLURAL, some .CASE_PREPOSITIONAL], 17)]

/-- `OLD_CACHES[WORD_TYPE.ADJECTIVE]` (utg/migrations/m_0007_reduce_words_forms.py:47-194). -/
def oldAdjective : Dict Key Nat :=
  [([some .ADJECTIVE_FORM_FULL, some .GRADE_POSITIVE, some .NUMBER_SINGULAR, some .CASE_NOMINATIVE, some .GENDER_MASCULINE, some .ANIMALITY_ANIMATE], 0),
   ([some .ADJECTIVE_FORM_FULL, some .GRADE_POSITIVE, some .NUMBER_SINGULAR, some .CASE_NOMINATIVE, some .GENDER_MASCULINE, some .ANIMALITY_INANIMATE], 3),
   ([some .ADJECTIVE_FORM_FULL, some .GRADE_POSITIVE, some .NUMBER_SINGULAR, some .CASE_NOMINATIVE, some .GENDER_NEUTER, some .ANIMALITY_ANIMATE], 6),
   ([some .ADJECTIVE_FORM_FULL, some .GRADE_POSITIVE, some .NUMBER_SINGULAR, some .CASE_NOMINATIVE, some .GENDER_NEUTER, some .ANIMALITY_INANIMATE], 9),
   ([some .ADJECTIVE_FORM_FULL, some .GRADE_POSITIVE, some .NUMBER_SINGULAR, some .CASE_NOMINATIVE, some .GENDER_FEMININE, some .ANIMALITY_ANIMATE], 12),
   ([some .ADJECTIVE_FORM_FULL, some .GRADE_POSITIVE, some .NUMBER_SINGULAR, some .CASE_NOMINATIVE, some .GENDER_FEMININE, some .ANIMALITY_INANIMATE], 15),
   ([some .ADJECTIVE_FORM_FULL, some .GRADE_POSITIVE, some .NUMBER_SINGULAR, some .CASE_GENITIVE, some .GENDER_MASCULINE, some .ANIMALITY_ANIMATE], 18),
   ([some .ADJECTIVE_FORM_FULL, some .GRADE_POSITIVE, some .NUMBER_SINGULAR, some .CASE_GENITIVE, some .GENDER_MASCULINE, some .ANIMALITY_INANIMATE], 21),
   ([some .ADJECTIVE_FORM_FULL, some .GRADE_POSITIVE, some .NUMBER_SINGULAR, some .CASE_GENITIVE, some .GENDER_NEUTER, some .ANIMALITY_ANIMATE], 24),
   ([some .ADJECTIVE_FORM_FULL, some .GRADE_POSITIVE, some .NUMBER_SINGULAR, some .CASE_GENITIVE, some .GENDER_NEUTER, some .ANIMALITY_INANIMATE], 27),
   ([some .ADJECTIVE_FORM_FULL, some .GRADE_POSITIVE, some .NUMBER_SINGULAR, some .CASE_GENITIVE, some .GENDER_FEMININE, some .ANIMALITY_ANIMATE], 30),
   ([some .ADJECTIVE_FORM_FULL, some .GRADE_POSITIVE, some .NUMBER_SINGULAR, some .CASE_GENITIVE, some .GENDER_FEMININE, some .ANIMALITY_INANIMATE], 33),
   ([some .ADJECTIVE_FORM_FULL, some .GRADE_POSITIVE, some .NUMBER_SINGULAR, some .CASE_DATIVE, some .GENDER_MASCULINE, some .ANIMALITY_ANIMATE], 36),
   ([some .ADJECTIVE_FORM_FULL, some .GRADE_POSITIVE, some .NUMBER_SINGULAR, some .CASE_DATIVE, some .GENDER_MASCULINE, some .ANIMALITY_INANIMATE], 39),
   ([some .ADJECTIVE_FORM_FULL, some .GRADE_POSITIVE, some .NUMBER_SINGULAR, some .CASE_DATIVE, some .GENDER_NEUTER, some .ANIMALITY_ANIMATE], 42),
   ([some .ADJECTIVE_FORM_FULL, some .GRADE_POSITIVE, some .NUMBER_SINGULAR, some .CASE_DATIVE, some .GENDER_NEUTER, some .ANIMALITY_INANIMATE], 45),
   ([some .ADJECTIVE_FORM_FULL, some .GRADE_POSITIVE, some .NUMBER_SINGULAR, some .CASE_DATIVE, some .GENDER_FEMININE, some .ANIMALITY_ANIMATE], 48),
   ([some .ADJECTIVE_FORM_FULL, some .GRADE_POSITIVE, some .NUMBER_SINGULAR, some .CASE_DATIVE, some .GENDER_FEMININE, some .ANIMALITY_INANIMATE], 51),
   ([some .ADJECTIVE_FORM_FULL, some .GRADE_POSITIVE, some .NUMBER_SINGULAR, some .CASE_ACCUSATIVE, some .GENDER_MASCULINE, some .ANIMALITY_ANIMATE], 54),
   ([some .ADJECTIVE_FORM_FULL, some .GRADE_POSITIVE, some .NUMBER_SINGULAR, some .CASE_ACCUSATIVE, some .GENDER_MASCULINE, some .ANIMALITY_INANIMATE], 57),
   ([some .ADJECTIVE_FORM_FULL, some .GRADE_POSITIVE, some .NUMBER_SINGULAR, some .CASE_ACCUSATIVE, some .GENDER_NEUTER, some .ANIMALITY_ANIMATE], 60),
   ([some .ADJECTIVE_FORM_FULL, some .GRADE_POSITIVE, some .NUMBER_SINGULAR, some .CASE_ACCUSATIVE, some .GENDER_NEUTER, some .ANIMALITY_INANIMATE], 63),
   ([some .ADJECTIVE_FORM_FULL, some .GRADE_POSITIVE, some .NUMBER_SINGULAR, some .CASE_ACCUSATIVE, some .GENDER_FEMININE, some .ANIMALITY_ANIMATE], 66),
   ([some .ADJECTIVE_FORM_FULL, some .GRADE_POSITIVE, some .NUMBER_SINGULAR, some .CASE_ACCUSATIVE, some .GENDER_FEMININE, some .ANIMALITY_INANIMATE], 69),
   ([some .ADJECTIVE_FORM_FULL, some .GRADE_POSITIVE, some .NUMBER_SINGULAR, some .CASE_INSTRUMENTAL, some .GENDER_MASCULINE, some .ANIMALITY_ANIMATE], 72),
   ([some .ADJECTIVE_FORM_FULL, some .GRADE_POSITIVE, some .NUMBER_SINGULAR, some .CASE_INSTRUMENTAL, some .GENDER_MASCULINE, some .ANIMALITY_INANIMATE], 75),
   ([some .ADJECTIVE_FORM_FULL, some .GRADE_POSITIVE, some .NUMBER_SINGULAR, some .CASE_INSTRUMENTAL, some .GENDER_NEUTER, some .ANIMALITY_ANIMATE], 78),
   ([some .ADJECTIVE_FORM_FULL, some .GRADE_POSITIVE, some .NUMBER_SINGULAR, some .CASE_INSTRUMENTAL, some .GENDER_NEUTER, some .ANIMALITY_INANIMATE], 81),
   ([some .ADJECTIVE_FORM_FULL, some .GRADE_POSITIVE, some .NUMBER_SINGULAR, some .CASE_INSTRUMENTAL, some .GENDER_FEMININE, some .ANIMALITY_ANIMATE], 84),
   ([some .ADJECTIVE_FORM_FULL, some .GRADE_POSITIVE, some .NUMBER_SINGULAR, some .CASE_INSTRUMENTAL, some .GENDER_FEMININE, some .ANIMALITY_INANIMATE], 87),
   ([some .ADJECTIVE_FORM_FULL, some .GRADE_POSITIVE, some .NUMBER_SINGULAR, some .CASE_PREPOSITIONAL, some .GENDER_MASCULINE, some .ANIMALITY_ANIMATE], 90),
   ([some .ADJECTIVE_FORM_FULL, some .GRADE_POSITIVE, some .NUMBER_SINGULAR, some .CASE_PREPOSITIONAL, some .GENDER_MASCULINE, some .ANIMALITY_INANIMATE], 93),
   ([some .ADJECTIVE_FORM_FULL, some .GRADE_POSITIVE, some .NUMBER_SINGULAR, some .CASE_PREPOSITIONAL, some .GENDER_NEUTER, some .ANIMALITY_ANIMATE], 96),
   ([some .ADJECTIVE_FORM_FULL, some .GRADE_POSITIVE, some .NUMBER_SINGULAR, some .CASE_PREPOSITIONAL, some .GENDER_NEUTER, some .ANIMALITY_INANIMATE], 99),
   ([some .ADJECTIVE_FORM_FULL, some .GRADE_POSITIVE, some .NUMBER_SINGULAR, some .CASE_PREPOSITIONAL, some .GENDER_FEMININE, some .ANIMALITY_ANIMATE], 102),
   ([some .ADJECTIVE_FORM_FULL, some .GRADE_POSITIVE, some .NUMBER_SINGULAR, some .CASE_PREPOSITIONAL, some .GENDER_FEMININE, some .ANIMALITY_INANIMATE], 105),
   ([some .ADJECTIVE_FORM_FULL, some .GRADE_POSITIVE, some .NUMBER_PLURAL, some .CASE_NOMINATIVE, none, some .ANIMALITY_ANIMATE], 108),
   ([some .ADJECTIVE_FORM_FULL, some .GRADE_POSITIVE, some .NUMBER_PLURAL, some .CASE_NOMINATIVE, none, some .ANIMALITY_INANIMATE], 111),
   ([some .ADJECTIVE_FORM_FULL, some .GRADE_POSITIVE, some .NUMBER_PLURAL, some .CASE_GENITIVE, none, some .ANIMALITY_ANIMATE], 114),
   ([some .ADJECTIVE_FORM_FULL, some .GRADE_POSITIVE, some .NUMBER_PLURAL, some .CASE_GENITIVE, none, some .ANIMALITY_INANIMATE], 117),
   ([some .ADJECTIVE_FORM_FULL, some .GRADE_POSITIVE, some .NUMBER_PLURAL, some .CASE_DATIVE, none, some .ANIMALITY_ANIMATE], 120),
   ([some .ADJECTIVE_FORM_FULL, some .GRADE_POSITIVE, some .NUMBER_PLURAL, some .CASE_DATIVE, none, some .ANIMALITY_INANIMATE], 123),
   ([some .ADJECTIVE_FORM_FULL, some .GRADE_POSITIVE, some .NUMBER_PLURAL, some .CASE_ACCUSATIVE, none, some .ANIMALITY_ANIMATE], 126),
   ([some .ADJECTIVE_FORM_FULL, some .GRADE_POSITIVE, some .NUMBER_PLURAL, some .CASE_ACCUSATIVE, none, some .ANIMALITY_INANIMATE], 129),
   ([some .ADJECTIVE_FORM_FULL, some .GRADE_POSITIVE, some .NUMBER_PLURAL, some .CASE_INSTRUMENTAL, none, some .ANIMALITY_ANIMATE], 132),
   ([some .ADJECTIVE_FORM_FULL, some .GRADE_POSITIVE, some .NUMBER_PLURAL, some .CASE_INSTRUMENTAL, none, some .ANIMALITY_INANIMATE], 135),
   ([some .ADJECTIVE_FORM_FULL, some .GRADE_POSITIVE, some .NUMBER_PLURAL, some .CASE_PREPOSITIONAL, none, some .ANIMALITY_ANIMATE], 138),
   ([some .ADJECTIVE_FORM_FULL, some .GRADE_POSITIVE, some .NUMBER_PLURAL, some .CASE_PREPOSITIONAL, none, some .ANIMALITY_INANIMATE], 141),
   ([some .ADJECTIVE_FORM_FULL, some .GRADE_COMPARATIVE, some .NUMBER_SINGULAR, some .CASE_NOMINATIVE, some .GENDER_MASCULINE, some .ANIMALITY_ANIMATE], 1),
   ([some .ADJECTIVE_FORM_FULL, some .GRADE_COMPARATIVE, some .NUMBER_SINGULAR, some .CASE_NOMINATIVE, some .GENDER_MASCULINE, some .ANIMALITY_INANIMATE], 4),
   ([some .ADJECTIVE_FORM_FULL, some .GRADE_COMPARATIVE, some .NUMBER_SINGULAR, some .CASE_NOMINATIVE, some .GENDER_NEUTER, some .ANIMALITY_ANIMATE], 7),
   ([some .ADJECTIVE_FORM_FULL, some .GRADE_COMPARATIVE, some .NUMBER_SINGULAR, some .CASE_NOMINATIVE, some .GENDER_NEUTER, some .ANIMALITY_INANIMATE], 10),
   ([some .ADJECTIVE_FORM_FULL, some .GRADE_COMPARATIVE, some .NUMBER_SINGULAR, some .CASE_NOMINATIVE, some .GENDER_FEMININE, some .ANIMALITY_ANIMATE], 13),
   ([some .ADJECTIVE_FORM_FULL, some .GRADE_COMPARATIVE, some .NUMBER_SINGULAR, some .CASE_NOMINATIVE, some .GENDER_FEMININE, some .ANIMALITY_INANIMATE], 16),
   ([some .ADJECTIVE_FORM_FULL, some .GRADE_COMPARATIVE, some .NUMBER_SINGULAR, some .CASE_GENITIVE, some .GENDER_MASCULINE, some .ANIMALITY_ANIMATE], 19),
   ([some .ADJECTIVE_FORM_FULL, some .GRADE_COMPARATIVE, some .NUMBER_SINGULAR, some .CASE_GENITIVE, some .GENDER_MASCULINE, some .ANIMALITY_INANIMATE], 22),
   ([some .ADJECTIVE_FORM_FULL, some .GRADE_COMPARATIVE, some .NUMBER_SINGULAR, some .CASE_GENITIVE, some .GENDER_NEUTER, some .ANIMALITY_ANIMATE], 25),
   ([some .ADJECTIVE_FORM_FULL, some .GRADE_COMPARATIVE, some .NUMBER_SINGULAR, some .CASE_GENITIVE, some .GENDER_NEUTER, some .ANIMALITY_INANIMATE], 28),
   ([some .ADJECTIVE_FORM_FULL, some .GRADE_COMPARATIVE, some .NUMBER_SINGULAR, some .CASE_GENITIVE, some .GENDER_FEMININE, some .ANIMALITY_ANIMATE], 31),
   ([some .ADJECTIVE_FORM_FULL, some .GRADE_COMPARATIVE, some .NUMBER_SINGULAR, some .CASE_GENITIVE, some .GENDER_FEMININE, some .ANIMALITY_INANIMATE], 34),
   ([some .ADJECTIVE_FORM_FULL, some .GRADE_COMPARATIVE, some .NUMBER_SINGULAR, some .CASE_DATIVE, some .GENDER_MASCULINE, some .ANIMALITY_ANIMATE], 37),
   ([some .ADJECTIVE_FORM_FULL, some .GRADE_COMPARATIVE, some .NUMBER_SINGULAR, some .CASE_DATIVE, some .GENDER_MASCULINE, some .ANIMALITY_INANIMATE], 40),
   ([some .ADJECTIVE_FORM_FULL, some .GRADE_COMPARATIVE, some .NUMBER_SINGULAR, some .CASE_DATIVE, some .GENDER_NEUTER, some .ANIMALITY_ANIMATE], 43),
   ([some .ADJECTIVE_FORM_FULL, some .GRADE_COMPARATIVE, some .NUMBER_SINGULAR, some .CASE_DATIVE, some .GENDER_NEUTER, some .ANIMALITY_INANIMATE], 46),
   ([some .ADJECTIVE_FORM_FULL, some .GRADE_COMPARATIVE, some .NUMBER_SINGULAR, some .CASE_DATIVE, some .GENDER_FEMININE, some .ANIMALITY_ANIMATE], 49),
   ([some .ADJECTIVE_FORM_FULL, some .GRADE_COMPARATIVE, some .NUMBER_SINGULAR, some .CASE_DATIVE, some .GENDER_FEMININE, some .ANIMALITY_INANIMATE], 52),
   ([some .ADJECTIVE_FORM_FULL, some .GRADE_COMPARATIVE, some .NUMBER_SINGULAR, some .CASE_ACCUSATIVE, some .GENDER_MASCULINE, some .ANIMALITY_ANIMATE], 55),
   ([some .ADJECTIVE_FORM_FULL, some .GRADE_COMPARATIVE, some .NUMBER_SINGULAR, some .CASE_ACCUSATIVE, some .GENDER_MASCULINE, some .ANIMALITY_INANIMATE], 58),
   ([some .ADJECTIVE_FORM_FULL, some .GRADE_COMPARATIVE, some .NUMBER_SINGULAR, some .CASE_ACCUSATIVE, some .GENDER_NEUTER, some .ANIMALITY_ANIMATE], 61),
   ([some .ADJECTIVE_FORM_FULL, some .GRADE_COMPARATIVE, some .NUMBER_SINGULAR, some .CASE_ACCUSATIVE, some .GENDER_NEUTER, some .ANIMALITY_INANIMATE], 64),
   ([some .ADJECTIVE_FORM_FULL, some .GRADE_COMPARATIVE, some .NUMBER_SINGULAR, some .CASE_ACCUSATIVE, some .GENDER_FEMININE, some .ANIMALITY_ANIMATE], 67),
   ([some .ADJECTIVE_FORM_FULL, some .GRADE_COMPARATIVE, some .NUMBER_SINGULAR, some .CASE_ACCUSATIVE, some .GENDER_FEMININE, some .ANIMALITY_INANIMATE], 70),
   ([some .ADJECTIVE_FORM_FULL, some .GRADE_COMPARATIVE, some .NUMBER_SINGULAR, some .CASE_INSTRUMENTAL, some .GENDER_MASCULINE, some .ANIMALITY_ANIMATE], 73),
   ([some .ADJECTIVE_FORM_FULL, some .GRADE_COMPARATIVE, some .NUMBER_SINGULAR, some .CASE_INSTRUMENTAL, some .GENDER_MASCULINE, some .ANIMALITY_INANIMATE], 76),
   ([some .ADJECTIVE_FORM_FULL, some .GRADE_COMPARATIVE, some .NUMBER_SINGULAR, some .CASE_INSTRUMENTAL, some .GENDER_NEUTER, some .ANIMALITY_ANIMATE], 79),
   ([some .ADJECTIVE_FORM_FULL, some .GRADE_COMPARATIVE, some .NUMBER_SINGULAR, some .CASE_INSTRUMENTAL, some .GENDER_NEUTER, some .ANIMALITY_INANIMATE], 82),
   ([some .ADJECTIVE_FORM_FULL, some .GRADE_COMPARATIVE, some .NUMBER_SINGULAR, some .CASE_INSTRUMENTAL, some .GENDER_FEMININE, some .ANIMALITY_ANIMATE], 85),
   ([some .ADJECTIVE_FORM_FULL, some .GRADE_COMPARATIVE, some .NUMBER_SINGULAR, some .CASE_INSTRUMENTAL, some .GENDER_FEMININE, some .ANIMALITY_INANIMATE], 88),
   ([some .ADJECTIVE_FORM_FULL, some .GRADE_COMPARATIVE, some .NUMBER_SINGULAR, some .CASE_PREPOSITIONAL, some .GENDER_MASCULINE, some .ANIMALITY_ANIMATE], 91),
   ([some .ADJECTIVE_FORM_FULL, some .GRADE_COMPARATIVE, some .NUMBER_SINGULAR, some .CASE_PREPOSITIONAL, some .GENDER_MASCULINE, some .ANIMALITY_INANIMATE], 94),
   ([some .ADJECTIVE_FORM_FULL, some .GRADE_COMPARATIVE, some .NUMBER_SINGULAR, some .CASE_PREPOSITIONAL, some .GENDER_NEUTER, some .ANIMALITY_ANIMATE], 97),
   ([some .ADJECTIVE_FORM_FULL, some .GRADE_COMPARATIVE, some .NUMBER_SINGULAR, some .CASE_PREPOSITIONAL, some .GENDER_NEUTER, some .ANIMALITY_INANIMATE], 100),
   ([some .ADJECTIVE_FORM_FULL, some .GRADE_COMPARATIVE, some .NUMBER_SINGULAR, some .CASE_PREPOSITIONAL, some .GENDER_FEMININE, some .ANIMALITY_ANIMATE], 103),
   ([some .ADJECTIVE_FORM_FULL, some .GRADE_COMPARATIVE, some .NUMBER_SINGULAR, some .CASE_PREPOSITIONAL, some .GENDER_FEMININE, some .ANIMALITY_INANIMATE], 106),
   ([some .ADJECTIVE_FORM_FULL, some .GRADE_COMPARATIVE, some .NUMBER_PLURAL, some .CASE_NOMINATIVE, none, some .ANIMALITY_ANIMATE], 109),
   ([some .ADJECTIVE_FORM_FULL, some .GRADE_COMPARATIVE, some .NUMBER_PLURAL, some .CASE_NOMINATIVE, none, some .ANIMALITY_INANIMATE], 112),
   ([some .ADJECTIVE_FORM_FULL, some .GRADE_COMPARATIVE, some .NUMBER_PLURAL, some .CASE_GENITIVE, none, some .ANIMALITY_ANIMATE], 115),
   ([some .ADJECTIVE_FORM_FULL, some .GRADE_COMPARATIVE, some .NUMBER_PLURAL, some .CASE_GENITIVE, none, some .ANIMALITY_INANIMATE], 118),
   ([some .ADJECTIVE_FORM_FULL, some .GRADE_COMPARATIVE, some .NUMBER_PLURAL, some .CASE_DATIVE, none, some .ANIMALITY_ANIMATE], 121),
   ([some .ADJECTIVE_FORM_FULL, some .GRADE_COMPARATIVE, some .NUMBER_PLURAL, some .CASE_DATIVE, none, some .ANIMALITY_INANIMATE], 124),
   ([some .ADJECTIVE_FORM_FULL, some .GRADE_COMPARATIVE, some .NUMBER_PLURAL, some .CASE_ACCUSATIVE, none, some .ANIMALITY_ANIMATE], 127),
   ([some .ADJECTIVE_FORM_FULL, some .GRADE_COMPARATIVE, some .NUMBER_PLURAL, some .CASE_ACCUSATIVE, none, some .ANIMALITY_INANIMATE], 130),
   ([some .ADJECTIVE_FORM_FULL, some .GRADE_COMPARATIVE, some .NUMBER_PLURAL, some .CASE_INSTRUMENTAL, none, some .ANIMALITY_ANIMATE], 133),
   ([some .ADJECTIVE_FORM_FULL, some .GRADE_COMPARATIVE, some .NUMBER_PLURAL, some .CASE_INSTRUMENTAL, none, some .ANIMALITY_INANIMATE], 136),
   ([some .ADJECTIVE_FORM_FULL, some .GRADE_COMPARATIVE, some .NUMBER_PLURAL, some .CASE_PREPOSITIONAL, none, some .ANIMALITY_ANIMATE], 139),
   ([some .ADJECTIVE_FORM_FULL, some .GRADE_COMPARATIVE, some .NUMBER_PLURAL, some .CASE_PREPOSITIONAL, none, some .ANIMALITY_INANIMATE], 142),
   ([some .ADJECTIVE_FORM_FULL, some .GRADE_SUPERLATIVE, some .NUMBER_SINGULAR, some .CASE_NOMINATIVE, some .GENDER_MASCULINE, some .ANIMALITY_ANIMATE], 2),
   ([some .ADJECTIVE_FORM_FULL, some .GRADE_SUPERLATIVE, some .NUMBER_SINGULAR, some .CASE_NOMINATIVE, some .GENDER_MASCULINE, some .ANIMALITY_INANIMATE], 5),
   ([some .ADJECTIVE_FORM_FULL, some .GRADE_SUPERLATIVE, some .NUMBER_SINGULAR, some .CASE_NOMINATIVE, some .GENDER_NEUTER, some .ANIMALITY_ANIMATE], 8),
   ([some .ADJECTIVE_FORM_FULL, some .GRADE_SUPERLATIVE, some .NUMBER_SINGULAR, some .CASE_NOMINATIVE, some .GENDER_NEUTER, some .ANIMALITY_INANIMATE], 11),
   ([some .ADJECTIVE_FORM_FULL, some .GRADE_SUPERLATIVE, some .NUMBER_SINGULAR, some .CASE_NOMINATIVE, some .GENDER_FEMININE, some .ANIMALITY_ANIMATE], 14),
   ([some .ADJECTIVE_FORM_FULL, some .GRADE_SUPERLATIVE, some .NUMBER_SINGULAR, some .CASE_NOMINATIVE, some .GENDER_FEMININE, some .ANIMALITY_INANIMATE], 17),
   ([some .ADJECTIVE_FORM_FULL, some .GRADE_SUPERLATIVE, some .NUMBER_SINGULAR, some .CASE_GENITIVE, some .GENDER_MASCULINE, some .ANIMALITY_ANIMATE], 20),
   ([some .ADJECTIVE_FORM_FULL, some .GRADE_SUPERLATIVE, some .NUMBER_SINGULAR, some .CASE_GENITIVE, some .GENDER_MASCULINE, some .ANIMALITY_INANIMATE], 23),
   ([some .ADJECTIVE_FORM_FULL, some .GRADE_SUPERLATIVE, some .NUMBER_SINGULAR, some .CASE_GENITIVE, some .GENDER_NEUTER, some .ANIMALITY_ANIMATE], 26),
   ([some .ADJECTIVE_FORM_FULL, some .GRADE_SUPERLATIVE, some .NUMBER_SINGULAR, some .CASE_GENITIVE, some .GENDER_NEUTER, some .ANIMALITY_INANIMATE], 29),
   ([some .ADJECTIVE_FORM_FULL, some .GRADE_SUPERLATIVE, some .NUMBER_SINGULAR, some .CASE_GENITIVE, some .GENDER_FEMININE, some .ANIMALITY_ANIMATE], 32),
   ([some .ADJECTIVE_FORM_FULL, some .GRADE_SUPERLATIVE, some .NUMBER_SINGULAR, some .CASE_GENITIVE, some .GENDER_FEMININE, some .ANIMALITY_INANIMATE], 35),
   ([some .ADJECTIVE_FORM_FULL, some .GRADE_SUPERLATIVE, some .NUMBER_SINGULAR, some .CASE_DATIVE, some .GENDER_MASCULINE, some .ANIMALITY_ANIMATE], 38),
   ([some .ADJECTIVE_FORM_FULL, some .GRADE_SUPERLATIVE, some .NUMBER_SINGULAR, some .CASE_DATIVE, some .GENDER_MASCULINE, some .ANIMALITY_INANIMATE], 41),
   ([some .ADJECTIVE_FORM_FULL, some .GRADE_SUPERLATIVE, some .NUMBER_SINGULAR, some .CASE_DATIVE, some .GENDER_NEUTER, some .ANIMALITY_ANIMATE], 44),
   ([some .ADJECTIVE_FORM_FULL, some .GRADE_SUPERLATIVE, some .NUMBER_SINGULAR, some .CASE_DATIVE, some .GENDER_NEUTER, some .ANIMALITY_INANIMATE], 47),
   ([some .ADJECTIVE_FORM_FULL, some .GRADE_SUPERLATIVE, some .NUMBER_SINGULAR, some .CASE_DATIVE, some .GENDER_FEMININE, some .ANIMALITY_ANIMATE], 50),
   ([some .ADJECTIVE_FORM_FULL, some .GRADE_SUPERLATIVE, some .NUMBER_SINGULAR, some .CASE_DATIVE, some .GENDER_FEMININE, some .ANIMALITY_INANIMATE], 53),
   ([some .ADJECTIVE_FORM_FULL, some .GRADE_SUPERLATIVE, some .NUMBER_SINGULAR, some .CASE_ACCUSATIVE, some .GENDER_MASCULINE, some .ANIMALITY_ANIMATE], 56),
   ([some .ADJECTIVE_FORM_FULL, some .GRADE_SUPERLATIVE, some .NUMBER_SINGULAR, some .CASE_ACCUSATIVE, some .GENDER_MASCULINE, some .ANIMALITY_INANIMATE], 59),
   ([some .ADJECTIVE_FORM_FULL, some .GRADE_SUPERLATIVE, some .NUMBER_SINGULAR, some .CASE_ACCUSATIVE, some .GENDER_NEUTER, some .ANIMALITY_ANIMATE], 62),
   ([some .ADJECTIVE_FORM_FULL, some .GRADE_SUPERLATIVE, some .NUMBER_SINGULAR, some .CASE_ACCUSATIVE, some .GENDER_NEUTER, some .ANIMALITY_INANIMATE], 65),
   ([some .ADJECTIVE_FORM_FULL, some .GRADE_SUPERLATIVE, some .NUMBER_SINGULAR, some .CASE_ACCUSATIVE, some .GENDER_FEMININE, some .ANIMALITY_ANIMATE], 68),
   ([some .ADJECTIVE_FORM_FULL, some .GRADE_SUPERLATIVE, some .NUMBER_SINGULAR, some .CASE_ACCUSATIVE, some .GENDER_FEMININE, some .ANIMALITY_INANIMATE], 71),
   ([some .ADJECTIVE_FORM_FULL, some .GRADE_SUPERLATIVE, some .NUMBER_SINGULAR, some .CASE_INSTRUMENTAL, some .GENDER_MASCULINE, some .ANIMALITY_ANIMATE], 74),
   ([some .ADJECTIVE_FORM_FULL, some .GRADE_SUPERLATIVE, some .NUMBER_SINGULAR, some .CASE_INSTRUMENTAL, some .GENDER_MASCULINE, some .ANIMALITY_INANIMATE], 77),
   ([some .ADJECTIVE_FORM_FULL, some .GRADE_SUPERLATIVE, some .NUMBER_SINGULAR, some .CASE_INSTRUMENTAL, some .GENDER_NEUTER, some .ANIMALITY_ANIMATE], 80),
   ([some .ADJECTIVE_FORM_FULL, some .GRADE_SUPERLATIVE, some .NUMBER_SINGULAR, some .CASE_INSTRUMENTAL, some .GENDER_NEUTER, some .ANIMALITY_INANIMATE], 83),
   ([some .ADJECTIVE_FORM_FULL, some .GRADE_SUPERLATIVE, some .NUMBER_SINGULAR, some .CASE_INSTRUMENTAL, some .GENDER_FEMININE, some .ANIMALITY_ANIMATE], 86),
   ([some .ADJECTIVE_FORM_FULL, some .GRADE_SUPERLATIVE, some .NUMBER_SINGULAR, some .CASE_INSTRUMENTAL, some .GENDER_FEMININE, some .ANIMALITY_INANIMATE], 89),
   ([some .ADJECTIVE_FORM_FULL, some .GRADE_SUPERLATIVE, some .NUMBER_SINGULAR, some .CASE_PREPOSITIONAL, some .GENDER_MASCULINE, some .ANIMALITY_ANIMATE], 92),
   ([some .ADJECTIVE_FORM_FULL, some .GRADE_SUPERLATIVE, some .NUMBER_SINGULAR, some .CASE_PREPOSITIONAL, some .GENDER_MASCULINE, some .ANIMALITY_INANIMATE], 95),
   ([some .ADJECTIVE_FORM_FULL, some .GRADE_SUPERLATIVE, some .NUMBER_SINGULAR, some .CASE_PREPOSITIONAL, some .GENDER_NEUTER, some .ANIMALITY_ANIMATE], 98),
   ([some .ADJECTIVE_FORM_FULL, some .GRADE_SUPERLATIVE, some .NUMBER_SINGULAR, some .CASE_PREPOSITIONAL, some .GENDER_NEUTER, some .ANIMALITY_INANIMATE], 101),
   ([some .ADJECTIVE_FORM_FULL, some .GRADE_SUPERLATIVE, some .NUMBER_SINGULAR, some .CASE_PREPOSITIONAL, some .GENDER_FEMININE, some .ANIMALITY_ANIMATE], 104),
   ([some .ADJECTIVE_FORM_FULL, some .GRADE_SUPERLATIVE, some .NUMBER_SINGULAR, some .CASE_PREPOSITIONAL, some .GENDER_FEMININE, some .ANIMALITY_INANIMATE], 107),
   ([some .ADJECTIVE_FORM_FULL, some .GRADE_SUPERLATIVE, some .NUMBER_PLURAL, some .CASE_NOMINATIVE, none, some .ANIMALITY_ANIMATE], 110),
   ([some .ADJECTIVE_FORM_FULL, some .GRADE_SUPERLATIVE, some .NUMBER_PLURAL, some .CASE_NOMINATIVE, none, some .ANIMALITY_INANIMATE], 113),
   ([some .ADJECTIVE_FORM_FULL, some .GRADE_SUPERLATIVE, some .NUMBER_PLURAL, some .CASE_GENITIVE, none, some .ANIMALITY_ANIMATE], 116),
   ([some .ADJECTIVE_FORM_FULL, some .GRADE_SUPERLATIVE, some .NUMBER_PLURAL, some .CASE_GENITIVE, none, some .ANIMALITY_INANIMATE], 119),
   ([some .ADJECTIVE_FORM_FULL, some .GRADE_SUPERLATIVE, some .NUMBER_PLURAL, some .CASE_DATIVE, none, some .ANIMALITY_ANIMATE], 122),
   ([some .ADJECTIVE_FORM_FULL, some .GRADE_SUPERLATIVE, some .NUMBER_PLURAL, some .CASE_DATIVE, none, some .ANIMALITY_INANIMATE], 125),
   ([some .ADJECTIVE_FORM_FULL, some .GRADE_SUPERLATIVE, some .NUMBER_PLURAL, some .CASE_ACCUSATIVE, none, some .ANIMALITY_ANIMATE], 128),
   ([some .ADJECTIVE_FORM_FULL, some .GRADE_SUPERLATIVE, some .NUMBER_PLURAL, some .CASE_ACCUSATIVE, none, some .ANIMALITY_INANIMATE], 131),
   ([some .ADJECTIVE_FORM_FULL, some .GRADE_SUPERLATIVE, some .NUMBER_PLURAL, some .CASE_INSTRUMENTAL, none, some .ANIMALITY_ANIMATE], 134),
   ([some .ADJECTIVE_FORM_FULL, some .GRADE_SUPERLATIVE, some .NUMBER_PLURAL, some .CASE_INSTRUMENTAL, none, some .ANIMALITY_INANIMATE], 137),
   ([some .ADJECTIVE_FORM_FULL, some .GRADE_SUPERLATIVE, some .NUMBER_PLURAL, some .CASE_PREPOSITIONAL, none, some .ANIMALITY_ANIMATE], 140),
   ([some .ADJECTIVE_FORM_FULL, some .GRADE_SUPERLATIVE, some .NUMBER_PLURAL, some .CASE_PREPOSITIONAL, none, some .ANIMALITY_INANIMATE], 143),
   ([some .ADJECTIVE_FORM_SHORT, none, some .NUMBER_SINGULAR, none, some .GENDER_MASCULINE, none], 144),
   ([some .ADJECTIVE_FORM_SHORT, none, some .NUMBER_SINGULAR, none, some .GENDER_NEUTER, none], 145),
   ([some .ADJECTIVE_FORM_SHORT, none, some .NUMBER_SINGULAR, none, some .GENDER_FEMININE, none], 146),
   ([some .ADJECTIVE_FORM_SHORT, none, some .NUMBER_PLURAL, none, none, none], 147)]

/-- `OLD_CACHES[WORD_TYPE.PRONOUN]` (utg/migrations/m_0007_reduce_words_forms.py:195-266). -/
def oldPronoun : Dict Key Nat :=
  [([some .NUMBER_SINGULAR, some .CASE_NOMINATIVE, some .PERSON_FIRST, some .GENDER_MASCULINE], 0),
   ([some .NUMBER_SINGULAR, some .CASE_NOMINATIVE, some .PERSON_FIRST, some .GENDER_NEUTER], 1),
   ([some .NUMBER_SINGULAR, some .CASE_NOMINATIVE, some .PERSON_FIRST, some .GENDER_FEMININE], 2),
   ([some .NUMBER_SINGULAR, some .CASE_NOMINATIVE, some .PERSON_SECOND, some .GENDER_MASCULINE], 3),
   ([some .NUMBER_SINGULAR, some .CASE_NOMINATIVE, some .PERSON_SECOND, some .GENDER_NEUTER], 4),
   ([some .NUMBER_SINGULAR, some .CASE_NOMINATIVE, some .PERSON_SECOND, some .GENDER_FEMININE], 5),
   ([some .NUMBER_SINGULAR, some .CASE_NOMINATIVE, some .PERSON_THIRD, some .GENDER_MASCULINE], 6),
   ([some .NUMBER_SINGULAR, some .CASE_NOMINATIVE, some .PERSON_THIRD, some .GENDER_NEUTER], 7),
   ([some .NUMBER_SINGULAR, some .CASE_NOMINATIVE, some .PERSON_THIRD, some .GENDER_FEMININE], 8),
   ([some .NUMBER_SINGULAR, some .CASE_GENITIVE, some .PERSON_FIRST, some .GENDER_MASCULINE], 9),
   ([some .NUMBER_SINGULAR, some .CASE_GENITIVE, some .PERSON_FIRST, some .GENDER_NEUTER], 10),
   ([some .NUMBER_SINGULAR, some .CASE_GENITIVE, some .PERSON_FIRST, some .GENDER_FEMININE], 11),
   ([some .NUMBER_SINGULAR, some .CASE_GENITIVE, some .PERSON_SECOND, some .GENDER_MASCULINE], 12),
   ([some .NUMBER_SINGULAR, some .CASE_GENITIVE, some .PERSON_SECOND, some .GENDER_NEUTER], 13),
   ([some .NUMBER_SINGULAR, some .CASE_GENITIVE, some .PERSON_SECOND, some .GENDER_FEMININE], 14),
   ([some .NUMBER_SINGULAR, some .CASE_GENITIVE, some .PERSON_THIRD, some .GENDER_MASCULINE], 15),
   ([some .NUMBER_SINGULAR, some .CASE_GENITIVE, some .PERSON_THIRD, some .GENDER_NEUTER], 16),
   ([some .NUMBER_SINGULAR, some .CASE_GENITIVE, some .PERSON_THIRD, some .GENDER_FEMININE], 17),
   ([some .NUMBER_SINGULAR, some .CASE_DATIVE, some .PERSON_FIRST, some .GENDER_MASCULINE], 18),
   ([some .NUMBER_SINGULAR, some .CASE_DATIVE, some .PERSON_FIRST, some .GENDER_NEUTER], 19),
   ([some .NUMBER_SINGULAR, some .CASE_DATIVE, some .PERSON_FIRST, some .GENDER_FEMININE], 20),
   ([some .NUMBER_SINGULAR, some .CASE_DATIVE, some .PERSON_SECOND, some .GENDER_MASCULINE], 21),
   ([some .NUMBER_SINGULAR, some .CASE_DATIVE, some .PERSON_SECOND, some .GENDER_NEUTER], 22),
   ([some .NUMBER_SINGULAR, some .CASE_DATIVE, some .PERSON_SECOND, some .GENDER_FEMININE], 23),
   ([some .NUMBER_SINGULAR, some .CASE_DATIVE, some .PERSON_THIRD, some .GENDER_MASCULINE], 24),
   ([some .NUMBER_SINGULAR, some .CASE_DATIVE, some .PERSON_THIRD, some .GENDER_NEUTER], 25),
   ([some .NUMBER_SINGULAR, some .CASE_DATIVE, some .PERSON_THIRD, some .GENDER_FEMININE], 26),
   ([some .NUMBER_SINGULAR, some .CASE_ACCUSATIVE, some .PERSON_FIRST, some .GENDER_MASCULINE], 27),
   ([some .NUMBER_SINGULAR, some .CASE_ACCUSATIVE, some .PERSON_FIRST, some .GENDER_NEUTER], 28),
   ([some .NUMBER_SINGULAR, some .CASE_ACCUSATIVE, some .PERSON_FIRST, some .GENDER_FEMININE], 29),
   ([some .NUMBER_SINGULAR, some .CASE_ACCUSATIVE, some .PERSON_SECOND, some .GENDER_MASCULINE], 30),
   ([some .NUMBER_SINGULAR, some .CASE_ACCUSATIVE, some .PERSON_SECOND, some .GENDER_NEUTER], 31),
   ([some .NUMBER_SINGULAR, some .CASE_ACCUSATIVE, some .PERSON_SECOND, some .GENDER_FEMININE], 32),
   ([some .NUMBER_SINGULAR, some .CASE_ACCUSATIVE, some .PERSON_THIRD, some .GENDER_MASCULINE], 33),
   ([some .NUMBER_SINGULAR, some .CASE_ACCUSATIVE, some .PERSON_THIRD, some .GENDER_NEUTER], 34),
   ([some .NUMBER_SINGULAR, some .CASE_ACCUSATIVE, some .PERSON_THIRD, some .GENDER_FEMININE], 35),
   ([some .NUMBER_SINGULAR, some .CASE_INSTRUMENTAL, some .PERSON_FIRST, some .GENDER_MASCULINE], 36),
   ([some .NUMBER_SINGULAR, some .CASE_INSTRUMENTAL, some .PERSON_FIRST, some .GENDER_NEUTER], 37),
   ([some .NUMBER_SINGULAR, some .CASE_INSTRUMENTAL, some .PERSON_FIRST, some .GENDER_FEMININE], 38),
   ([some .NUMBER_SINGULAR, some .CASE_INSTRUMENTAL, some .PERSON_SECOND, some .GENDER_MASCULINE], 39),
   ([some .NUMBER_SINGULAR, some .CASE_INSTRUMENTAL, some .PERSON_SECOND, some .GENDER_NEUTER], 40),
   ([some .NUMBER_SINGULAR, some .CASE_INSTRUMENTAL, some .PERSON_SECOND, some .GENDER_FEMININE], 41),
   ([some .NUMBER_SINGULAR, some .CASE_INSTRUMENTAL, some .PERSON_THIRD, some .GENDER_MASCULINE], 42),
   ([some .NUMBER_SINGULAR, some .CASE_INSTRUMENTAL, some .PERSON_THIRD, some .GENDER_NEUTER], 43),
   ([some .NUMBER_SINGULAR, some .CASE_INSTRUMENTAL, some .PERSON_THIRD, some .GENDER_FEMININE], 44),
   ([some .NUMBER_SINGULAR, some .CASE_PREPOSITIONAL, some .PERSON_FIRST, some .GENDER_MASCULINE], 45),
   ([some .NUMBER_SINGULAR, some .CASE_PREPOSITIONAL, some .PERSON_FIRST, some .GENDER_NEUTER], 46),
   ([some .NUMBER_SINGULAR, some .CASE_PREPOSITIONAL, some .PERSON_FIRST, some .GENDER_FEMININE], 47),
   ([some .NUMBER_SINGULAR, some .CASE_PREPOSITIONAL, some .PERSON_SECOND, some .GENDER_MASCULINE], 48),
   ([some .NUMBER_SINGULAR, some .CASE_PREPOSITIONAL, some .PERSON_SECOND, some .GENDER_NEUTER], 49),
   ([some .NUMBER_SINGULAR, some .CASE_PREPOSITIONAL, some .PERSON_SECOND, some .GENDER_FEMININE], 50),
   ([some .NUMBER_SINGULAR, some .CASE_PREPOSITIONAL, some .PERSON_THIRD, some .GENDER_MASCULINE], 51),
   ([some .NUMBER_SINGULAR, some .CASE_PREPOSITIONAL, some .PERSON_THIRD, some .GENDER_NEUTER], 52),
   ([some .NUMBER_SINGULAR, some .CASE_PREPOSITIONAL, some .PERSON_THIRD, some .GENDER_FEMININE], 53),
   ([some .NUMBER_PLURAL, some .CASE_NOMINATIVE, some .PERSON_FIRST, none], 54),
   ([some .NUMBER_PLURAL, some .CASE_NOMINATIVE, some .PERSON_SECOND, none], 55),
   ([some .NUMBER_PLURAL, some .CASE_NOMINATIVE, some .PERSON_THIRD, none], 56),
   ([some .NUMBER_PLURAL, some .CASE_GENITIVE, some .PERSON_FIRST, none], 57),
   ([some .NUMBER_PLURAL, some .CASE_GENITIVE, some .PERSON_SECOND, none], 58),
   ([some .NUMBER_PLURAL, some .CASE_GENITIVE, some .PERSON_THIRD, none], 59),
   ([some .NUMBER_PLURAL, some .CASE_DATIVE, some .PERSON_FIRST, none], 60),
   ([some .NUMBER_PLURAL, some .CASE_DATIVE, some .PERSON_SECOND, none], 61),
   ([some .NUMBER_PLURAL, some .CASE_DATIVE, some .PERSON_THIRD, none], 62),
   ([some .NUMBER_PLURAL, some .CASE_ACCUSATIVE, some .PERSON_FIRST, none], 63),
   ([some .NUMBER_PLURAL, some .CASE_ACCUSATIVE, some .PERSON_SECOND, none], 64),
   ([some .NUMBER_PLURAL, some .CASE_ACCUSATIVE, some .PERSON_THIRD, none], 65),
   ([some .NUMBER_PLURAL, some .CASE_INSTRUMENTAL, some .PERSON_FIRST, none], 66),
   ([some .NUMBER_PLURAL, some .CASE_INSTRUMENTAL, some .PERSON_SECOND, none], 67),
   ([some .NUMBER_PLURAL, some .CASE_INSTRUMENTAL, some .PERSON_THIRD, none], 68),
   ([some .NUMBER_PLURAL, some .CASE_PREPOSITIONAL, some .PERSON_FIRST, none], 69),
   ([some .NUMBER_PLURAL, some .CASE_PREPOSITIONAL, some .PERSON_SECOND, none], 70),
   ([some .NUMBER_PLURAL, some .CASE_PREPOSITIONAL, some .PERSON_THIRD, none], 71)]

/-- `OLD_CACHES[WORD_TYPE.VERB]` (utg/migrations/m_0007_reduce_words_forms.py:267-293). -/
def oldVerb : Dict Key Nat :=
  [([some .VERB_FORM_INFINITIVE, none, none, none, none], 0),
   ([some .VERB_FORM_INDICATIVE, some .TIME_PAST, some .NUMBER_SINGULAR, none, some .GENDER_MASCULINE], 1),
   ([some .VERB_FORM_INDICATIVE, some .TIME_PAST, some .NUMBER_SINGULAR, none, some .GENDER_NEUTER], 2),
   ([some .VERB_FORM_INDICATIVE, some .TIME_PAST, some .NUMBER_SINGULAR, none, some .GENDER_FEMININE], 3),
   ([some .VERB_FORM_INDICATIVE, some .TIME_PAST, some .NUMBER_PLURAL, none, none], 4),
   ([some .VERB_FORM_INDICATIVE, some .TIME_PRESENT, some .NUMBER_SINGULAR, some .PERSON_FIRST, none], 5),
   ([some .VERB_FORM_INDICATIVE, some .TIME_PRESENT, some .NUMBER_SINGULAR, some .PERSON_SECOND, none], 6),
   ([some .VERB_FORM_INDICATIVE, some .TIME_PRESENT, some .NUMBER_SINGULAR, some .PERSON_THIRD, none], 7),
   ([some .VERB_FORM_INDICATIVE, some .TIME_PRESENT, some .NUMBER_PLURAL, some .PERSON_FIRST, none], 8),
   ([some .VERB_FORM_INDICATIVE, some .TIME_PRESENT, some .NUMBER_PLURAL, some .PERSON_SECOND, none], 9),
   ([some .VERB_FORM_INDICATIVE, some .TIME_PRESENT, some .NUMBER_PLURAL, some .PERSON_THIRD, none], 10),
   ([some .VERB_FORM_INDICATIVE, some .TIME_FUTURE, some .NUMBER_SINGULAR, some .PERSON_FIRST, none], 11),
   ([some .VERB_FORM_INDICATIVE, some .TIME_FUTURE, some .NUMBER_SINGULAR, some .PERSON_SECOND, none], 12),
   ([some .VERB_FORM_INDICATIVE, some .TIME_FUTURE, some .NUMBER_SINGULAR, some .PERSON_THIRD, none], 13),
   ([some .VERB_FORM_INDICATIVE, some .TIME_FUTURE, some .NUMBER_PLURAL, some .PERSON_FIRST, none], 14),
   ([some .VERB_FORM_INDICATIVE, some .TIME_FUTURE, some .NUMBER_PLURAL, some .PERSON_SECOND, none], 15),
   ([some .VERB_FORM_INDICATIVE, some .TIME_FUTURE, some .NUMBER_PLURAL, some .PERSON_THIRD, none], 16),
   ([some .VERB_FORM_IMPERATIVE, none, some .NUMBER_SINGULAR, some .PERSON_FIRST, none], 21),
   ([some .VERB_FORM_IMPERATIVE, none, some .NUMBER_SINGULAR, some .PERSON_SECOND, none], 22),
   ([some .VERB_FORM_IMPERATIVE, none, some .NUMBER_SINGULAR, some .PERSON_THIRD, none], 23),
   ([some .VERB_FORM_IMPERATIVE, none, some .NUMBER_PLURAL, some .PERSON_FIRST, none], 24),
   ([some .VERB_FORM_IMPERATIVE, none, some .NUMBER_PLURAL, some .PERSON_SECOND, none], 25),
   ([some .VERB_FORM_IMPERATIVE, none, some .NUMBER_PLURAL, some .PERSON_THIRD, none], 26)]

/-- `OLD_CACHES[WORD_TYPE.PARTICIPLE]` (utg/migrations/m_0007_reduce_words_forms.py:294-585), all items of the dictionary literal. -/
def oldParticipleItems : List (Key × Nat) :=
  [([some .PARTICIPLE_FORM_FULL, some .TIME_PAST, some .NUMBER_SINGULAR, some .CASE_NOMINATIVE, some .GENDER_MASCULINE, some .ANIMALITY_ANIMATE], 0),
   ([some .PARTICIPLE_FORM_FULL, some .TIME_PAST, some .NUMBER_SINGULAR, some .CASE_NOMINATIVE, some .GENDER_MASCULINE, some .ANIMALITY_INANIMATE], 1),
   ([some .PARTICIPLE_FORM_FULL, some .TIME_PAST, some .NUMBER_SINGULAR, some .CASE_NOMINATIVE, some .GENDER_NEUTER, some .ANIMALITY_ANIMATE], 2),
   ([some .PARTICIPLE_FORM_FULL, some .TIME_PAST, some .NUMBER_SINGULAR, some .CASE_NOMINATIVE, some .GENDER_NEUTER, some .ANIMALITY_INANIMATE], 3),
   ([some .PARTICIPLE_FORM_FULL, some .TIME_PAST, some .NUMBER_SINGULAR, some .CASE_NOMINATIVE, some .GENDER_FEMININE, some .ANIMALITY_ANIMATE], 4),
   ([some .PARTICIPLE_FORM_FULL, some .TIME_PAST, some .NUMBER_SINGULAR, some .CASE_NOMINATIVE, some .GENDER_FEMININE, some .ANIMALITY_INANIMATE], 5),
   ([some .PARTICIPLE_FORM_FULL, some .TIME_PAST, some .NUMBER_SINGULAR, some .CASE_GENITIVE, some .GENDER_MASCULINE, some .ANIMALITY_ANIMATE], 6),
   ([some .PARTICIPLE_FORM_FULL, some .TIME_PAST, some .NUMBER_SINGULAR, some .CASE_GENITIVE, some .GENDER_MASCULINE, some .ANIMALITY_INANIMATE], 7),
   ([some .PARTICIPLE_FORM_FULL, some .TIME_PAST, some .NUMBER_SINGULAR, some .CASE_GENITIVE, some .GENDER_NEUTER, some .ANIMALITY_ANIMATE], 8),
   ([some .PARTICIPLE_FORM_FULL, some .TIME_PAST, some .NUMBER_SINGULAR, some .CASE_GENITIVE, some .GENDER_NEUTER, some .ANIMALITY_INANIMATE], 9),
   ([some .PARTICIPLE_FORM_FULL, some .TIME_PAST, some .NUMBER_SINGULAR, some .CASE_GENITIVE, some .GENDER_FEMININE, some .ANIMALITY_ANIMATE], 10),
   ([some .PARTICIPLE_FORM_FULL, some .TIME_PAST, some .NUMBER_SINGULAR, some .CASE_GENITIVE, some .GENDER_FEMININE, some .ANIMALITY_INANIMATE], 11),
   ([some .PARTICIPLE_FORM_FULL, some .TIME_PAST, some .NUMBER_SINGULAR, some .CASE_DATIVE, some .GENDER_MASCULINE, some .ANIMALITY_ANIMATE], 12),
   ([some .PARTICIPLE_FORM_FULL, some .TIME_PAST, some .NUMBER_SINGULAR, some .CASE_DATIVE, some .GENDER_MASCULINE, some .ANIMALITY_INANIMATE], 13),
   ([some .PARTICIPLE_FORM_FULL, some .TIME_PAST, some .NUMBER_SINGULAR, some .CASE_DATIVE, some .GENDER_NEUTER, some .ANIMALITY_ANIMATE], 14),
   ([some .PARTICIPLE_FORM_FULL, some .TIME_PAST, some .NUMBER_SINGULAR, some .CASE_DATIVE, some .GENDER_NEUTER, some .ANIMALITY_INANIMATE], 15),
   ([some .PARTICIPLE_FORM_FULL, some .TIME_PAST, some .NUMBER_SINGULAR, some .CASE_DATIVE, some .GENDER_FEMININE, some .ANIMALITY_ANIMATE], 16),
   ([some .PARTICIPLE_FORM_FULL, some .TIME_PAST, some .NUMBER_SINGULAR, some .CASE_DATIVE, some .GENDER_FEMININE, some .ANIMALITY_INANIMATE], 17),
   ([some .PARTICIPLE_FORM_FULL, some .TIME_PAST, some .NUMBER_SINGULAR, some .CASE_ACCUSATIVE, some .GENDER_MASCULINE, some .ANIMALITY_ANIMATE], 18),
   ([some .PARTICIPLE_FORM_FULL, some .TIME_PAST, some .NUMBER_SINGULAR, some .CASE_ACCUSATIVE, some .GENDER_MASCULINE, some .ANIMALITY_INANIMATE], 19),
   ([some .PARTICIPLE_FORM_FULL, some .TIME_PAST, some .NUMBER_SINGULAR, some .CASE_ACCUSATIVE, some .GENDER_NEUTER, some .ANIMALITY_ANIMATE], 20),
   ([some .PARTICIPLE_FORM_FULL, some .TIME_PAST, some .NUMBER_SINGULAR, some .CASE_ACCUSATIVE, some .GENDER_NEUTER, some .ANIMALITY_INANIMATE], 21),
   ([some .PARTICIPLE_FORM_FULL, some .TIME_PAST, some .NUMBER_SINGULAR, some .CASE_ACCUSATIVE, some .GENDER_FEMININE, some .ANIMALITY_ANIMATE], 22),
   ([some .PARTICIPLE_FORM_FULL, some .TIME_PAST, some .NUMBER_SINGULAR, some .CASE_ACCUSATIVE, some .GENDER_FEMININE, some .ANIMALITY_INANIMATE], 23),
   ([some .PARTICIPLE_FORM_FULL, some .TIME_PAST, some .NUMBER_SINGULAR, some .CASE_INSTRUMENTAL, some .GENDER_MASCULINE, some .ANIMALITY_ANIMATE], 24),
   ([some .PARTICIPLE_FORM_FULL, some .TIME_PAST, some .NUMBER_SINGULAR, some .CASE_INSTRUMENTAL, some .GENDER_MASCULINE, some .ANIMALITY_INANIMATE], 25),
   ([some .PARTICIPLE_FORM_FULL, some .TIME_PAST, some .NUMBER_SINGULAR, some .CASE_INSTRUMENTAL, some .GENDER_NEUTER, some .ANIMALITY_ANIMATE], 26),
   ([some .PARTICIPLE_FORM_FULL, some .TIME_PAST, some .NUMBER_SINGULAR, some .CASE_INSTRUMENTAL, some .GENDER_NEUTER, some .ANIMALITY_INANIMATE], 27),
   ([some .PARTICIPLE_FORM_FULL, some .TIME_PAST, some .NUMBER_SINGULAR, some .CASE_INSTRUMENTAL, some .GENDER_FEMININE, some .ANIMALITY_ANIMATE], 28),
   ([some .PARTICIPLE_FORM_FULL, some .TIME_PAST, some .NUMBER_SINGULAR, some .CASE_INSTRUMENTAL, some .GENDER_FEMININE, some .ANIMALITY_INANIMATE], 29),
   ([some .PARTICIPLE_FORM_FULL, some .TIME_PAST, some .NUMBER_SINGULAR, some .CASE_PREPOSITIONAL, some .GENDER_MASCULINE, some .ANIMALITY_ANIMATE], 30),
   ([some .PARTICIPLE_FORM_FULL, some .TIME_PAST, some .NUMBER_SINGULAR, some .CASE_PREPOSITIONAL, some .GENDER_MASCULINE, some .ANIMALITY_INANIMATE], 31),
   ([some .PARTICIPLE_FORM_FULL, some .TIME_PAST, some .NUMBER_SINGULAR, some .CASE_PREPOSITIONAL, some .GENDER_NEUTER, some .ANIMALITY_ANIMATE], 32),
   ([some .PARTICIPLE_FORM_FULL, some .TIME_PAST, some .NUMBER_SINGULAR, some .CASE_PREPOSITIONAL, some .GENDER_NEUTER, some .ANIMALITY_INANIMATE], 33),
   ([some .PARTICIPLE_FORM_FULL, some .TIME_PAST, some .NUMBER_SINGULAR, some .CASE_PREPOSITIONAL, some .GENDER_FEMININE, some .ANIMALITY_ANIMATE], 34),
   ([some .PARTICIPLE_FORM_FULL, some .TIME_PAST, some .NUMBER_SINGULAR, some .CASE_PREPOSITIONAL, some .GENDER_FEMININE, some .ANIMALITY_INANIMATE], 35),
   ([some .PARTICIPLE_FORM_FULL, some .TIME_PAST, some .NUMBER_PLURAL, some .CASE_NOMINATIVE, none, some .ANIMALITY_ANIMATE], 36),
   ([some .PARTICIPLE_FORM_FULL, some .TIME_PAST, some .NUMBER_PLURAL, some .CASE_NOMINATIVE, none, some .ANIMALITY_INANIMATE], 37),
   ([some .PARTICIPLE_FORM_FULL, some .TIME_PAST, some .NUMBER_PLURAL, some .CASE_GENITIVE, none, some .ANIMALITY_ANIMATE], 38),
   ([some .PARTICIPLE_FORM_FULL, some .TIME_PAST, some .NUMBER_PLURAL, some .CASE_GENITIVE, none, some .ANIMALITY_INANIMATE], 39),
   ([some .PARTICIPLE_FORM_FULL, some .TIME_PAST, some .NUMBER_PLURAL, some .CASE_DATIVE, none, some .ANIMALITY_ANIMATE], 40),
   ([some .PARTICIPLE_FORM_FULL, some .TIME_PAST, some .NUMBER_PLURAL, some .CASE_DATIVE, none, some .ANIMALITY_INANIMATE], 41),
   ([some .PARTICIPLE_FORM_FULL, some .TIME_PAST, some .NUMBER_PLURAL, some .CASE_ACCUSATIVE, none, some .ANIMALITY_ANIMATE], 42),
   ([some .PARTICIPLE_FORM_FULL, some .TIME_PAST, some .NUMBER_PLURAL, some .CASE_ACCUSATIVE, none, some .ANIMALITY_INANIMATE], 43),
   ([some .PARTICIPLE_FORM_FULL, some .TIME_PAST, some .NUMBER_PLURAL, some .CASE_INSTRUMENTAL, none, some .ANIMALITY_ANIMATE], 44),
   ([some .PARTICIPLE_FORM_FULL, some .TIME_PAST, some .NUMBER_PLURAL, some .CASE_INSTRUMENTAL, none, some .ANIMALITY_INANIMATE], 45),
   ([some .PARTICIPLE_FORM_FULL, some .TIME_PAST, some .NUMBER_PLURAL, some .CASE_PREPOSITIONAL, none, some .ANIMALITY_ANIMATE], 46),
   ([some .PARTICIPLE_FORM_FULL, some .TIME_PAST, some .NUMBER_PLURAL, some .CASE_PREPOSITIONAL, none, some .ANIMALITY_INANIMATE], 47),
   ([some .PARTICIPLE_FORM_FULL, some .TIME_PAST, some .NUMBER_SINGULAR, some .CASE_NOMINATIVE, some .GENDER_MASCULINE, some .ANIMALITY_ANIMATE], 48),
   ([some .PARTICIPLE_FORM_FULL, some .TIME_PAST, some .NUMBER_SINGULAR, some .CASE_NOMINATIVE, some .GENDER_MASCULINE, some .ANIMALITY_INANIMATE], 49),
   ([some .PARTICIPLE_FORM_FULL, some .TIME_PAST, some .NUMBER_SINGULAR, some .CASE_NOMINATIVE, some .GENDER_NEUTER, some .ANIMALITY_ANIMATE], 50),
   ([some .PARTICIPLE_FORM_FULL, some .TIME_PAST, some .NUMBER_SINGULAR, some .CASE_NOMINATIVE, some .GENDER_NEUTER, some .ANIMALITY_INANIMATE], 51),
   ([some .PARTICIPLE_FORM_FULL, some .TIME_PAST, some .NUMBER_SINGULAR, some .CASE_NOMINATIVE, some .GENDER_FEMININE, some .ANIMALITY_ANIMATE], 52),
   ([some .PARTICIPLE_FORM_FULL, some .TIME_PAST, some .NUMBER_SINGULAR, some .CASE_NOMINATIVE, some .GENDER_FEMININE, some .ANIMALITY_INANIMATE], 53),
   ([some .PARTICIPLE_FORM_FULL, some .TIME_PAST, some .NUMBER_SINGULAR, some .CASE_GENITIVE, some .GENDER_MASCULINE, some .ANIMALITY_ANIMATE], 54),
   ([some .PARTICIPLE_FORM_FULL, some .TIME_PAST, some .NUMBER_SINGULAR, some .CASE_GENITIVE, some .GENDER_MASCULINE, some .ANIMALITY_INANIMATE], 55),
   ([some .PARTICIPLE_FORM_FULL, some .TIME_PAST, some .NUMBER_SINGULAR, some .CASE_GENITIVE, some .GENDER_NEUTER, some .ANIMALITY_ANIMATE], 56),
   ([some .PARTICIPLE_FORM_FULL, some .TIME_PAST, some .NUMBER_SINGULAR, some .CASE_GENITIVE, some .GENDER_NEUTER, some .ANIMALITY_INANIMATE], 57),
   ([some .PARTICIPLE_FORM_FULL, some .TIME_PAST, some .NUMBER_SINGULAR, some .CASE_GENITIVE, some .GENDER_FEMININE, some .ANIMALITY_ANIMATE], 58),
   ([some .PARTICIPLE_FORM_FULL, some .TIME_PAST, some .NUMBER_SINGULAR, some .CASE_GENITIVE, some .GENDER_FEMININE, some .ANIMALITY_INANIMATE], 59),
   ([some .PARTICIPLE_FORM_FULL, some .TIME_PAST, some .NUMBER_SINGULAR, some .CASE_DATIVE, some .GENDER_MASCULINE, some .ANIMALITY_ANIMATE], 60),
   ([some .PARTICIPLE_FORM_FULL, some .TIME_PAST, some .NUMBER_SINGULAR, some .CASE_DATIVE, some .GENDER_MASCULINE, some .ANIMALITY_INANIMATE], 61),
   ([some .PARTICIPLE_FORM_FULL, some .TIME_PAST, some .NUMBER_SINGULAR, some .CASE_DATIVE, some .GENDER_NEUTER, some .ANIMALITY_ANIMATE], 62),
   ([some .PARTICIPLE_FORM_FULL, some .TIME_PAST, some .NUMBER_SINGULAR, some .CASE_DATIVE, some .GENDER_NEUTER, some .ANIMALITY_INANIMATE], 63),
   ([some .PARTICIPLE_FORM_FULL, some .TIME_PAST, some .NUMBER_SINGULAR, some .CASE_DATIVE, some .GENDER_FEMININE, some .ANIMALITY_ANIMATE], 64),
   ([some .PARTICIPLE_FORM_FULL, some .TIME_PAST, some .NUMBER_SINGULAR, some .CASE_DATIVE, some .GENDER_FEMININE, some .ANIMALITY_INANIMATE], 65),
   ([some .PARTICIPLE_FORM_FULL, some .TIME_PAST, some .NUMBER_SINGULAR, some .CASE_ACCUSATIVE, some .GENDER_MASCULINE, some .ANIMALITY_ANIMATE], 66),
   ([some .PARTICIPLE_FORM_FULL, some .TIME_PAST, some .NUMBER_SINGULAR, some .CASE_ACCUSATIVE, some .GENDER_MASCULINE, some .ANIMALITY_INANIMATE], 67),
   ([some .PARTICIPLE_FORM_FULL, some .TIME_PAST, some .NUMBER_SINGULAR, some .CASE_ACCUSATIVE, some .GENDER_NEUTER, some .ANIMALITY_ANIMATE], 68),
   ([some .PARTICIPLE_FORM_FULL, some .TIME_PAST, some .NUMBER_SINGULAR, some .CASE_ACCUSATIVE, some .GENDER_NEUTER, some .ANIMALITY_INANIMATE], 69),
   ([some .PARTICIPLE_FORM_FULL, some .TIME_PAST, some .NUMBER_SINGULAR, some .CASE_ACCUSATIVE, some .GENDER_FEMININE, some .ANIMALITY_ANIMATE], 70),
   ([some .PARTICIPLE_FORM_FULL, some .TIME_PAST, some .NUMBER_SINGULAR, some .CASE_ACCUSATIVE, some .GENDER_FEMININE, some .ANIMALITY_INANIMATE], 71),
   ([some .PARTICIPLE_FORM_FULL, some .TIME_PAST, some .NUMBER_SINGULAR, some .CASE_INSTRUMENTAL, some .GENDER_MASCULINE, some .ANIMALITY_ANIMATE], 72),
   ([some .PARTICIPLE_FORM_FULL, some .TIME_PAST, some .NUMBER_SINGULAR, some .CASE_INSTRUMENTAL, some .GENDER_MASCULINE, some .ANIMALITY_INANIMATE], 73),
   ([some .PARTICIPLE_FORM_FULL, some .TIME_PAST, some .NUMBER_SINGULAR, some .CASE_INSTRUMENTAL, some .GENDER_NEUTER, some .ANIMALITY_ANIMATE], 74),
   ([some .PARTICIPLE_FORM_FULL, some .TIME_PAST, some .NUMBER_SINGULAR, some .CASE_INSTRUMENTAL, some .GENDER_NEUTER, some .ANIMALITY_INANIMATE], 75),
   ([some .PARTICIPLE_FORM_FULL, some .TIME_PAST, some .NUMBER_SINGULAR, some .CASE_INSTRUMENTAL, some .GENDER_FEMININE, some .ANIMALITY_ANIMATE], 76),
   ([some .PARTICIPLE_FORM_FULL, some .TIME_PAST, some .NUMBER_SINGULAR, some .CASE_INSTRUMENTAL, some .GENDER_FEMININE, some .ANIMALITY_INANIMATE], 77),
   ([some .PARTICIPLE_FORM_FULL, some .TIME_PAST, some .NUMBER_SINGULAR, some .CASE_PREPOSITIONAL, some .GENDER_MASCULINE, some .ANIMALITY_ANIMATE], 78),
   ([some .PARTICIPLE_FORM_FULL, some .TIME_PAST, some .NUMBER_SINGULAR, some .CASE_PREPOSITIONAL, some .GENDER_MASCULINE, some .ANIMALITY_INANIMATE], 79),
   ([some .PARTICIPLE_FORM_FULL, some .TIME_PAST, some .NUMBER_SINGULAR, some .CASE_PREPOSITIONAL, some .GENDER_NEUTER, some .ANIMALITY_ANIMATE], 80),
   ([some .PARTICIPLE_FORM_FULL, some .TIME_PAST, some .NUMBER_SINGULAR, some .CASE_PREPOSITIONAL, some .GENDER_NEUTER, some .ANIMALITY_INANIMATE], 81),
   ([some .PARTICIPLE_FORM_FULL, some .TIME_PAST, some .NUMBER_SINGULAR, some .CASE_PREPOSITIONAL, some .GENDER_FEMININE, some .ANIMALITY_ANIMATE], 82),
   ([some .PARTICIPLE_FORM_FULL, some .TIME_PAST, some .NUMBER_SINGULAR, some .CASE_PREPOSITIONAL, some .GENDER_FEMININE, some .ANIMALITY_INANIMATE], 83),
   ([some .PARTICIPLE_FORM_FULL, some .TIME_PAST, some .NUMBER_PLURAL, some .CASE_NOMINATIVE, none, some .ANIMALITY_ANIMATE], 84),
   ([some .PARTICIPLE_FORM_FULL, some .TIME_PAST, some .NUMBER_PLURAL, some .CASE_NOMINATIVE, none, some .ANIMALITY_INANIMATE], 85),
   ([some .PARTICIPLE_FORM_FULL, some .TIME_PAST, some .NUMBER_PLURAL, some .CASE_GENITIVE, none, some .ANIMALITY_ANIMATE], 86),
   ([some .PARTICIPLE_FORM_FULL, some .TIME_PAST, some .NUMBER_PLURAL, some .CASE_GENITIVE, none, some .ANIMALITY_INANIMATE], 87),
   ([some .PARTICIPLE_FORM_FULL, some .TIME_PAST, some .NUMBER_PLURAL, some .CASE_DATIVE, none, some .ANIMALITY_ANIMATE], 88),
   ([some .PARTICIPLE_FORM_FULL, some .TIME_PAST, some .NUMBER_PLURAL, some .CASE_DATIVE, none, some .ANIMALITY_INANIMATE], 89),
   ([some .PARTICIPLE_FORM_FULL, some .TIME_PAST, some .NUMBER_PLURAL, some .CASE_ACCUSATIVE, none, some .ANIMALITY_ANIMATE], 90),
   ([some .PARTICIPLE_FORM_FULL, some .TIME_PAST, some .NUMBER_PLURAL, some .CASE_ACCUSATIVE, none, some .ANIMALITY_INANIMATE], 91),
   ([some .PARTICIPLE_FORM_FULL, some .TIME_PAST, some .NUMBER_PLURAL, some .CASE_INSTRUMENTAL, none, some .ANIMALITY_ANIMATE], 92),
   ([some .PARTICIPLE_FORM_FULL, some .TIME_PAST, some .NUMBER_PLURAL, some .CASE_INSTRUMENTAL, none, some .ANIMALITY_INANIMATE], 93),
   ([some .PARTICIPLE_FORM_FULL, some .TIME_PAST, some .NUMBER_PLURAL, some .CASE_PREPOSITIONAL, none, some .ANIMALITY_ANIMATE], 94),
   ([some .PARTICIPLE_FORM_FULL, some .TIME_PAST, some .NUMBER_PLURAL, some .CASE_PREPOSITIONAL, none, some .ANIMALITY_INANIMATE], 95),
   ([some .PARTICIPLE_FORM_FULL, some .TIME_PRESENT, some .NUMBER_SINGULAR, some .CASE_NOMINATIVE, some .GENDER_MASCULINE, some .ANIMALITY_ANIMATE], 96),
   ([some .PARTICIPLE_FORM_FULL, some .TIME_PRESENT, some .NUMBER_SINGULAR, some .CASE_NOMINATIVE, some .GENDER_MASCULINE, some .ANIMALITY_INANIMATE], 97),
   ([some .PARTICIPLE_FORM_FULL, some .TIME_PRESENT, some .NUMBER_SINGULAR, some .CASE_NOMINATIVE, some .GENDER_NEUTER, some .ANIMALITY_ANIMATE], 98),
   ([some .PARTICIPLE_FORM_FULL, some .TIME_PRESENT, some .NUMBER_SINGULAR, some .CASE_NOMINATIVE, some .GENDER_NEUTER, some .ANIMALITY_INANIMATE], 99),
   ([some .PARTICIPLE_FORM_FULL, some .TIME_PRESENT, some .NUMBER_SINGULAR, some .CASE_NOMINATIVE, some .GENDER_FEMININE, some .ANIMALITY_ANIMATE], 100),
   ([some .PARTICIPLE_FORM_FULL, some .TIME_PRESENT, some .NUMBER_SINGULAR, some .CASE_NOMINATIVE, some .GENDER_FEMININE, some .ANIMALITY_INANIMATE], 101),
   ([some .PARTICIPLE_FORM_FULL, some .TIME_PRESENT, some .NUMBER_SINGULAR, some .CASE_GENITIVE, some .GENDER_MASCULINE, some .ANIMALITY_ANIMATE], 102),
   ([some .PARTICIPLE_FORM_FULL, some .TIME_PRESENT, some .NUMBER_SINGULAR, some .CASE_GENITIVE, some .GENDER_MASCULINE, some .ANIMALITY_INANIMATE], 103),
   ([some .PARTICIPLE_FORM_FULL, some .TIME_PRESENT, some .NUMBER_SINGULAR, some .CASE_GENITIVE, some .GENDER_NEUTER, some .ANIMALITY_ANIMATE], 104),
   ([some .PARTICIPLE_FORM_FULL, some .TIME_PRESENT, some .NUMBER_SINGULAR, some .CASE_GENITIVE, some .GENDER_NEUTER, some .ANIMALITY_INANIMATE], 105),
   ([some .PARTICIPLE_FORM_FULL, some .TIME_PRESENT, some .NUMBER_SINGULAR, some .CASE_GENITIVE, some .GENDER_FEMININE, some .ANIMALITY_ANIMATE], 106),
   ([some .PARTICIPLE_FORM_FULL, some .TIME_PRESENT, some .NUMBER_SINGULAR, some .CASE_GENITIVE, some .GENDER_FEMININE, some .ANIMALITY_INANIMATE], 107),
   ([some .PARTICIPLE_FORM_FULL, some .TIME_PRESENT, some .NUMBER_SINGULAR, some .CASE_DATIVE, some .GENDER_MASCULINE, some .ANIMALITY_ANIMATE], 108),
   ([some .PARTICIPLE_FORM_FULL, some .TIME_PRESENT, some .NUMBER_SINGULAR, some .CASE_DATIVE, some .GENDER_MASCULINE, some .ANIMALITY_INANIMATE], 109),
   ([some .PARTICIPLE_FORM_FULL, some .TIME_PRESENT, some .NUMBER_SINGULAR, some .CASE_DATIVE, some .GENDER_NEUTER, some .ANIMALITY_ANIMATE], 110),
   ([some .PARTICIPLE_FORM_FULL, some .TIME_PRESENT, some .NUMBER_SINGULAR, some .CASE_DATIVE, some .GENDER_NEUTER, some .ANIMALITY_INANIMATE], 111),
   ([some .PARTICIPLE_FORM_FULL, some .TIME_PRESENT, some .NUMBER_SINGULAR, some .CASE_DATIVE, some .GENDER_FEMININE, some .ANIMALITY_ANIMATE], 112),
   ([some .PARTICIPLE_FORM_FULL, some .TIME_PRESENT, some .NUMBER_SINGULAR, some .CASE_DATIVE, some .GENDER_FEMININE, some .ANIMALITY_INANIMATE], 113),
   ([some .PARTICIPLE_FORM_FULL, some .TIME_PRESENT, some .NUMBER_SINGULAR, some .CASE_ACCUSATIVE, some .GENDER_MASCULINE, some .ANIMALITY_ANIMATE], 114),
   ([some .PARTICIPLE_FORM_FULL, some .TIME_PRESENT, some .NUMBER_SINGULAR, some .CASE_ACCUSATIVE, some .GENDER_MASCULINE, some .ANIMALITY_INANIMATE], 115),
   ([some .PARTICIPLE_FORM_FULL, some .TIME_PRESENT, some .NUMBER_SINGULAR, some .CASE_ACCUSATIVE, some .GENDER_NEUTER, some .ANIMALITY_ANIMATE], 116),
   ([some .PARTICIPLE_FORM_FULL, some .TIME_PRESENT, some .NUMBER_SINGULAR, some .CASE_ACCUSATIVE, some .GENDER_NEUTER, some .ANIMALITY_INANIMATE], 117),
   ([some .PARTICIPLE_FORM_FULL, some .TIME_PRESENT, some .NUMBER_SINGULAR, some .CASE_ACCUSATIVE, some .GENDER_FEMININE, some .ANIMALITY_ANIMATE], 118),
   ([some .PARTICIPLE_FORM_FULL, some .TIME_PRESENT, some .NUMBER_SINGULAR, some .CASE_ACCUSATIVE, some .GENDER_FEMININE, some .ANIMALITY_INANIMATE], 119),
   ([some .PARTICIPLE_FORM_FULL, some .TIME_PRESENT, some .NUMBER_SINGULAR, some .CASE_INSTRUMENTAL, some .GENDER_MASCULINE, some .ANIMALITY_ANIMATE], 120),
   ([some .PARTICIPLE_FORM_FULL, some .TIME_PRESENT, some .NUMBER_SINGULAR, some .CASE_INSTRUMENTAL, some .GENDER_MASCULINE, some .ANIMALITY_INANIMATE], 121),
   ([some .PARTICIPLE_FORM_FULL, some .TIME_PRESENT, some .NUMBER_SINGULAR, some .CASE_INSTRUMENTAL, some .GENDER_NEUTER, some .ANIMALITY_ANIMATE], 122),
   ([some .PARTICIPLE_FORM_FULL, some .TIME_PRESENT, some .NUMBER_SINGULAR, some .CASE_INSTRUMENTAL, some .GENDER_NEUTER, some .ANIMALITY_INANIMATE], 123),
   ([some .PARTICIPLE_FORM_FULL, some .TIME_PRESENT, some .NUMBER_SINGULAR, some .CASE_INSTRUMENTAL, some .GENDER_FEMININE, some .ANIMALITY_ANIMATE], 124),
   ([some .PARTICIPLE_FORM_FULL, some .TIME_PRESENT, some .NUMBER_SINGULAR, some .CASE_INSTRUMENTAL, some .GENDER_FEMININE, some .ANIMALITY_INANIMATE], 125),
   ([some .PARTICIPLE_FORM_FULL, some .TIME_PRESENT, some .NUMBER_SINGULAR, some .CASE_PREPOSITIONAL, some .GENDER_MASCULINE, some .ANIMALITY_ANIMATE], 126),
   ([some .PARTICIPLE_FORM_FULL, some .TIME_PRESENT, some .NUMBER_SINGULAR, some .CASE_PREPOSITIONAL, some .GENDER_MASCULINE, some .ANIMALITY_INANIMATE], 127),
   ([some .PARTICIPLE_FORM_FULL, some .TIME_PRESENT, some .NUMBER_SINGULAR, some .CASE_PREPOSITIONAL, some .GENDER_NEUTER, some .ANIMALITY_ANIMATE], 128),
   ([some .PARTICIPLE_FORM_FULL, some .TIME_PRESENT, some .NUMBER_SINGULAR, some .CASE_PREPOSITIONAL, some .GENDER_NEUTER, some .ANIMALITY_INANIMATE], 129),
   ([some .PARTICIPLE_FORM_FULL, some .TIME_PRESENT, some .NUMBER_SINGULAR, some .CASE_PREPOSITIONAL, some .GENDER_FEMININE, some .ANIMALITY_ANIMATE], 130),
   ([some .PARTICIPLE_FORM_FULL, some .TIME_PRESENT, some .NUMBER_SINGULAR, some .CASE_PREPOSITIONAL, some .GENDER_FEMININE, some .ANIMALITY_INANIMATE], 131),
   ([some .PARTICIPLE_FORM_FULL, some .TIME_PRESENT, some .NUMBER_PLURAL, some .CASE_NOMINATIVE, none, some .ANIMALITY_ANIMATE], 132),
   ([some .PARTICIPLE_FORM_FULL, some .TIME_PRESENT, some .NUMBER_PLURAL, some .CASE_NOMINATIVE, none, some .ANIMALITY_INANIMATE], 133),
   ([some .PARTICIPLE_FORM_FULL, some .TIME_PRESENT, some .NUMBER_PLURAL, some .CASE_GENITIVE, none, some .ANIMALITY_ANIMATE], 134),
   ([some .PARTICIPLE_FORM_FULL, some .TIME_PRESENT, some .NUMBER_PLURAL, some .CASE_GENITIVE, none, some .ANIMALITY_INANIMATE], 135),
   ([some .PARTICIPLE_FORM_FULL, some .TIME_PRESENT, some .NUMBER_PLURAL, some .CASE_DATIVE, none, some .ANIMALITY_ANIMATE], 136),
   ([some .PARTICIPLE_FORM_FULL, some .TIME_PRESENT, some .NUMBER_PLURAL, some .CASE_DATIVE, none, some .ANIMALITY_INANIMATE], 137),
   ([some .PARTICIPLE_FORM_FULL, some .TIME_PRESENT, some .NUMBER_PLURAL, some .CASE_ACCUSATIVE, none, some .ANIMALITY_ANIMATE], 138),
   ([some .PARTICIPLE_FORM_FULL, some .TIME_PRESENT, some .NUMBER_PLURAL, some .CASE_ACCUSATIVE, none, some .ANIMALITY_INANIMATE], 139),
   ([some .PARTICIPLE_FORM_FULL, some .TIME_PRESENT, some .NUMBER_PLURAL, some .CASE_INSTRUMENTAL, none, some .ANIMALITY_ANIMATE], 140),
   ([some .PARTICIPLE_FORM_FULL, some .TIME_PRESENT, some .NUMBER_PLURAL, some .CASE_INSTRUMENTAL, none, some .ANIMALITY_INANIMATE], 141),
   ([some .PARTICIPLE_FORM_FULL, some .TIME_PRESENT, some .NUMBER_PLURAL, some .CASE_PREPOSITIONAL, none, some .ANIMALITY_ANIMATE], 142),
   ([some .PARTICIPLE_FORM_FULL, some .TIME_PRESENT, some .NUMBER_PLURAL, some .CASE_PREPOSITIONAL, none, some .ANIMALITY_INANIMATE], 143),
   ([some .PARTICIPLE_FORM_FULL, some .TIME_PRESENT, some .NUMBER_SINGULAR, some .CASE_NOMINATIVE, some .GENDER_MASCULINE, some .ANIMALITY_ANIMATE], 144),
   ([some .PARTICIPLE_FORM_FULL, some .TIME_PRESENT, some .NUMBER_SINGULAR, some .CASE_NOMINATIVE, some .GENDER_MASCULINE, some .ANIMALITY_INANIMATE], 145),
   ([some .PARTICIPLE_FORM_FULL, some .TIME_PRESENT, some .NUMBER_SINGULAR, some .CASE_NOMINATIVE, some .GENDER_NEUTER, some .ANIMALITY_ANIMATE], 146),
   ([some .PARTICIPLE_FORM_FULL, some .TIME_PRESENT, some .NUMBER_SINGULAR, some .CASE_NOMINATIVE, some .GENDER_NEUTER, some .ANIMALITY_INANIMATE], 147),
   ([some .PARTICIPLE_FORM_FULL, some .TIME_PRESENT, some .NUMBER_SINGULAR, some .CASE_NOMINATIVE, some .GENDER_FEMININE, some .ANIMALITY_ANIMATE], 148),
   ([some .PARTICIPLE_FORM_FULL, some .TIME_PRESENT, some .NUMBER_SINGULAR, some .CASE_NOMINATIVE, some .GENDER_FEMININE, some .ANIMALITY_INANIMATE], 149),
   ([some .PARTICIPLE_FORM_FULL, some .TIME_PRESENT, some .NUMBER_SINGULAR, some .CASE_GENITIVE, some .GENDER_MASCULINE, some .ANIMALITY_ANIMATE], 150),
   ([some .PARTICIPLE_FORM_FULL, some .TIME_PRESENT, some .NUMBER_SINGULAR, some .CASE_GENITIVE, some .GENDER_MASCULINE, some .ANIMALITY_INANIMATE], 151),
   ([some .PARTICIPLE_FORM_FULL, some .TIME_PRESENT, some .NUMBER_SINGULAR, some .CASE_GENITIVE, some .GENDER_NEUTER, some .ANIMALITY_ANIMATE], 152),
   ([some .PARTICIPLE_FORM_FULL, some .TIME_PRESENT, some .NUMBER_SINGULAR, some .CASE_GENITIVE, some .GENDER_NEUTER, some .ANIMALITY_INANIMATE], 153),
   ([some .PARTICIPLE_FORM_FULL, some .TIME_PRESENT, some .NUMBER_SINGULAR, some .CASE_GENITIVE, some .GENDER_FEMININE, some .ANIMALITY_ANIMATE], 154),
   ([some .PARTICIPLE_FORM_FULL, some .TIME_PRESENT, some .NUMBER_SINGULAR, some .CASE_GENITIVE, some .GENDER_FEMININE, some .ANIMALITY_INANIMATE], 155),
   ([some .PARTICIPLE_FORM_FULL, some .TIME_PRESENT, some .NUMBER_SINGULAR, some .CASE_DATIVE, some .GENDER_MASCULINE, some .ANIMALITY_ANIMATE], 156),
   ([some .PARTICIPLE_FORM_FULL, some .TIME_PRESENT, some .NUMBER_SINGULAR, some .CASE_DATIVE, some .GENDER_MASCULINE, some .ANIMALITY_INANIMATE], 157),
   ([some .PARTICIPLE_FORM_FULL, some .TIME_PRESENT, some .NUMBER_SINGULAR, some .CASE_DATIVE, some .GENDER_NEUTER, some .ANIMALITY_ANIMATE], 158),
   ([some .PARTICIPLE_FORM_FULL, some .TIME_PRESENT, some .NUMBER_SINGULAR, some .CASE_DATIVE, some .GENDER_NEUTER, some .ANIMALITY_INANIMATE], 159),
   ([some .PARTICIPLE_FORM_FULL, some .TIME_PRESENT, some .NUMBER_SINGULAR, some .CASE_DATIVE, some .GENDER_FEMININE, some .ANIMALITY_ANIMATE], 160),
   ([some .PARTICIPLE_FORM_FULL, some .TIME_PRESENT, some .NUMBER_SINGULAR, some .CASE_DATIVE, some .GENDER_FEMININE, some .ANIMALITY_INANIMATE], 161),
   ([some .PARTICIPLE_FORM_FULL, some .TIME_PRESENT, some .NUMBER_SINGULAR, some .CASE_ACCUSATIVE, some .GENDER_MASCULINE, some .ANIMALITY_ANIMATE], 162),
   ([some .PARTICIPLE_FORM_FULL, some .TIME_PRESENT, some .NUMBER_SINGULAR, some .CASE_ACCUSATIVE, some .GENDER_MASCULINE, some .ANIMALITY_INANIMATE], 163),
   ([some .PARTICIPLE_FORM_FULL, some .TIME_PRESENT, some .NUMBER_SINGULAR, some .CASE_ACCUSATIVE, some .GENDER_NEUTER, some .ANIMALITY_ANIMATE], 164),
   ([some .PARTICIPLE_FORM_FULL, some .TIME_PRESENT, some .NUMBER_SINGULAR, some .CASE_ACCUSATIVE, some .GENDER_NEUTER, some .ANIMALITY_INANIMATE], 165),
   ([some .PARTICIPLE_FORM_FULL, some .TIME_PRESENT, some .NUMBER_SINGULAR, some .CASE_ACCUSATIVE, some .GENDER_FEMININE, some .ANIMALITY_ANIMATE], 166),
   ([some .PARTICIPLE_FORM_FULL, some .TIME_PRESENT, some .NUMBER_SINGULAR, some .CASE_ACCUSATIVE, some .GENDER_FEMININE, some .ANIMALITY_INANIMATE], 167),
   ([some .PARTICIPLE_FORM_FULL, some .TIME_PRESENT, some .NUMBER_SINGULAR, some .CASE_INSTRUMENTAL, some .GENDER_MASCULINE, some .ANIMALITY_ANIMATE], 168),
   ([some .PARTICIPLE_FORM_FULL, some .TIME_PRESENT, some .NUMBER_SINGULAR, some .CASE_INSTRUMENTAL, some .GENDER_MASCULINE, some .ANIMALITY_INANIMATE], 169),
   ([some .PARTICIPLE_FORM_FULL, some .TIME_PRESENT, some .NUMBER_SINGULAR, some .CASE_INSTRUMENTAL, some .GENDER_NEUTER, some .ANIMALITY_ANIMATE], 170),
   ([some .PARTICIPLE_FORM_FULL, some .TIME_PRESENT, some .NUMBER_SINGULAR, some .CASE_INSTRUMENTAL, some .GENDER_NEUTER, some .ANIMALITY_INANIMATE], 171),
   ([some .PARTICIPLE_FORM_FULL, some .TIME_PRESENT, some .NUMBER_SINGULAR, some .CASE_INSTRUMENTAL, some .GENDER_FEMININE, some .ANIMALITY_ANIMATE], 172),
   ([some .PARTICIPLE_FORM_FULL, some .TIME_PRESENT, some .NUMBER_SINGULAR, some .CASE_INSTRUMENTAL, some .GENDER_FEMININE, some .ANIMALITY_INANIMATE], 173),
   ([some .PARTICIPLE_FORM_FULL, some .TIME_PRESENT, some .NUMBER_SINGULAR, some .CASE_PREPOSITIONAL, some .GENDER_MASCULINE, some .ANIMALITY_ANIMATE], 174),
   ([some .PARTICIPLE_FORM_FULL, some .TIME_PRESENT, some .NUMBER_SINGULAR, some .CASE_PREPOSITIONAL, some .GENDER_MASCULINE, some .ANIMALITY_INANIMATE], 175),
   ([some .PARTICIPLE_FORM_FULL, some .TIME_PRESENT, some .NUMBER_SINGULAR, some .CASE_PREPOSITIONAL, some .GENDER_NEUTER, some .ANIMALITY_ANIMATE], 176),
   ([some .PARTICIPLE_FORM_FULL, some .TIME_PRESENT, some .NUMBER_SINGULAR, some .CASE_PREPOSITIONAL, some .GENDER_NEUTER, some .ANIMALITY_INANIMATE], 177),
   ([some .PARTICIPLE_FORM_FULL, some .TIME_PRESENT, some .NUMBER_SINGULAR, some .CASE_PREPOSITIONAL, some .GENDER_FEMININE, some .ANIMALITY_ANIMATE], 178),
   ([some .PARTICIPLE_FORM_FULL, some .TIME_PRESENT, some .NUMBER_SINGULAR, some .CASE_PREPOSITIONAL, some .GENDER_FEMININE, some .ANIMALITY_INANIMATE], 179),
   ([some .PARTICIPLE_FORM_FULL, some .TIME_PRESENT, some .NUMBER_PLURAL, some .CASE_NOMINATIVE, none, some .ANIMALITY_ANIMATE], 180),
   ([some .PARTICIPLE_FORM_FULL, some .TIME_PRESENT, some .NUMBER_PLURAL, some .CASE_NOMINATIVE, none, some .ANIMALITY_INANIMATE], 181),
   ([some .PARTICIPLE_FORM_FULL, some .TIME_PRESENT, some .NUMBER_PLURAL, some .CASE_GENITIVE, none, some .ANIMALITY_ANIMATE], 182),
   ([some .PARTICIPLE_FORM_FULL, some .TIME_PRESENT, some .NUMBER_PLURAL, some .CASE_GENITIVE, none, some .ANIMALITY_INANIMATE], 183),
   ([some .PARTICIPLE_FORM_FULL, some .TIME_PRESENT, some .NUMBER_PLURAL, some .CASE_DATIVE, none, some .ANIMALITY_ANIMATE], 184),
   ([some .PARTICIPLE_FORM_FULL, some .TIME_PRESENT, some .NUMBER_PLURAL, some .CASE_DATIVE, none, some .ANIMALITY_INANIMATE], 185),
   ([some .PARTICIPLE_FORM_FULL, some .TIME_PRESENT, some .NUMBER_PLURAL, some .CASE_ACCUSATIVE, none, some .ANIMALITY_ANIMATE], 186),
   ([some .PARTICIPLE_FORM_FULL, some .TIME_PRESENT, some .NUMBER_PLURAL, some .CASE_ACCUSATIVE, none, some .ANIMALITY_INANIMATE], 187),
   ([some .PARTICIPLE_FORM_FULL, some .TIME_PRESENT, some .NUMBER_PLURAL, some .CASE_INSTRUMENTAL, none, some .ANIMALITY_ANIMATE], 188),
   ([some .PARTICIPLE_FORM_FULL, some .TIME_PRESENT, some .NUMBER_PLURAL, some .CASE_INSTRUMENTAL, none, some .ANIMALITY_INANIMATE], 189),
   ([some .PARTICIPLE_FORM_FULL, some .TIME_PRESENT, some .NUMBER_PLURAL, some .CASE_PREPOSITIONAL, none, some .ANIMALITY_ANIMATE], 190),
   ([some .PARTICIPLE_FORM_FULL, some .TIME_PRESENT, some .NUMBER_PLURAL, some .CASE_PREPOSITIONAL, none, some .ANIMALITY_INANIMATE], 191),
   ([some .PARTICIPLE_FORM_FULL, some .TIME_FUTURE, some .NUMBER_SINGULAR, some .CASE_NOMINATIVE, some .GENDER_MASCULINE, some .ANIMALITY_ANIMATE], 192),
   ([some .PARTICIPLE_FORM_FULL, some .TIME_FUTURE, some .NUMBER_SINGULAR, some .CASE_NOMINATIVE, some .GENDER_MASCULINE, some .ANIMALITY_INANIMATE], 193),
   ([some .PARTICIPLE_FORM_FULL, some .TIME_FUTURE, some .NUMBER_SINGULAR, some .CASE_NOMINATIVE, some .GENDER_NEUTER, some .ANIMALITY_ANIMATE], 194),
   ([some .PARTICIPLE_FORM_FULL, some .TIME_FUTURE, some .NUMBER_SINGULAR, some .CASE_NOMINATIVE, some .GENDER_NEUTER, some .ANIMALITY_INANIMATE], 195),
   ([some .PARTICIPLE_FORM_FULL, some .TIME_FUTURE, some .NUMBER_SINGULAR, some .CASE_NOMINATIVE, some .GENDER_FEMININE, some .ANIMALITY_ANIMATE], 196),
   ([some .PARTICIPLE_FORM_FULL, some .TIME_FUTURE, some .NUMBER_SINGULAR, some .CASE_NOMINATIVE, some .GENDER_FEMININE, some .ANIMALITY_INANIMATE], 197),
   ([some .PARTICIPLE_FORM_FULL, some .TIME_FUTURE, some .NUMBER_SINGULAR, some .CASE_GENITIVE, some .GENDER_MASCULINE, some .ANIMALITY_ANIMATE], 198),
   ([some .PARTICIPLE_FORM_FULL, some .TIME_FUTURE, some .NUMBER_SINGULAR, some .CASE_GENITIVE, some .GENDER_MASCULINE, some .ANIMALITY_INANIMATE], 199),
   ([some .PARTICIPLE_FORM_FULL, some .TIME_FUTURE, some .NUMBER_SINGULAR, some .CASE_GENITIVE, some .GENDER_NEUTER, some .ANIMALITY_ANIMATE], 200),
   ([some .PARTICIPLE_FORM_FULL, some .TIME_FUTURE, some .NUMBER_SINGULAR, some .CASE_GENITIVE, some .GENDER_NEUTER, some .ANIMALITY_INANIMATE], 201),
   ([some .PARTICIPLE_FORM_FULL, some .TIME_FUTURE, some .NUMBER_SINGULAR, some .CASE_GENITIVE, some .GENDER_FEMININE, some .ANIMALITY_ANIMATE], 202),
   ([some .PARTICIPLE_FORM_FULL, some .TIME_FUTURE, some .NUMBER_SINGULAR, some .CASE_GENITIVE, some .GENDER_FEMININE, some .ANIMALITY_INANIMATE], 203),
   ([some .PARTICIPLE_FORM_FULL, some .TIME_FUTURE, some .NUMBER_SINGULAR, some .CASE_DATIVE, some .GENDER_MASCULINE, some .ANIMALITY_ANIMATE], 204),
   ([some .PARTICIPLE_FORM_FULL, some .TIME_FUTURE, some .NUMBER_SINGULAR, some .CASE_DATIVE, some .GENDER_MASCULINE, some .ANIMALITY_INANIMATE], 205),
   ([some .PARTICIPLE_FORM_FULL, some .TIME_FUTURE, some .NUMBER_SINGULAR, some .CASE_DATIVE, some .GENDER_NEUTER, some .ANIMALITY_ANIMATE], 206),
   ([some .PARTICIPLE_FORM_FULL, some .TIME_FUTURE, some .NUMBER_SINGULAR, some .CASE_DATIVE, some .GENDER_NEUTER, some .ANIMALITY_INANIMATE], 207),
   ([some .PARTICIPLE_FORM_FULL, some .TIME_FUTURE, some .NUMBER_SINGULAR, some .CASE_DATIVE, some .GENDER_FEMININE, some .ANIMALITY_ANIMATE], 208),
   ([some .PARTICIPLE_FORM_FULL, some .TIME_FUTURE, some .NUMBER_SINGULAR, some .CASE_DATIVE, some .GENDER_FEMININE, some .ANIMALITY_INANIMATE], 209),
   ([some .PARTICIPLE_FORM_FULL, some .TIME_FUTURE, some .NUMBER_SINGULAR, some .CASE_ACCUSATIVE, some .GENDER_MASCULINE, some .ANIMALITY_ANIMATE], 210),
   ([some .PARTICIPLE_FORM_FULL, some .TIME_FUTURE, some .NUMBER_SINGULAR, some .CASE_ACCUSATIVE, some .GENDER_MASCULINE, some .ANIMALITY_INANIMATE], 211),
   ([some .PARTICIPLE_FORM_FULL, some .TIME_FUTURE, some .NUMBER_SINGULAR, some .CASE_ACCUSATIVE, some .GENDER_NEUTER, some .ANIMALITY_ANIMATE], 212),
   ([some .PARTICIPLE_FORM_FULL, some .TIME_FUTURE, some .NUMBER_SINGULAR, some .CASE_ACCUSATIVE, some .GENDER_NEUTER, some .ANIMALITY_INANIMATE], 213),
   ([some .PARTICIPLE_FORM_FULL, some .TIME_FUTURE, some .NUMBER_SINGULAR, some .CASE_ACCUSATIVE, some .GENDER_FEMININE, some .ANIMALITY_ANIMATE], 214),
   ([some .PARTICIPLE_FORM_FULL, some .TIME_FUTURE, some .NUMBER_SINGULAR, some .CASE_ACCUSATIVE, some .GENDER_FEMININE, some .ANIMALITY_INANIMATE], 215),
   ([some .PARTICIPLE_FORM_FULL, some .TIME_FUTURE, some .NUMBER_SINGULAR, some .CASE_INSTRUMENTAL, some .GENDER_MASCULINE, some .ANIMALITY_ANIMATE], 216),
   ([some .PARTICIPLE_FORM_FULL, some .TIME_FUTURE, some .NUMBER_SINGULAR, some .CASE_INSTRUMENTAL, some .GENDER_MASCULINE, some .ANIMALITY_INANIMATE], 217),
   ([some .PARTICIPLE_FORM_FULL, some .TIME_FUTURE, some .NUMBER_SINGULAR, some .CASE_INSTRUMENTAL, some .GENDER_NEUTER, some .ANIMALITY_ANIMATE], 218),
   ([some .PARTICIPLE_FORM_FULL, some .TIME_FUTURE, some .NUMBER_SINGULAR, some .CASE_INSTRUMENTAL, some .GENDER_NEUTER, some .ANIMALITY_INANIMATE], 219),
   ([some .PARTICIPLE_FORM_FULL, some .TIME_FUTURE, some .NUMBER_SINGULAR, some .CASE_INSTRUMENTAL, some .GENDER_FEMININE, some .ANIMALITY_ANIMATE], 220),
   ([some .PARTICIPLE_FORM_FULL, some .TIME_FUTURE, some .NUMBER_SINGULAR, some .CASE_INSTRUMENTAL, some .GENDER_FEMININE, some .ANIMALITY_INANIMATE], 221),
   ([some .PARTICIPLE_FORM_FULL, some .TIME_FUTURE, some .NUMBER_SINGULAR, some .CASE_PREPOSITIONAL, some .GENDER_MASCULINE, some .ANIMALITY_ANIMATE], 222),
   ([some .PARTICIPLE_FORM_FULL, some .TIME_FUTURE, some .NUMBER_SINGULAR, some .CASE_PREPOSITIONAL, some .GENDER_MASCULINE, some .ANIMALITY_INANIMATE], 223),
   ([some .PARTICIPLE_FORM_FULL, some .TIME_FUTURE, some .NUMBER_SINGULAR, some .CASE_PREPOSITIONAL, some .GENDER_NEUTER, some .ANIMALITY_ANIMATE], 224),
   ([some .PARTICIPLE_FORM_FULL, some .TIME_FUTURE, some .NUMBER_SINGULAR, some .CASE_PREPOSITIONAL, some .GENDER_NEUTER, some .ANIMALITY_INANIMATE], 225),
   ([some .PARTICIPLE_FORM_FULL, some .TIME_FUTURE, some .NUMBER_SINGULAR, some .CASE_PREPOSITIONAL, some .GENDER_FEMININE, some .ANIMALITY_ANIMATE], 226),
   ([some .PARTICIPLE_FORM_FULL, some .TIME_FUTURE, some .NUMBER_SINGULAR, some .CASE_PREPOSITIONAL, some .GENDER_FEMININE, some .ANIMALITY_INANIMATE], 227),
   ([some .PARTICIPLE_FORM_FULL, some .TIME_FUTURE, some .NUMBER_PLURAL, some .CASE_NOMINATIVE, none, some .ANIMALITY_ANIMATE], 228),
   ([some .PARTICIPLE_FORM_FULL, some .TIME_FUTURE, some .NUMBER_PLURAL, some .CASE_NOMINATIVE, none, some .ANIMALITY_INANIMATE], 229),
   ([some .PARTICIPLE_FORM_FULL, some .TIME_FUTURE, some .NUMBER_PLURAL, some .CASE_GENITIVE, none, some .ANIMALITY_ANIMATE], 230),
   ([some .PARTICIPLE_FORM_FULL, some .TIME_FUTURE, some .NUMBER_PLURAL, some .CASE_GENITIVE, none, some .ANIMALITY_INANIMATE], 231),
   ([some .PARTICIPLE_FORM_FULL, some .TIME_FUTURE, some .NUMBER_PLURAL, some .CASE_DATIVE, none, some .ANIMALITY_ANIMATE], 232),
   ([some .PARTICIPLE_FORM_FULL, some .TIME_FUTURE, some .NUMBER_PLURAL, some .CASE_DATIVE, none, some .ANIMALITY_INANIMATE], 233),
   ([some .PARTICIPLE_FORM_FULL, some .TIME_FUTURE, some .NUMBER_PLURAL, some .CASE_ACCUSATIVE, none, some .ANIMALITY_ANIMATE], 234),
   ([some .PARTICIPLE_FORM_FULL, some .TIME_FUTURE, some .NUMBER_PLURAL, some .CASE_ACCUSATIVE, none, some .ANIMALITY_INANIMATE], 235),
   ([some .PARTICIPLE_FORM_FULL, some .TIME_FUTURE, some .NUMBER_PLURAL, some .CASE_INSTRUMENTAL, none, some .ANIMALITY_ANIMATE], 236),
   ([some .PARTICIPLE_FORM_FULL, some .TIME_FUTURE, some .NUMBER_PLURAL, some .CASE_INSTRUMENTAL, none, some .ANIMALITY_INANIMATE], 237),
   ([some .PARTICIPLE_FORM_FULL, some .TIME_FUTURE, some .NUMBER_PLURAL, some .CASE_PREPOSITIONAL, none, some .ANIMALITY_ANIMATE], 238),
   ([some .PARTICIPLE_FORM_FULL, some .TIME_FUTURE, some .NUMBER_PLURAL, some .CASE_PREPOSITIONAL, none, some .ANIMALITY_INANIMATE], 239),
   ([some .PARTICIPLE_FORM_FULL, some .TIME_FUTURE, some .NUMBER_SINGULAR, some .CASE_NOMINATIVE, some .GENDER_MASCULINE, some .ANIMALITY_ANIMATE], 240),
   ([some .PARTICIPLE_FORM_FULL, some .TIME_FUTURE, some .NUMBER_SINGULAR, some .CASE_NOMINATIVE, some .GENDER_MASCULINE, some .ANIMALITY_INANIMATE], 241),
   ([some .PARTICIPLE_FORM_FULL, some .TIME_FUTURE, some .NUMBER_SINGULAR, some .CASE_NOMINATIVE, some .GENDER_NEUTER, some .ANIMALITY_ANIMATE], 242),
   ([some .PARTICIPLE_FORM_FULL, some .TIME_FUTURE, some .NUMBER_SINGULAR, some .CASE_NOMINATIVE, some .GENDER_NEUTER, some .ANIMALITY_INANIMATE], 243),
   ([some .PARTICIPLE_FORM_FULL, some .TIME_FUTURE, some .NUMBER_SINGULAR, some .CASE_NOMINATIVE, some .GENDER_FEMININE, some .ANIMALITY_ANIMATE], 244),
   ([some .PARTICIPLE_FORM_FULL, some .TIME_FUTURE, some .NUMBER_SINGULAR, some .CASE_NOMINATIVE, some .GENDER_FEMININE, some .ANIMALITY_INANIMATE], 245),
   ([some .PARTICIPLE_FORM_FULL, some .TIME_FUTURE, some .NUMBER_SINGULAR, some .CASE_GENITIVE, some .GENDER_MASCULINE, some .ANIMALITY_ANIMATE], 246),
   ([some .PARTICIPLE_FORM_FULL, some .TIME_FUTURE, some .NUMBER_SINGULAR, some .CASE_GENITIVE, some .GENDER_MASCULINE, some .ANIMALITY_INANIMATE], 247),
   ([some .PARTICIPLE_FORM_FULL, some .TIME_FUTURE, some .NUMBER_SINGULAR, some .CASE_GENITIVE, some .GENDER_NEUTER, some .ANIMALITY_ANIMATE], 248),
   ([some .PARTICIPLE_FORM_FULL, some .TIME_FUTURE, some .NUMBER_SINGULAR, some .CASE_GENITIVE, some .GENDER_NEUTER, some .ANIMALITY_INANIMATE], 249),
   ([some .PARTICIPLE_FORM_FULL, some .TIME_FUTURE, some .NUMBER_SINGULAR, some .CASE_GENITIVE, some .GENDER_FEMININE, some .ANIMALITY_ANIMATE], 250),
   ([some .PARTICIPLE_FORM_FULL, some .TIME_FUTURE, some .NUMBER_SINGULAR, some .CASE_GENITIVE, some .GENDER_FEMININE, some .ANIMALITY_INANIMATE], 251),
   ([some .PARTICIPLE_FORM_FULL, some .TIME_FUTURE, some .NUMBER_SINGULAR, some .CASE_DATIVE, some .GENDER_MASCULINE, some .ANIMALITY_ANIMATE], 252),
   ([some .PARTICIPLE_FORM_FULL, some .TIME_FUTURE, some .NUMBER_SINGULAR, some .CASE_DATIVE, some .GENDER_MASCULINE, some .ANIMALITY_INANIMATE], 253),
   ([some .PARTICIPLE_FORM_FULL, some .TIME_FUTURE, some .NUMBER_SINGULAR, some .CASE_DATIVE, some .GENDER_NEUTER, some .ANIMALITY_ANIMATE], 254),
   ([some .PARTICIPLE_FORM_FULL, some .TIME_FUTURE, some .NUMBER_SINGULAR, some .CASE_DATIVE, some .GENDER_NEUTER, some .ANIMALITY_INANIMATE], 255),
   ([some .PARTICIPLE_FORM_FULL, some .TIME_FUTURE, some .NUMBER_SINGULAR, some .CASE_DATIVE, some .GENDER_FEMININE, some .ANIMALITY_ANIMATE], 256),
   ([some .PARTICIPLE_FORM_FULL, some .TIME_FUTURE, some .NUMBER_SINGULAR, some .CASE_DATIVE, some .GENDER_FEMININE, some .ANIMALITY_INANIMATE], 257),
   ([some .PARTICIPLE_FORM_FULL, some .TIME_FUTURE, some .NUMBER_SINGULAR, some .CASE_ACCUSATIVE, some .GENDER_MASCULINE, some .ANIMALITY_ANIMATE], 258),
   ([some .PARTICIPLE_FORM_FULL, some .TIME_FUTURE, some .NUMBER_SINGULAR, some .CASE_ACCUSATIVE, some .GENDER_MASCULINE, some .ANIMALITY_INANIMATE], 259),
   ([some .PARTICIPLE_FORM_FULL, some .TIME_FUTURE, some .NUMBER_SINGULAR, some .CASE_ACCUSATIVE, some .GENDER_NEUTER, some .ANIMALITY_ANIMATE], 260),
   ([some .PARTICIPLE_FORM_FULL, some .TIME_FUTURE, some .NUMBER_SINGULAR, some .CASE_ACCUSATIVE, some .GENDER_NEUTER, some .ANIMALITY_INANIMATE], 261),
   ([some .PARTICIPLE_FORM_FULL, some .TIME_FUTURE, some .NUMBER_SINGULAR, some .CASE_ACCUSATIVE, some .GENDER_FEMININE, some .ANIMALITY_ANIMATE], 262),
   ([some .PARTICIPLE_FORM_FULL, some .TIME_FUTURE, some .NUMBER_SINGULAR, some .CASE_ACCUSATIVE, some .GENDER_FEMININE, some .ANIMALITY_INANIMATE], 263),
   ([some .PARTICIPLE_FORM_FULL, some .TIME_FUTURE, some .NUMBER_SINGULAR, some .CASE_INSTRUMENTAL, some .GENDER_MASCULINE, some .ANIMALITY_ANIMATE], 264),
   ([some .PARTICIPLE_FORM_FULL, some .TIME_FUTURE, some .NUMBER_SINGULAR, some .CASE_INSTRUMENTAL, some .GENDER_MASCULINE, some .ANIMALITY_INANIMATE], 265),
   ([some .PARTICIPLE_FORM_FULL, some .TIME_FUTURE, some .NUMBER_SINGULAR, some .CASE_INSTRUMENTAL, some .GENDER_NEUTER, some .ANIMALITY_ANIMATE], 266),
   ([some .PARTICIPLE_FORM_FULL, some .TIME_FUTURE, some .NUMBER_SINGULAR, some .CASE_INSTRUMENTAL, some .GENDER_NEUTER, some .ANIMALITY_INANIMATE], 267),
   ([some .PARTICIPLE_FORM_FULL, some .TIME_FUTURE, some .NUMBER_SINGULAR, some .CASE_INSTRUMENTAL, some .GENDER_FEMININE, some .ANIMALITY_ANIMATE], 268),
   ([some .PARTICIPLE_FORM_FULL, some .TIME_FUTURE, some .NUMBER_SINGULAR, some .CASE_INSTRUMENTAL, some .GENDER_FEMININE, some .ANIMALITY_INANIMATE], 269),
   ([some .PARTICIPLE_FORM_FULL, some .TIME_FUTURE, some .NUMBER_SINGULAR, some .CASE_PREPOSITIONAL, some .GENDER_MASCULINE, some .ANIMALITY_ANIMATE], 270),
   ([some .PARTICIPLE_FORM_FULL, some .TIME_FUTURE, some .NUMBER_SINGULAR, some .CASE_PREPOSITIONAL, some .GENDER_MASCULINE, some .ANIMALITY_INANIMATE], 271),
   ([some .PARTICIPLE_FORM_FULL, some .TIME_FUTURE, some .NUMBER_SINGULAR, some .CASE_PREPOSITIONAL, some .GENDER_NEUTER, some .ANIMALITY_ANIMATE], 272),
   ([some .PARTICIPLE_FORM_FULL, some .TIME_FUTURE, some .NUMBER_SINGULAR, some .CASE_PREPOSITIONAL, some .GENDER_NEUTER, some .ANIMALITY_INANIMATE], 273),
   ([some .PARTICIPLE_FORM_FULL, some .TIME_FUTURE, some .NUMBER_SINGULAR, some .CASE_PREPOSITIONAL, some .GENDER_FEMININE, some .ANIMALITY_ANIMATE], 274),
   ([some .PARTICIPLE_FORM_FULL, some .TIME_FUTURE, some .NUMBER_SINGULAR, some .CASE_PREPOSITIONAL, some .GENDER_FEMININE, some .ANIMALITY_INANIMATE], 275),
   ([some .PARTICIPLE_FORM_FULL, some .TIME_FUTURE, some .NUMBER_PLURAL, some .CASE_NOMINATIVE, none, some .ANIMALITY_ANIMATE], 276),
   ([some .PARTICIPLE_FORM_FULL, some .TIME_FUTURE, some .NUMBER_PLURAL, some .CASE_NOMINATIVE, none, some .ANIMALITY_INANIMATE], 277),
   ([some .PARTICIPLE_FORM_FULL, some .TIME_FUTURE, some .NUMBER_PLURAL, some .CASE_GENITIVE, none, some .ANIMALITY_ANIMATE], 278),
   ([some .PARTICIPLE_FORM_FULL, some .TIME_FUTURE, some .NUMBER_PLURAL, some .CASE_GENITIVE, none, some .ANIMALITY_INANIMATE], 279),
   ([some .PARTICIPLE_FORM_FULL, some .TIME_FUTURE, some .NUMBER_PLURAL, some .CASE_DATIVE, none, some .ANIMALITY_ANIMATE], 280),
   ([some .PARTICIPLE_FORM_FULL, some .TIME_FUTURE, some .NUMBER_PLURAL, some .CASE_DATIVE, none, some .ANIMALITY_INANIMATE], 281),
   ([some .PARTICIPLE_FORM_FULL, some .TIME_FUTURE, some .NUMBER_PLURAL, some .CASE_ACCUSATIVE, none, some .ANIMALITY_ANIMATE], 282),
   ([some .PARTICIPLE_FORM_FULL, some .TIME_FUTURE, some .NUMBER_PLURAL, some .CASE_ACCUSATIVE, none, some .ANIMALITY_INANIMATE], 283),
   ([some .PARTICIPLE_FORM_FULL, some .TIME_FUTURE, some .NUMBER_PLURAL, some .CASE_INSTRUMENTAL, none, some .ANIMALITY_ANIMATE], 284),
   ([some .PARTICIPLE_FORM_FULL, some .TIME_FUTURE, some .NUMBER_PLURAL, some .CASE_INSTRUMENTAL, none, some .ANIMALITY_INANIMATE], 285),
   ([some .PARTICIPLE_FORM_FULL, some .TIME_FUTURE, some .NUMBER_PLURAL, some .CASE_PREPOSITIONAL, none, some .ANIMALITY_ANIMATE], 286),
   ([some .PARTICIPLE_FORM_FULL, some .TIME_FUTURE, some .NUMBER_PLURAL, some .CASE_PREPOSITIONAL, none, some .ANIMALITY_INANIMATE], 287),
   ([some .PARTICIPLE_FORM_SHORT, none, some .NUMBER_SINGULAR, none, some .GENDER_MASCULINE, none], 288),
   ([some .PARTICIPLE_FORM_SHORT, none, some .NUMBER_SINGULAR, none, some .GENDER_NEUTER, none], 289),
   ([some .PARTICIPLE_FORM_SHORT, none, some .NUMBER_SINGULAR, none, some .GENDER_FEMININE, none], 290),
   ([some .PARTICIPLE_FORM_SHORT, none, some .NUMBER_PLURAL, none, none, none], 291)]

/-- `OLD_CACHES[WORD_TYPE.PARTICIPLE]` (utg/migrations/m_0007_reduce_words_forms.py:294-585): the literal repeats keys, a later item overrides the value of
an earlier one. -/
def oldParticiple : Dict Key Nat := Dict.update [] oldParticipleItems

/-- `OLD_CACHES[WORD_TYPE.INTEGER]` (utg/migrations/m_0007_reduce_words_forms.py:586-586). -/
def oldInteger : Dict Key Nat :=
  [([], 0)]

/-- `OLD_CACHES[WORD_TYPE.TEXT]` (utg/migrations/m_0007_reduce_words_forms.py:587-587). -/
def oldText : Dict Key Nat :=
  [([], 0)]

/-- `OLD_CACHES[WORD_TYPE.PREPOSITION]` (utg/migrations/m_0007_reduce_words_forms.py:588-590). -/
def oldPreposition : Dict Key Nat :=
  [([some .PREPOSITION_FORM_NORMAL], 0),
   ([some .PREPOSITION_FORM_ALTERNATIVE], 1),
   ([some .PREPOSITION_FORM_SPECIAL], 2)]

/-- `OLD_CACHES` (utg/migrations/m_0007_reduce_words_forms.py). -/
def oldCaches : WordType → Dict Key Nat
  | .NOUN => oldNoun
  | .ADJECTIVE => oldAdjective
  | .PRONOUN => oldPronoun
  | .VERB => oldVerb
  | .PARTICIPLE => oldParticiple
  | .INTEGER => oldInteger
  | .TEXT => oldText
  | .PREPOSITION => oldPreposition

/-- `NEW_CACHES[WORD_TYPE.NOUN]` (utg/migrations/m_0007_reduce_words_forms.py:592-609). -/
def newNoun : Dict Key Nat :=
  [([some .NOUN_FORM_NORMAL, some .NUMBER_SINGULAR, some .CASE_NOMINATIVE], 0),
   ([some .NOUN_FORM_NORMAL, some .NUMBER_SINGULAR, some .CASE_GENITIVE], 1),
   ([some .NOUN_FORM_NORMAL, some .NUMBER_SINGULAR, some .CASE_DATIVE], 2),
   ([some .NOUN_FORM_NORMAL, some .NUMBER_SINGULAR, some .CASE_ACCUSATIVE], 3),
   ([some .NOUN_FORM_NORMAL, some .NUMBER_SINGULAR, some .CASE_INSTRUMENTAL], 4),
   ([some .NOUN_FORM_NORMAL, some .NUMBER_SINGULAR, some .CASE_PREPOSITIONAL], 5),
   ([some .NOUN_FORM_NORMAL, some .NUMBER_PLURAL, some .CASE_NOMINATIVE], 6),
   ([some .NOUN_FORM_NORMAL, some .NUMBER_PLURAL, some .CASE_GENITIVE], 7),
   ([some .NOUN_FORM_NORMAL, some .NUMBER_PLURAL, some .CASE_DATIVE], 8),
   ([some .NOUN_FORM_NORMAL, some .NUMBER_PLURAL, some .CASE_ACCUSATIVE], 9),
   ([some .NOUN_FORM_NORMAL, some .NUMBER_PLURAL, some .CASE_INSTRUMENTAL], 10),
   ([some .NOUN_FORM_NORMAL, some .NUMBER_PLURAL, some .CASE_PREPOSITIONAL], 11),
   ([some .NOUN_FORM_COUNTABLE, some .NUMBER_PLURAL, some .CASE_NOMINATIVE], 12),
   ([some .NOUN_FORM_COUNTABLE, some .NUMBER_PLURAL, some .CASE_GENITIVE], 13),
   ([some .NOUN_FORM_COUNTABLE, some .NUMBER_PLURAL, some .CASE_DATIVE], 14),
   ([some .NOUN_FORM_COUNTABLE, some .NUMBER_PLURAL, some .CASE_ACCUSATIVE], 15),
   ([some .NOUN_FORM_COUNTABLE, some .NUMBER_PLURAL, some .CASE_INSTRUMENTAL], 16),
   ([some .NOUN_FORM_COUNTABLE, some .NUMBER_PLURAL, some .CASE_PREPOSITIONAL], 17)]

/-- `NEW_CACHES[WORD_TYPE.ADJECTIVE]` (utg/migrations/m_0007_reduce_words_forms.py:610-710). -/
def newAdjective : Dict Key Nat :=
  [([some .ADJECTIVE_FORM_FULL, some .GRADE_POSITIVE, some .NUMBER_SINGULAR, some .CASE_NOMINATIVE, some .GENDER_MASCULINE, some .ANIMALITY_ANIMATE], 0),
   ([some .ADJECTIVE_FORM_FULL, some .GRADE_POSITIVE, some .NUMBER_SINGULAR, some .CASE_NOMINATIVE, some .GENDER_MASCULINE, some .ANIMALITY_INANIMATE], 1),
   ([some .ADJECTIVE_FORM_FULL, some .GRADE_POSITIVE, some .NUMBER_SINGULAR, some .CASE_NOMINATIVE, some .GENDER_NEUTER, some .ANIMALITY_ANIMATE], 2),
   ([some .ADJECTIVE_FORM_FULL, some .GRADE_POSITIVE, some .NUMBER_SINGULAR, some .CASE_NOMINATIVE, some .GENDER_NEUTER, some .ANIMALITY_INANIMATE], 3),
   ([some .ADJECTIVE_FORM_FULL, some .GRADE_POSITIVE, some .NUMBER_SINGULAR, some .CASE_NOMINATIVE, some .GENDER_FEMININE, some .ANIMALITY_ANIMATE], 4),
   ([some .ADJECTIVE_FORM_FULL, some .GRADE_POSITIVE, some .NUMBER_SINGULAR, some .CASE_NOMINATIVE, some .GENDER_FEMININE, some .ANIMALITY_INANIMATE], 5),
   ([some .ADJECTIVE_FORM_FULL, some .GRADE_POSITIVE, some .NUMBER_SINGULAR, some .CASE_GENITIVE, some .GENDER_MASCULINE, some .ANIMALITY_ANIMATE], 6),
   ([some .ADJECTIVE_FORM_FULL, some .GRADE_POSITIVE, some .NUMBER_SINGULAR, some .CASE_GENITIVE, some .GENDER_MASCULINE, some .ANIMALITY_INANIMATE], 7),
   ([some .ADJECTIVE_FORM_FULL, some .GRADE_POSITIVE, some .NUMBER_SINGULAR, some .CASE_GENITIVE, some .GENDER_NEUTER, some .ANIMALITY_ANIMATE], 8),
   ([some .ADJECTIVE_FORM_FULL, some .GRADE_POSITIVE, some .NUMBER_SINGULAR, some .CASE_GENITIVE, some .GENDER_NEUTER, some .ANIMALITY_INANIMATE], 9),
   ([some .ADJECTIVE_FORM_FULL, some .GRADE_POSITIVE, some .NUMBER_SINGULAR, some .CASE_GENITIVE, some .GENDER_FEMININE, some .ANIMALITY_ANIMATE], 10),
   ([some .ADJECTIVE_FORM_FULL, some .GRADE_POSITIVE, some .NUMBER_SINGULAR, some .CASE_GENITIVE, some .GENDER_FEMININE, some .ANIMALITY_INANIMATE], 11),
   ([some .ADJECTIVE_FORM_FULL, some .GRADE_POSITIVE, some .NUMBER_SINGULAR, some .CASE_DATIVE, some .GENDER_MASCULINE, some .ANIMALITY_ANIMATE], 12),
   ([some .ADJECTIVE_FORM_FULL, some .GRADE_POSITIVE, some .NUMBER_SINGULAR, some .CASE_DATIVE, some .GENDER_MASCULINE, some .ANIMALITY_INANIMATE], 13),
   ([some .ADJECTIVE_FORM_FULL, some .GRADE_POSITIVE, some .NUMBER_SINGULAR, some .CASE_DATIVE, some .GENDER_NEUTER, some .ANIMALITY_ANIMATE], 14),
   ([some .ADJECTIVE_FORM_FULL, some .GRADE_POSITIVE, some .NUMBER_SINGULAR, some .CASE_DATIVE, some .GENDER_NEUTER, some .ANIMALITY_INANIMATE], 15),
   ([some .ADJECTIVE_FORM_FULL, some .GRADE_POSITIVE, some .NUMBER_SINGULAR, some .CASE_DATIVE, some .GENDER_FEMININE, some .ANIMALITY_ANIMATE], 16),
   ([some .ADJECTIVE_FORM_FULL, some .GRADE_POSITIVE, some .NUMBER_SINGULAR, some .CASE_DATIVE, some .GENDER_FEMININE, some .ANIMALITY_INANIMATE], 17),
   ([some .ADJECTIVE_FORM_FULL, some .GRADE_POSITIVE, some .NUMBER_SINGULAR, some .CASE_ACCUSATIVE, some .GENDER_MASCULINE, some .ANIMALITY_ANIMATE], 18),
   ([some .ADJECTIVE_FORM_FULL, some .GRADE_POSITIVE, some .NUMBER_SINGULAR, some .CASE_ACCUSATIVE, some .GENDER_MASCULINE, some .ANIMALITY_INANIMATE], 19),
   ([some .ADJECTIVE_FORM_FULL, some .GRADE_POSITIVE, some .NUMBER_SINGULAR, some .CASE_ACCUSATIVE, some .GENDER_NEUTER, some .ANIMALITY_ANIMATE], 20),
   ([some .ADJECTIVE_FORM_FULL, some .GRADE_POSITIVE, some .NUMBER_SINGULAR, some .CASE_ACCUSATIVE, some .GENDER_NEUTER, some .ANIMALITY_INANIMATE], 21),
   ([some .ADJECTIVE_FORM_FULL, some .GRADE_POSITIVE, some .NUMBER_SINGULAR, some .CASE_ACCUSATIVE, some .GENDER_FEMININE, some .ANIMALITY_ANIMATE], 22),
   ([some .ADJECTIVE_FORM_FULL, some .GRADE_POSITIVE, some .NUMBER_SINGULAR, some .CASE_ACCUSATIVE, some .GENDER_FEMININE, some .ANIMALITY_INANIMATE], 23),
   ([some .ADJECTIVE_FORM_FULL, some .GRADE_POSITIVE, some .NUMBER_SINGULAR, some .CASE_INSTRUMENTAL, some .GENDER_MASCULINE, some .ANIMALITY_ANIMATE], 24),
   ([some .ADJECTIVE_FORM_FULL, some .GRADE_POSITIVE, some .NUMBER_SINGULAR, some .CASE_INSTRUMENTAL, some .GENDER_MASCULINE, some .ANIMALITY_INANIMATE], 25),
   ([some .ADJECTIVE_FORM_FULL, some .GRADE_POSITIVE, some .NUMBER_SINGULAR, some .CASE_INSTRUMENTAL, some .GENDER_NEUTER, some .ANIMALITY_ANIMATE], 26),
   ([some .ADJECTIVE_FORM_FULL, some .GRADE_POSITIVE, some .NUMBER_SINGULAR, some .CASE_INSTRUMENTAL, some .GENDER_NEUTER, some .ANIMALITY_INANIMATE], 27),
   ([some .ADJECTIVE_FORM_FULL, some .GRADE_POSITIVE, some .NUMBER_SINGULAR, some .CASE_INSTRUMENTAL, some .GENDER_FEMININE, some .ANIMALITY_ANIMATE], 28),
   ([some .ADJECTIVE_FORM_FULL, some .GRADE_POSITIVE, some .NUMBER_SINGULAR, some .CASE_INSTRUMENTAL, some .GENDER_FEMININE, some .ANIMALITY_INANIMATE], 29),
   ([some .ADJECTIVE_FORM_FULL, some .GRADE_POSITIVE, some .NUMBER_SINGULAR, some .CASE_PREPOSITIONAL, some .GENDER_MASCULINE, some .ANIMALITY_ANIMATE], 30),
   ([some .ADJECTIVE_FORM_FULL, some .GRADE_POSITIVE, some .NUMBER_SINGULAR, some .CASE_PREPOSITIONAL, some .GENDER_MASCULINE, some .ANIMALITY_INANIMATE], 31),
   ([some .ADJECTIVE_FORM_FULL, some .GRADE_POSITIVE, some .NUMBER_SINGULAR, some .CASE_PREPOSITIONAL, some .GENDER_NEUTER, some .ANIMALITY_ANIMATE], 32),
   ([some .ADJECTIVE_FORM_FULL, some .GRADE_POSITIVE, some .NUMBER_SINGULAR, some .CASE_PREPOSITIONAL, some .GENDER_NEUTER, some .ANIMALITY_INANIMATE], 33),
   ([some .ADJECTIVE_FORM_FULL, some .GRADE_POSITIVE, some .NUMBER_SINGULAR, some .CASE_PREPOSITIONAL, some .GENDER_FEMININE, some .ANIMALITY_ANIMATE], 34),
   ([some .ADJECTIVE_FORM_FULL, some .GRADE_POSITIVE, some .NUMBER_SINGULAR, some .CASE_PREPOSITIONAL, some .GENDER_FEMININE, some .ANIMALITY_INANIMATE], 35),
   ([some .ADJECTIVE_FORM_FULL, some .GRADE_POSITIVE, some .NUMBER_PLURAL, some .CASE_NOMINATIVE, none, some .ANIMALITY_ANIMATE], 36),
   ([some .ADJECTIVE_FORM_FULL, some .GRADE_POSITIVE, some .NUMBER_PLURAL, some .CASE_NOMINATIVE, none, some .ANIMALITY_INANIMATE], 37),
   ([some .ADJECTIVE_FORM_FULL, some .GRADE_POSITIVE, some .NUMBER_PLURAL, some .CASE_GENITIVE, none, some .ANIMALITY_ANIMATE], 38),
   ([some .ADJECTIVE_FORM_FULL, some .GRADE_POSITIVE, some .NUMBER_PLURAL, some .CASE_GENITIVE, none, some .ANIMALITY_INANIMATE], 39),
   ([some .ADJECTIVE_FORM_FULL, some .GRADE_POSITIVE, some .NUMBER_PLURAL, some .CASE_DATIVE, none, some .ANIMALITY_ANIMATE], 40),
   ([some .ADJECTIVE_FORM_FULL, some .GRADE_POSITIVE, some .NUMBER_PLURAL, some .CASE_DATIVE, none, some .ANIMALITY_INANIMATE], 41),
   ([some .ADJECTIVE_FORM_FULL, some .GRADE_POSITIVE, some .NUMBER_PLURAL, some .CASE_ACCUSATIVE, none, some .ANIMALITY_ANIMATE], 42),
   ([some .ADJECTIVE_FORM_FULL, some .GRADE_POSITIVE, some .NUMBER_PLURAL, some .CASE_ACCUSATIVE, none, some .ANIMALITY_INANIMATE], 43),
   ([some .ADJECTIVE_FORM_FULL, some .GRADE_POSITIVE, some .NUMBER_PLURAL, some .CASE_INSTRUMENTAL, none, some .ANIMALITY_ANIMATE], 44),
   ([some .ADJECTIVE_FORM_FULL, some .GRADE_POSITIVE, some .NUMBER_PLURAL, some .CASE_INSTRUMENTAL, none, some .ANIMALITY_INANIMATE], 45),
   ([some .ADJECTIVE_FORM_FULL, some .GRADE_POSITIVE, some .NUMBER_PLURAL, some .CASE_PREPOSITIONAL, none, some .ANIMALITY_ANIMATE], 46),
   ([some .ADJECTIVE_FORM_FULL, some .GRADE_POSITIVE, some .NUMBER_PLURAL, some .CASE_PREPOSITIONAL, none, some .ANIMALITY_INANIMATE], 47),
   ([some .ADJECTIVE_FORM_FULL, some .GRADE_COMPARATIVE, none, none, none, none], 48),
   ([some .ADJECTIVE_FORM_FULL, some .GRADE_SUPERLATIVE, some .NUMBER_SINGULAR, some .CASE_NOMINATIVE, some .GENDER_MASCULINE, some .ANIMALITY_ANIMATE], 49),
   ([some .ADJECTIVE_FORM_FULL, some .GRADE_SUPERLATIVE, some .NUMBER_SINGULAR, some .CASE_NOMINATIVE, some .GENDER_MASCULINE, some .ANIMALITY_INANIMATE], 50),
   ([some .ADJECTIVE_FORM_FULL, some .GRADE_SUPERLATIVE, some .NUMBER_SINGULAR, some .CASE_NOMINATIVE, some .GENDER_NEUTER, some .ANIMALITY_ANIMATE], 51),
   ([some .ADJECTIVE_FORM_FULL, some .GRADE_SUPERLATIVE, some .NUMBER_SINGULAR, some .CASE_NOMINATIVE, some .GENDER_NEUTER, some .ANIMALITY_INANIMATE], 52),
   ([some .ADJECTIVE_FORM_FULL, some .GRADE_SUPERLATIVE, some .NUMBER_SINGULAR, some .CASE_NOMINATIVE, some .GENDER_FEMININE, some .ANIMALITY_ANIMATE], 53),
   ([some .ADJECTIVE_FORM_FULL, some .GRADE_SUPERLATIVE, some .NUMBER_SINGULAR, some .CASE_NOMINATIVE, some .GENDER_FEMININE, some .ANIMALITY_INANIMATE], 54),
   ([some .ADJECTIVE_FORM_FULL, some .GRADE_SUPERLATIVE, some .NUMBER_SINGULAR, some .CASE_GENITIVE, some .GENDER_MASCULINE, some .ANIMALITY_ANIMATE], 55),
   ([some .ADJECTIVE_FORM_FULL, some .GRADE_SUPERLATIVE, some .NUMBER_SINGULAR, some .CASE_GENITIVE, some .GENDER_MASCULINE, some .ANIMALITY_INANIMATE], 56),
   ([some .ADJECTIVE_FORM_FULL, some .GRADE_SUPERLATIVE, some .NUMBER_SINGULAR, some .CASE_GENITIVE, some .GENDER_NEUTER, some .ANIMALITY_ANIMATE], 57),
   ([some .ADJECTIVE_FORM_FULL, some .GRADE_SUPERLATIVE, some .NUMBER_SINGULAR, some .CASE_GENITIVE, some .GENDER_NEUTER, some .ANIMALITY_INANIMATE], 58),
   ([some .ADJECTIVE_FORM_FULL, some .GRADE_SUPERLATIVE, some .NUMBER_SINGULAR, some .CASE_GENITIVE, some .GENDER_FEMININE, some .ANIMALITY_ANIMATE], 59),
   ([some .ADJECTIVE_FORM_FULL, some .GRADE_SUPERLATIVE, some .NUMBER_SINGULAR, some .CASE_GENITIVE, some .GENDER_FEMININE, some .ANIMALITY_INANIMATE], 60),
   ([some .ADJECTIVE_FORM_FULL, some .GRADE_SUPERLATIVE, some .NUMBER_SINGULAR, some .CASE_DATIVE, some .GENDER_MASCULINE, some .ANIMALITY_ANIMATE], 61),
   ([some .ADJECTIVE_FORM_FULL, some .GRADE_SUPERLATIVE, some .NUMBER_SINGULAR, some .CASE_DATIVE, some .GENDER_MASCULINE, some .ANIMALITY_INANIMATE], 62),
   ([some .ADJECTIVE_FORM_FULL, some .GRADE_SUPERLATIVE, some .NUMBER_SINGULAR, some .CASE_DATIVE, some .GENDER_NEUTER, some .ANIMALITY_ANIMATE], 63),
   ([some .ADJECTIVE_FORM_FULL, some .GRADE_SUPERLATIVE, some .NUMBER_SINGULAR, some .CASE_DATIVE, some .GENDER_NEUTER, some .ANIMALITY_INANIMATE], 64),
   ([some .ADJECTIVE_FORM_FULL, some .GRADE_SUPERLATIVE, some .NUMBER_SINGULAR, some .CASE_DATIVE, some .GENDER_FEMININE, some .ANIMALITY_ANIMATE], 65),
   ([some .ADJECTIVE_FORM_FULL, some .GRADE_SUPERLATIVE, some .NUMBER_SINGULAR, some .CASE_DATIVE, some .GENDER_FEMININE, some .ANIMALITY_INANIMATE], 66),
   ([some .ADJECTIVE_FORM_FULL, some .GRADE_SUPERLATIVE, some .NUMBER_SINGULAR, some .CASE_ACCUSATIVE, some .GENDER_MASCULINE, some .ANIMALITY_ANIMATE], 67),
   ([some .ADJECTIVE_FORM_FULL, some .GRADE_SUPERLATIVE, some .NUMBER_SINGULAR, some .CASE_ACCUSATIVE, some .GENDER_MASCULINE, some .ANIMALITY_INANIMATE], 68),
   ([some .ADJECTIVE_FORM_FULL, some .GRADE_SUPERLATIVE, some .NUMBER_SINGULAR, some .CASE_ACCUSATIVE, some .GENDER_NEUTER, some .ANIMALITY_ANIMATE], 69),
   ([some .ADJECTIVE_FORM_FULL, some .GRADE_SUPERLATIVE, some .NUMBER_SINGULAR, some .CASE_ACCUSATIVE, some .GENDER_NEUTER, some .ANIMALITY_INANIMATE], 70),
   ([some .ADJECTIVE_FORM_FULL, some .GRADE_SUPERLATIVE, some .NUMBER_SINGULAR, some .CASE_ACCUSATIVE, some .GENDER_FEMININE, some .ANIMALITY_ANIMATE], 71),
   ([some .ADJECTIVE_FORM_FULL, some .GRADE_SUPERLATIVE, some .NUMBER_SINGULAR, some .CASE_ACCUSATIVE, some .GENDER_FEMININE, some .ANIMALITY_INANIMATE], 72),
   ([some .ADJECTIVE_FORM_FULL, some .GRADE_SUPERLATIVE, some .NUMBER_SINGULAR, some .CASE_INSTRUMENTAL, some .GENDER_MASCULINE, some .ANIMALITY_ANIMATE], 73),
   ([some .ADJECTIVE_FORM_FULL, some .GRADE_SUPERLATIVE, some .NUMBER_SINGULAR, some .CASE_INSTRUMENTAL, some .GENDER_MASCULINE, some .ANIMALITY_INANIMATE], 74),
   ([some .ADJECTIVE_FORM_FULL, some .GRADE_SUPERLATIVE, some .NUMBER_SINGULAR, some .CASE_INSTRUMENTAL, some .GENDER_NEUTER, some .ANIMALITY_ANIMATE], 75),
   ([some .ADJECTIVE_FORM_FULL, some .GRADE_SUPERLATIVE, some .NUMBER_SINGULAR, some .CASE_INSTRUMENTAL, some .GENDER_NEUTER, some .ANIMALITY_INANIMATE], 76),
   ([some .ADJECTIVE_FORM_FULL, some .GRADE_SUPERLATIVE, some .NUMBER_SINGULAR, some .CASE_INSTRUMENTAL, some .GENDER_FEMININE, some .ANIMALITY_ANIMATE], 77),
   ([some .ADJECTIVE_FORM_FULL, some .GRADE_SUPERLATIVE, some .NUMBER_SINGULAR, some .CASE_INSTRUMENTAL, some .GENDER_FEMININE, some .ANIMALITY_INANIMATE], 78),
   ([some .ADJECTIVE_FORM_FULL, some .GRADE_SUPERLATIVE, some .NUMBER_SINGULAR, some .CASE_PREPOSITIONAL, some .GENDER_MASCULINE, some .ANIMALITY_ANIMATE], 79),
   ([some .ADJECTIVE_FORM_FULL, some .GRADE_SUPERLATIVE, some .NUMBER_SINGULAR, some .CASE_PREPOSITIONAL, some .GENDER_MASCULINE, some .ANIMALITY_INANIMATE], 80),
   ([some .ADJECTIVE_FORM_FULL, some .GRADE_SUPERLATIVE, some .NUMBER_SINGULAR, some .CASE_PREPOSITIONAL, some .GENDER_NEUTER, some .ANIMALITY_ANIMATE], 81),
   ([some .ADJECTIVE_FORM_FULL, some .GRADE_SUPERLATIVE, some .NUMBER_SINGULAR, some .CASE_PREPOSITIONAL, some .GENDER_NEUTER, some .ANIMALITY_INANIMATE], 82),
   ([some .ADJECTIVE_FORM_FULL, some .GRADE_SUPERLATIVE, some .NUMBER_SINGULAR, some .CASE_PREPOSITIONAL, some .GENDER_FEMININE, some .ANIMALITY_ANIMATE], 83),
   ([some .ADJECTIVE_FORM_FULL, some .GRADE_SUPERLATIVE, some .NUMBER_SINGULAR, some .CASE_PREPOSITIONAL, some .GENDER_FEMININE, some .ANIMALITY_INANIMATE], 84),
   ([some .ADJECTIVE_FORM_FULL, some .GRADE_SUPERLATIVE, some .NUMBER_PLURAL, some .CASE_NOMINATIVE, none, some .ANIMALITY_ANIMATE], 85),
   ([some .ADJECTIVE_FORM_FULL, some .GRADE_SUPERLATIVE, some .NUMBER_PLURAL, some .CASE_NOMINATIVE, none, some .ANIMALITY_INANIMATE], 86),
   ([some .ADJECTIVE_FORM_FULL, some .GRADE_SUPERLATIVE, some .NUMBER_PLURAL, some .CASE_GENITIVE, none, some .ANIMALITY_ANIMATE], 87),
   ([some .ADJECTIVE_FORM_FULL, some .GRADE_SUPERLATIVE, some .NUMBER_PLURAL, some .CASE_GENITIVE, none, some .ANIMALITY_INANIMATE], 88),
   ([some .ADJECTIVE_FORM_FULL, some .GRADE_SUPERLATIVE, some .NUMBER_PLURAL, some .CASE_DATIVE, none, some .ANIMALITY_ANIMATE], 89),
   ([some .ADJECTIVE_FORM_FULL, some .GRADE_SUPERLATIVE, some .NUMBER_PLURAL, some .CASE_DATIVE, none, some .ANIMALITY_INANIMATE], 90),
   ([some .ADJECTIVE_FORM_FULL, some .GRADE_SUPERLATIVE, some .NUMBER_PLURAL, some .CASE_ACCUSATIVE, none, some .ANIMALITY_ANIMATE], 91),
   ([some .ADJECTIVE_FORM_FULL, some .GRADE_SUPERLATIVE, some .NUMBER_PLURAL, some .CASE_ACCUSATIVE, none, some .ANIMALITY_INANIMATE], 92),
   ([some .ADJECTIVE_FORM_FULL, some .GRADE_SUPERLATIVE, some .NUMBER_PLURAL, some .CASE_INSTRUMENTAL, none, some .ANIMALITY_ANIMATE], 93),
   ([some .ADJECTIVE_FORM_FULL, some .GRADE_SUPERLATIVE, some .NUMBER_PLURAL, some .CASE_INSTRUMENTAL, none, some .ANIMALITY_INANIMATE], 94),
   ([some .ADJECTIVE_FORM_FULL, some .GRADE_SUPERLATIVE, some .NUMBER_PLURAL, some .CASE_PREPOSITIONAL, none, some .ANIMALITY_ANIMATE], 95),
   ([some .ADJECTIVE_FORM_FULL, some .GRADE_SUPERLATIVE, some .NUMBER_PLURAL, some .CASE_PREPOSITIONAL, none, some .ANIMALITY_INANIMATE], 96),
   ([some .ADJECTIVE_FORM_SHORT, none, some .NUMBER_SINGULAR, none, some .GENDER_MASCULINE, none], 97),
   ([some .ADJECTIVE_FORM_SHORT, none, some .NUMBER_SINGULAR, none, some .GENDER_NEUTER, none], 98),
   ([some .ADJECTIVE_FORM_SHORT, none, some .NUMBER_SINGULAR, none, some .GENDER_FEMININE, none], 99),
   ([some .ADJECTIVE_FORM_SHORT, none, some .NUMBER_PLURAL, none, none, none], 100)]

/-- `NEW_CACHES[WORD_TYPE.PRONOUN]` (utg/migrations/m_0007_reduce_words_forms.py:711-782). -/
def newPronoun : Dict Key Nat :=
  [([some .NUMBER_SINGULAR, some .CASE_NOMINATIVE, some .PERSON_FIRST, some .GENDER_MASCULINE], 0),
   ([some .NUMBER_SINGULAR, some .CASE_NOMINATIVE, some .PERSON_FIRST, some .GENDER_NEUTER], 1),
   ([some .NUMBER_SINGULAR, some .CASE_NOMINATIVE, some .PERSON_FIRST, some .GENDER_FEMININE], 2),
   ([some .NUMBER_SINGULAR, some .CASE_NOMINATIVE, some .PERSON_SECOND, some .GENDER_MASCULINE], 3),
   ([some .NUMBER_SINGULAR, some .CASE_NOMINATIVE, some .PERSON_SECOND, some .GENDER_NEUTER], 4),
   ([some .NUMBER_SINGULAR, some .CASE_NOMINATIVE, some .PERSON_SECOND, some .GENDER_FEMININE], 5),
   ([some .NUMBER_SINGULAR, some .CASE_NOMINATIVE, some .PERSON_THIRD, some .GENDER_MASCULINE], 6),
   ([some .NUMBER_SINGULAR, some .CASE_NOMINATIVE, some .PERSON_THIRD, some .GENDER_NEUTER], 7),
   ([some .NUMBER_SINGULAR, some .CASE_NOMINATIVE, some .PERSON_THIRD, some .GENDER_FEMININE], 8),
   ([some .NUMBER_SINGULAR, some .CASE_GENITIVE, some .PERSON_FIRST, some .GENDER_MASCULINE], 9),
   ([some .NUMBER_SINGULAR, some .CASE_GENITIVE, some .PERSON_FIRST, some .GENDER_NEUTER], 10),
   ([some .NUMBER_SINGULAR, some .CASE_GENITIVE, some .PERSON_FIRST, some .GENDER_FEMININE], 11),
   ([some .NUMBER_SINGULAR, some .CASE_GENITIVE, some .PERSON_SECOND, some .GENDER_MASCULINE], 12),
   ([some .NUMBER_SINGULAR, some .CASE_GENITIVE, some .PERSON_SECOND, some .GENDER_NEUTER], 13),
   ([some .NUMBER_SINGULAR, some .CASE_GENITIVE, some .PERSON_SECOND, some .GENDER_FEMININE], 14),
   ([some .NUMBER_SINGULAR, some .CASE_GENITIVE, some .PERSON_THIRD, some .GENDER_MASCULINE], 15),
   ([some .NUMBER_SINGULAR, some .CASE_GENITIVE, some .PERSON_THIRD, some .GENDER_NEUTER], 16),
   ([some .NUMBER_SINGULAR, some .CASE_GENITIVE, some .PERSON_THIRD, some .GENDER_FEMININE], 17),
   ([some .NUMBER_SINGULAR, some .CASE_DATIVE, some .PERSON_FIRST, some .GENDER_MASCULINE], 18),
   ([some .NUMBER_SINGULAR, some .CASE_DATIVE, some .PERSON_FIRST, some .GENDER_NEUTER], 19),
   ([some .NUMBER_SINGULAR, some .CASE_DATIVE, some .PERSON_FIRST, some .GENDER_FEMININE], 20),
   ([some .NUMBER_SINGULAR, some .CASE_DATIVE, some .PERSON_SECOND, some .GENDER_MASCULINE], 21),
   ([some .NUMBER_SINGULAR, some .CASE_DATIVE, some .PERSON_SECOND, some .GENDER_NEUTER], 22),
   ([some .NUMBER_SINGULAR, some .CASE_DATIVE, some .PERSON_SECOND, some .GENDER_FEMININE], 23),
   ([some .NUMBER_SINGULAR, some .CASE_DATIVE, some .PERSON_THIRD, some .GENDER_MASCULINE], 24),
   ([some .NUMBER_SINGULAR, some .CASE_DATIVE, some .PERSON_THIRD, some .GENDER_NEUTER], 25),
   ([some .NUMBER_SINGULAR, some .CASE_DATIVE, some .PERSON_THIRD, some .GENDER_FEMININE], 26),
   ([some .NUMBER_SINGULAR, some .CASE_ACCUSATIVE, some .PERSON_FIRST, some .GENDER_MASCULINE], 27),
   ([some .NUMBER_SINGULAR, some .CASE_ACCUSATIVE, some .PERSON_FIRST, some .GENDER_NEUTER], 28),
   ([some .NUMBER_SINGULAR, some .CASE_ACCUSATIVE, some .PERSON_FIRST, some .GENDER_FEMININE], 29),
   ([some .NUMBER_SINGULAR, some .CASE_ACCUSATIVE, some .PERSON_SECOND, some .GENDER_MASCULINE], 30),
   ([some .NUMBER_SINGULAR, some .CASE_ACCUSATIVE, some .PERSON_SECOND, some .GENDER_NEUTER], 31),
   ([some .NUMBER_SINGULAR, some .CASE_ACCUSATIVE, some .PERSON_SECOND, some .GENDER_FEMININE], 32),
   ([some .NUMBER_SINGULAR, some .CASE_ACCUSATIVE, some .PERSON_THIRD, some .GENDER_MASCULINE], 33),
   ([some .NUMBER_SINGULAR, some .CASE_ACCUSATIVE, some .PERSON_THIRD, some .GENDER_NEUTER], 34),
   ([some .NUMBER_SINGULAR, some .CASE_ACCUSATIVE, some .PERSON_THIRD, some .GENDER_FEMININE], 35),
   ([some .NUMBER_SINGULAR, some .CASE_INSTRUMENTAL, some .PERSON_FIRST, some .GENDER_MASCULINE], 36),
   ([some .NUMBER_SINGULAR, some .CASE_INSTRUMENTAL, some .PERSON_FIRST, some .GENDER_NEUTER], 37),
   ([some .NUMBER_SINGULAR, some .CASE_INSTRUMENTAL, some .PERSON_FIRST, some .GENDER_FEMININE], 38),
   ([some .NUMBER_SINGULAR, some .CASE_INSTRUMENTAL, some .PERSON_SECOND, some .GENDER_MASCULINE], 39),
   ([some .NUMBER_SINGULAR, some .CASE_INSTRUMENTAL, some .PERSON_SECOND, some .GENDER_NEUTER], 40),
   ([some .NUMBER_SINGULAR, some .CASE_INSTRUMENTAL, some .PERSON_SECOND, some .GENDER_FEMININE], 41),
   ([some .NUMBER_SINGULAR, some .CASE_INSTRUMENTAL, some .PERSON_THIRD, some .GENDER_MASCULINE], 42),
   ([some .NUMBER_SINGULAR, some .CASE_INSTRUMENTAL, some .PERSON_THIRD, some .GENDER_NEUTER], 43),
   ([some .NUMBER_SINGULAR, some .CASE_INSTRUMENTAL, some .PERSON_THIRD, some .GENDER_FEMININE], 44),
   ([some .NUMBER_SINGULAR, some .CASE_PREPOSITIONAL, some .PERSON_FIRST, some .GENDER_MASCULINE], 45),
   ([some .NUMBER_SINGULAR, some .CASE_PREPOSITIONAL, some .PERSON_FIRST, some .GENDER_NEUTER], 46),
   ([some .NUMBER_SINGULAR, some .CASE_PREPOSITIONAL, some .PERSON_FIRST, some .GENDER_FEMININE], 47),
   ([some .NUMBER_SINGULAR, some .CASE_PREPOSITIONAL, some .PERSON_SECOND, some .GENDER_MASCULINE], 48),
   ([some .NUMBER_SINGULAR, some .CASE_PREPOSITIONAL, some .PERSON_SECOND, some .GENDER_NEUTER], 49),
   ([some .NUMBER_SINGULAR, some .CASE_PREPOSITIONAL, some .PERSON_SECOND, some .GENDER_FEMININE], 50),
   ([some .NUMBER_SINGULAR, some .CASE_PREPOSITIONAL, some .PERSON_THIRD, some .GENDER_MASCULINE], 51),
   ([some .NUMBER_SINGULAR, some .CASE_PREPOSITIONAL, some .PERSON_THIRD, some .GENDER_NEUTER], 52),
   ([some .NUMBER_SINGULAR, some .CASE_PREPOSITIONAL, some .PERSON_THIRD, some .GENDER_FEMININE], 53),
   ([some .NUMBER_PLURAL, some .CASE_NOMINATIVE, some .PERSON_FIRST, none], 54),
   ([some .NUMBER_PLURAL, some .CASE_NOMINATIVE, some .PERSON_SECOND, none], 55),
   ([some .NUMBER_PLURAL, some .CASE_NOMINATIVE, some .PERSON_THIRD, none], 56),
   ([some .NUMBER_PLURAL, some .CASE_GENITIVE, some .PERSON_FIRST, none], 57),
   ([some .NUMBER_PLURAL, some .CASE_GENITIVE, some .PERSON_SECOND, none], 58),
   ([some .NUMBER_PLURAL, some .CASE_GENITIVE, some .PERSON_THIRD, none], 59),
   ([some .NUMBER_PLURAL, some .CASE_DATIVE, some .PERSON_FIRST, none], 60),
   ([some .NUMBER_PLURAL, some .CASE_DATIVE, some .PERSON_SECOND, none], 61),
   ([some .NUMBER_PLURAL, some .CASE_DATIVE, some .PERSON_THIRD, none], 62),
   ([some .NUMBER_PLURAL, some .CASE_ACCUSATIVE, some .PERSON_FIRST, none], 63),
   ([some .NUMBER_PLURAL, some .CASE_ACCUSATIVE, some .PERSON_SECOND, none], 64),
   ([some .NUMBER_PLURAL, some .CASE_ACCUSATIVE, some .PERSON_THIRD, none], 65),
   ([some .NUMBER_PLURAL, some .CASE_INSTRUMENTAL, some .PERSON_FIRST, none], 66),
   ([some .NUMBER_PLURAL, some .CASE_INSTRUMENTAL, some .PERSON_SECOND, none], 67),
   ([some .NUMBER_PLURAL, some .CASE_INSTRUMENTAL, some .PERSON_THIRD, none], 68),
   ([some .NUMBER_PLURAL, some .CASE_PREPOSITIONAL, some .PERSON_FIRST, none], 69),
   ([some .NUMBER_PLURAL, some .CASE_PREPOSITIONAL, some .PERSON_SECOND, none], 70),
   ([some .NUMBER_PLURAL, some .CASE_PREPOSITIONAL, some .PERSON_THIRD, none], 71)]

/-- `NEW_CACHES[WORD_TYPE.VERB]` (utg/migrations/m_0007_reduce_words_forms.py:783-802). -/
def newVerb : Dict Key Nat :=
  [([some .VERB_FORM_INFINITIVE, none, none, none, none], 0),
   ([some .VERB_FORM_INDICATIVE, some .TIME_PAST, some .NUMBER_SINGULAR, none, some .GENDER_MASCULINE], 1),
   ([some .VERB_FORM_INDICATIVE, some .TIME_PAST, some .NUMBER_SINGULAR, none, some .GENDER_NEUTER], 2),
   ([some .VERB_FORM_INDICATIVE, some .TIME_PAST, some .NUMBER_SINGULAR, none, some .GENDER_FEMININE], 3),
   ([some .VERB_FORM_INDICATIVE, some .TIME_PAST, some .NUMBER_PLURAL, none, none], 4),
   ([some .VERB_FORM_INDICATIVE, some .TIME_PRESENT, some .NUMBER_SINGULAR, some .PERSON_FIRST, none], 5),
   ([some .VERB_FORM_INDICATIVE, some .TIME_PRESENT, some .NUMBER_SINGULAR, some .PERSON_SECOND, none], 6),
   ([some .VERB_FORM_INDICATIVE, some .TIME_PRESENT, some .NUMBER_SINGULAR, some .PERSON_THIRD, none], 7),
   ([some .VERB_FORM_INDICATIVE, some .TIME_PRESENT, some .NUMBER_PLURAL, some .PERSON_FIRST, none], 8),
   ([some .VERB_FORM_INDICATIVE, some .TIME_PRESENT, some .NUMBER_PLURAL, some .PERSON_SECOND, none], 9),
   ([some .VERB_FORM_INDICATIVE, some .TIME_PRESENT, some .NUMBER_PLURAL, some .PERSON_THIRD, none], 10),
   ([some .VERB_FORM_INDICATIVE, some .TIME_FUTURE, some .NUMBER_SINGULAR, some .PERSON_FIRST, none], 11),
   ([some .VERB_FORM_INDICATIVE, some .TIME_FUTURE, some .NUMBER_SINGULAR, some .PERSON_SECOND, none], 12),
   ([some .VERB_FORM_INDICATIVE, some .TIME_FUTURE, some .NUMBER_SINGULAR, some .PERSON_THIRD, none], 13),
   ([some .VERB_FORM_INDICATIVE, some .TIME_FUTURE, some .NUMBER_PLURAL, some .PERSON_FIRST, none], 14),
   ([some .VERB_FORM_INDICATIVE, some .TIME_FUTURE, some .NUMBER_PLURAL, some .PERSON_SECOND, none], 15),
   ([some .VERB_FORM_INDICATIVE, some .TIME_FUTURE, some .NUMBER_PLURAL, some .PERSON_THIRD, none], 16),
   ([some .VERB_FORM_IMPERATIVE, none, some .NUMBER_SINGULAR, some .PERSON_SECOND, none], 17),
   ([some .VERB_FORM_IMPERATIVE, none, some .NUMBER_PLURAL, some .PERSON_FIRST, none], 18),
   ([some .VERB_FORM_IMPERATIVE, none, some .NUMBER_PLURAL, some .PERSON_SECOND, none], 19)]

/-- `NEW_CACHES[WORD_TYPE.PARTICIPLE]` (utg/migrations/m_0007_reduce_words_forms.py:803-950). -/
def newParticiple : Dict Key Nat :=
  [([some .PARTICIPLE_FORM_FULL, some .TIME_PAST, some .NUMBER_SINGULAR, some .CASE_NOMINATIVE, some .GENDER_MASCULINE, some .ANIMALITY_ANIMATE], 0),
   ([some .PARTICIPLE_FORM_FULL, some .TIME_PAST, some .NUMBER_SINGULAR, some .CASE_NOMINATIVE, some .GENDER_MASCULINE, some .ANIMALITY_INANIMATE], 1),
   ([some .PARTICIPLE_FORM_FULL, some .TIME_PAST, some .NUMBER_SINGULAR, some .CASE_NOMINATIVE, some .GENDER_NEUTER, some .ANIMALITY_ANIMATE], 2),
   ([some .PARTICIPLE_FORM_FULL, some .TIME_PAST, some .NUMBER_SINGULAR, some .CASE_NOMINATIVE, some .GENDER_NEUTER, some .ANIMALITY_INANIMATE], 3),
   ([some .PARTICIPLE_FORM_FULL, some .TIME_PAST, some .NUMBER_SINGULAR, some .CASE_NOMINATIVE, some .GENDER_FEMININE, some .ANIMALITY_ANIMATE], 4),
   ([some .PARTICIPLE_FORM_FULL, some .TIME_PAST, some .NUMBER_SINGULAR, some .CASE_NOMINATIVE, some .GENDER_FEMININE, some .ANIMALITY_INANIMATE], 5),
   ([some .PARTICIPLE_FORM_FULL, some .TIME_PAST, some .NUMBER_SINGULAR, some .CASE_GENITIVE, some .GENDER_MASCULINE, some .ANIMALITY_ANIMATE], 6),
   ([some .PARTICIPLE_FORM_FULL, some .TIME_PAST, some .NUMBER_SINGULAR, some .CASE_GENITIVE, some .GENDER_MASCULINE, some .ANIMALITY_INANIMATE], 7),
   ([some .PARTICIPLE_FORM_FULL, some .TIME_PAST, some .NUMBER_SINGULAR, some .CASE_GENITIVE, some .GENDER_NEUTER, some .ANIMALITY_ANIMATE], 8),
   ([some .PARTICIPLE_FORM_FULL, some .TIME_PAST, some .NUMBER_SINGULAR, some .CASE_GENITIVE, some .GENDER_NEUTER, some .ANIMALITY_INANIMATE], 9),
   ([some .PARTICIPLE_FORM_FULL, some .TIME_PAST, some .NUMBER_SINGULAR, some .CASE_GENITIVE, some .GENDER_FEMININE, some .ANIMALITY_ANIMATE], 10),
   ([some .PARTICIPLE_FORM_FULL, some .TIME_PAST, some .NUMBER_SINGULAR, some .CASE_GENITIVE, some .GENDER_FEMININE, some .ANIMALITY_INANIMATE], 11),
   ([some .PARTICIPLE_FORM_FULL, some .TIME_PAST, some .NUMBER_SINGULAR, some .CASE_DATIVE, some .GENDER_MASCULINE, some .ANIMALITY_ANIMATE], 12),
   ([some .PARTICIPLE_FORM_FULL, some .TIME_PAST, some .NUMBER_SINGULAR, some .CASE_DATIVE, some .GENDER_MASCULINE, some .ANIMALITY_INANIMATE], 13),
   ([some .PARTICIPLE_FORM_FULL, some .TIME_PAST, some .NUMBER_SINGULAR, some .CASE_DATIVE, some .GENDER_NEUTER, some .ANIMALITY_ANIMATE], 14),
   ([some .PARTICIPLE_FORM_FULL, some .TIME_PAST, some .NUMBER_SINGULAR, some .CASE_DATIVE, some .GENDER_NEUTER, some .ANIMALITY_INANIMATE], 15),
   ([some .PARTICIPLE_FORM_FULL, some .TIME_PAST, some .NUMBER_SINGULAR, some .CASE_DATIVE, some .GENDER_FEMININE, some .ANIMALITY_ANIMATE], 16),
   ([some .PARTICIPLE_FORM_FULL, some .TIME_PAST, some .NUMBER_SINGULAR, some .CASE_DATIVE, some .GENDER_FEMININE, some .ANIMALITY_INANIMATE], 17),
   ([some .PARTICIPLE_FORM_FULL, some .TIME_PAST, some .NUMBER_SINGULAR, some .CASE_ACCUSATIVE, some .GENDER_MASCULINE, some .ANIMALITY_ANIMATE], 18),
   ([some .PARTICIPLE_FORM_FULL, some .TIME_PAST, some .NUMBER_SINGULAR, some .CASE_ACCUSATIVE, some .GENDER_MASCULINE, some .ANIMALITY_INANIMATE], 19),
   ([some .PARTICIPLE_FORM_FULL, some .TIME_PAST, some .NUMBER_SINGULAR, some .CASE_ACCUSATIVE, some .GENDER_NEUTER, some .ANIMALITY_ANIMATE], 20),
   ([some .PARTICIPLE_FORM_FULL, some .TIME_PAST, some .NUMBER_SINGULAR, some .CASE_ACCUSATIVE, some .GENDER_NEUTER, some .ANIMALITY_INANIMATE], 21),
   ([some .PARTICIPLE_FORM_FULL, some .TIME_PAST, some .NUMBER_SINGULAR, some .CASE_ACCUSATIVE, some .GENDER_FEMININE, some .ANIMALITY_ANIMATE], 22),
   ([some .PARTICIPLE_FORM_FULL, some .TIME_PAST, some .NUMBER_SINGULAR, some .CASE_ACCUSATIVE, some .GENDER_FEMININE, some .ANIMALITY_INANIMATE], 23),
   ([some .PARTICIPLE_FORM_FULL, some .TIME_PAST, some .NUMBER_SINGULAR, some .CASE_INSTRUMENTAL, some .GENDER_MASCULINE, some .ANIMALITY_ANIMATE], 24),
   ([some .PARTICIPLE_FORM_FULL, some .TIME_PAST, some .NUMBER_SINGULAR, some .CASE_INSTRUMENTAL, some .GENDER_MASCULINE, some .ANIMALITY_INANIMATE], 25),
   ([some .PARTICIPLE_FORM_FULL, some .TIME_PAST, some .NUMBER_SINGULAR, some .CASE_INSTRUMENTAL, some .GENDER_NEUTER, some .ANIMALITY_ANIMATE], 26),
   ([some .PARTICIPLE_FORM_FULL, some .TIME_PAST, some .NUMBER_SINGULAR, some .CASE_INSTRUMENTAL, some .GENDER_NEUTER, some .ANIMALITY_INANIMATE], 27),
   ([some .PARTICIPLE_FORM_FULL, some .TIME_PAST, some .NUMBER_SINGULAR, some .CASE_INSTRUMENTAL, some .GENDER_FEMININE, some .ANIMALITY_ANIMATE], 28),
   ([some .PARTICIPLE_FORM_FULL, some .TIME_PAST, some .NUMBER_SINGULAR, some .CASE_INSTRUMENTAL, some .GENDER_FEMININE, some .ANIMALITY_INANIMATE], 29),
   ([some .PARTICIPLE_FORM_FULL, some .TIME_PAST, some .NUMBER_SINGULAR, some .CASE_PREPOSITIONAL, some .GENDER_MASCULINE, some .ANIMALITY_ANIMATE], 30),
   ([some .PARTICIPLE_FORM_FULL, some .TIME_PAST, some .NUMBER_SINGULAR, some .CASE_PREPOSITIONAL, some .GENDER_MASCULINE, some .ANIMALITY_INANIMATE], 31),
   ([some .PARTICIPLE_FORM_FULL, some .TIME_PAST, some .NUMBER_SINGULAR, some .CASE_PREPOSITIONAL, some .GENDER_NEUTER, some .ANIMALITY_ANIMATE], 32),
   ([some .PARTICIPLE_FORM_FULL, some .TIME_PAST, some .NUMBER_SINGULAR, some .CASE_PREPOSITIONAL, some .GENDER_NEUTER, some .ANIMALITY_INANIMATE], 33),
   ([some .PARTICIPLE_FORM_FULL, some .TIME_PAST, some .NUMBER_SINGULAR, some .CASE_PREPOSITIONAL, some .GENDER_FEMININE, some .ANIMALITY_ANIMATE], 34),
   ([some .PARTICIPLE_FORM_FULL, some .TIME_PAST, some .NUMBER_SINGULAR, some .CASE_PREPOSITIONAL, some .GENDER_FEMININE, some .ANIMALITY_INANIMATE], 35),
   ([some .PARTICIPLE_FORM_FULL, some .TIME_PAST, some .NUMBER_PLURAL, some .CASE_NOMINATIVE, none, some .ANIMALITY_ANIMATE], 36),
   ([some .PARTICIPLE_FORM_FULL, some .TIME_PAST, some .NUMBER_PLURAL, some .CASE_NOMINATIVE, none, some .ANIMALITY_INANIMATE], 37),
   ([some .PARTICIPLE_FORM_FULL, some .TIME_PAST, some .NUMBER_PLURAL, some .CASE_GENITIVE, none, some .ANIMALITY_ANIMATE], 38),
   ([some .PARTICIPLE_FORM_FULL, some .TIME_PAST, some .NUMBER_PLURAL, some .CASE_GENITIVE, none, some .ANIMALITY_INANIMATE], 39),
   ([some .PARTICIPLE_FORM_FULL, some .TIME_PAST, some .NUMBER_PLURAL, some .CASE_DATIVE, none, some .ANIMALITY_ANIMATE], 40),
   ([some .PARTICIPLE_FORM_FULL, some .TIME_PAST, some .NUMBER_PLURAL, some .CASE_DATIVE, none, some .ANIMALITY_INANIMATE], 41),
   ([some .PARTICIPLE_FORM_FULL, some .TIME_PAST, some .NUMBER_PLURAL, some .CASE_ACCUSATIVE, none, some .ANIMALITY_ANIMATE], 42),
   ([some .PARTICIPLE_FORM_FULL, some .TIME_PAST, some .NUMBER_PLURAL, some .CASE_ACCUSATIVE, none, some .ANIMALITY_INANIMATE], 43),
   ([some .PARTICIPLE_FORM_FULL, some .TIME_PAST, some .NUMBER_PLURAL, some .CASE_INSTRUMENTAL, none, some .ANIMALITY_ANIMATE], 44),
   ([some .PARTICIPLE_FORM_FULL, some .TIME_PAST, some .NUMBER_PLURAL, some .CASE_INSTRUMENTAL, none, some .ANIMALITY_INANIMATE], 45),
   ([some .PARTICIPLE_FORM_FULL, some .TIME_PAST, some .NUMBER_PLURAL, some .CASE_PREPOSITIONAL, none, some .ANIMALITY_ANIMATE], 46),
   ([some .PARTICIPLE_FORM_FULL, some .TIME_PAST, some .NUMBER_PLURAL, some .CASE_PREPOSITIONAL, none, some .ANIMALITY_INANIMATE], 47),
   ([some .PARTICIPLE_FORM_FULL, some .TIME_PRESENT, some .NUMBER_SINGULAR, some .CASE_NOMINATIVE, some .GENDER_MASCULINE, some .ANIMALITY_ANIMATE], 48),
   ([some .PARTICIPLE_FORM_FULL, some .TIME_PRESENT, some .NUMBER_SINGULAR, some .CASE_NOMINATIVE, some .GENDER_MASCULINE, some .ANIMALITY_INANIMATE], 49),
   ([some .PARTICIPLE_FORM_FULL, some .TIME_PRESENT, some .NUMBER_SINGULAR, some .CASE_NOMINATIVE, some .GENDER_NEUTER, some .ANIMALITY_ANIMATE], 50),
   ([some .PARTICIPLE_FORM_FULL, some .TIME_PRESENT, some .NUMBER_SINGULAR, some .CASE_NOMINATIVE, some .GENDER_NEUTER, some .ANIMALITY_INANIMATE], 51),
   ([some .PARTICIPLE_FORM_FULL, some .TIME_PRESENT, some .NUMBER_SINGULAR, some .CASE_NOMINATIVE, some .GENDER_FEMININE, some .ANIMALITY_ANIMATE], 52),
   ([some .PARTICIPLE_FORM_FULL, some .TIME_PRESENT, some .NUMBER_SINGULAR, some .CASE_NOMINATIVE, some .GENDER_FEMININE, some .ANIMALITY_INANIMATE], 53),
   ([some .PARTICIPLE_FORM_FULL, some .TIME_PRESENT, some .NUMBER_SINGULAR, some .CASE_GENITIVE, some .GENDER_MASCULINE, some .ANIMALITY_ANIMATE], 54),
   ([some .PARTICIPLE_FORM_FULL, some .TIME_PRESENT, some .NUMBER_SINGULAR, some .CASE_GENITIVE, some .GENDER_MASCULINE, some .ANIMALITY_INANIMATE], 55),
   ([some .PARTICIPLE_FORM_FULL, some .TIME_PRESENT, some .NUMBER_SINGULAR, some .CASE_GENITIVE, some .GENDER_NEUTER, some .ANIMALITY_ANIMATE], 56),
   ([some .PARTICIPLE_FORM_FULL, some .TIME_PRESENT, some .NUMBER_SINGULAR, some .CASE_GENITIVE, some .GENDER_NEUTER, some .ANIMALITY_INANIMATE], 57),
   ([some .PARTICIPLE_FORM_FULL, some .TIME_PRESENT, some .NUMBER_SINGULAR, some .CASE_GENITIVE, some .GENDER_FEMININE, some .ANIMALITY_ANIMATE], 58),
   ([some .PARTICIPLE_FORM_FULL, some .TIME_PRESENT, some .NUMBER_SINGULAR, some .CASE_GENITIVE, some .GENDER_FEMININE, some .ANIMALITY_INANIMATE], 59),
   ([some .PARTICIPLE_FORM_FULL, some .TIME_PRESENT, some .NUMBER_SINGULAR, some .CASE_DATIVE, some .GENDER_MASCULINE, some .ANIMALITY_ANIMATE], 60),
   ([some .PARTICIPLE_FORM_FULL, some .TIME_PRESENT, some .NUMBER_SINGULAR, some .CASE_DATIVE, some .GENDER_MASCULINE, some .ANIMALITY_INANIMATE], 61),
   ([some .PARTICIPLE_FORM_FULL, some .TIME_PRESENT, some .NUMBER_SINGULAR, some .CASE_DATIVE, some .GENDER_NEUTER, some .ANIMALITY_ANIMATE], 62),
   ([some .PARTICIPLE_FORM_FULL, some .TIME_PRESENT, some .NUMBER_SINGULAR, some .CASE_DATIVE, some .GENDER_NEUTER, some .ANIMALITY_INANIMATE], 63),
   ([some .PARTICIPLE_FORM_FULL, some .TIME_PRESENT, some .NUMBER_SINGULAR, some .CASE_DATIVE, some .GENDER_FEMININE, some .ANIMALITY_ANIMATE], 64),
   ([some .PARTICIPLE_FORM_FULL, some .TIME_PRESENT, some .NUMBER_SINGULAR, some .CASE_DATIVE, some .GENDER_FEMININE, some .ANIMALITY_INANIMATE], 65),
   ([some .PARTICIPLE_FORM_FULL, some .TIME_PRESENT, some .NUMBER_SINGULAR, some .CASE_ACCUSATIVE, some .GENDER_MASCULINE, some .ANIMALITY_ANIMATE], 66),
   ([some .PARTICIPLE_FORM_FULL, some .TIME_PRESENT, some .NUMBER_SINGULAR, some .CASE_ACCUSATIVE, some .GENDER_MASCULINE, some .ANIMALITY_INANIMATE], 67),
   ([some .PARTICIPLE_FORM_FULL, some .TIME_PRESENT, some .NUMBER_SINGULAR, some .CASE_ACCUSATIVE, some .GENDER_NEUTER, some .ANIMALITY_ANIMATE], 68),
   ([some .PARTICIPLE_FORM_FULL, some .TIME_PRESENT, some .NUMBER_SINGULAR, some .CASE_ACCUSATIVE, some .GENDER_NEUTER, some .ANIMALITY_INANIMATE], 69),
   ([some .PARTICIPLE_FORM_FULL, some .TIME_PRESENT, some .NUMBER_SINGULAR, some .CASE_ACCUSATIVE, some .GENDER_FEMININE, some .ANIMALITY_ANIMATE], 70),
   ([some .PARTICIPLE_FORM_FULL, some .TIME_PRESENT, some .NUMBER_SINGULAR, some .CASE_ACCUSATIVE, some .GENDER_FEMININE, some .ANIMALITY_INANIMATE], 71),
   ([some .PARTICIPLE_FORM_FULL, some .TIME_PRESENT, some .NUMBER_SINGULAR, some .CASE_INSTRUMENTAL, some .GENDER_MASCULINE, some .ANIMALITY_ANIMATE], 72),
   ([some .PARTICIPLE_FORM_FULL, some .TIME_PRESENT, some .NUMBER_SINGULAR, some .CASE_INSTRUMENTAL, some .GENDER_MASCULINE, some .ANIMALITY_INANIMATE], 73),
   ([some .PARTICIPLE_FORM_FULL, some .TIME_PRESENT, some .NUMBER_SINGULAR, some .CASE_INSTRUMENTAL, some .GENDER_NEUTER, some .ANIMALITY_ANIMATE], 74),
   ([some .PARTICIPLE_FORM_FULL, some .TIME_PRESENT, some .NUMBER_SINGULAR, some .CASE_INSTRUMENTAL, some .GENDER_NEUTER, some .ANIMALITY_INANIMATE], 75),
   ([some .PARTICIPLE_FORM_FULL, some .TIME_PRESENT, some .NUMBER_SINGULAR, some .CASE_INSTRUMENTAL, some .GENDER_FEMININE, some .ANIMALITY_ANIMATE], 76),
   ([some .PARTICIPLE_FORM_FULL, some .TIME_PRESENT, some .NUMBER_SINGULAR, some .CASE_INSTRUMENTAL, some .GENDER_FEMININE, some .ANIMALITY_INANIMATE], 77),
   ([some .PARTICIPLE_FORM_FULL, some .TIME_PRESENT, some .NUMBER_SINGULAR, some .CASE_PREPOSITIONAL, some .GENDER_MASCULINE, some .ANIMALITY_ANIMATE], 78),
   ([some .PARTICIPLE_FORM_FULL, some .TIME_PRESENT, some .NUMBER_SINGULAR, some .CASE_PREPOSITIONAL, some .GENDER_MASCULINE, some .ANIMALITY_INANIMATE], 79),
   ([some .PARTICIPLE_FORM_FULL, some .TIME_PRESENT, some .NUMBER_SINGULAR, some .CASE_PREPOSITIONAL, some .GENDER_NEUTER, some .ANIMALITY_ANIMATE], 80),
   ([some .PARTICIPLE_FORM_FULL, some .TIME_PRESENT, some .NUMBER_SINGULAR, some .CASE_PREPOSITIONAL, some .GENDER_NEUTER, some .ANIMALITY_INANIMATE], 81),
   ([some .PARTICIPLE_FORM_FULL, some .TIME_PRESENT, some .NUMBER_SINGULAR, some .CASE_PREPOSITIONAL, some .GENDER_FEMININE, some .ANIMALITY_ANIMATE], 82),
   ([some .PARTICIPLE_FORM_FULL, some .TIME_PRESENT, some .NUMBER_SINGULAR, some .CASE_PREPOSITIONAL, some .GENDER_FEMININE, some .ANIMALITY_INANIMATE], 83),
   ([some .PARTICIPLE_FORM_FULL, some .TIME_PRESENT, some .NUMBER_PLURAL, some .CASE_NOMINATIVE, none, some .ANIMALITY_ANIMATE], 84),
   ([some .PARTICIPLE_FORM_FULL, some .TIME_PRESENT, some .NUMBER_PLURAL, some .CASE_NOMINATIVE, none, some .ANIMALITY_INANIMATE], 85),
   ([some .PARTICIPLE_FORM_FULL, some .TIME_PRESENT, some .NUMBER_PLURAL, some .CASE_GENITIVE, none, some .ANIMALITY_ANIMATE], 86),
   ([some .PARTICIPLE_FORM_FULL, some .TIME_PRESENT, some .NUMBER_PLURAL, some .CASE_GENITIVE, none, some .ANIMALITY_INANIMATE], 87),
   ([some .PARTICIPLE_FORM_FULL, some .TIME_PRESENT, some .NUMBER_PLURAL, some .CASE_DATIVE, none, some .ANIMALITY_ANIMATE], 88),
   ([some .PARTICIPLE_FORM_FULL, some .TIME_PRESENT, some .NUMBER_PLURAL, some .CASE_DATIVE, none, some .ANIMALITY_INANIMATE], 89),
   ([some .PARTICIPLE_FORM_FULL, some .TIME_PRESENT, some .NUMBER_PLURAL, some .CASE_ACCUSATIVE, none, some .ANIMALITY_ANIMATE], 90),
   ([some .PARTICIPLE_FORM_FULL, some .TIME_PRESENT, some .NUMBER_PLURAL, some .CASE_ACCUSATIVE, none, some .ANIMALITY_INANIMATE], 91),
   ([some .PARTICIPLE_FORM_FULL, some .TIME_PRESENT, some .NUMBER_PLURAL, some .CASE_INSTRUMENTAL, none, some .ANIMALITY_ANIMATE], 92),
   ([some .PARTICIPLE_FORM_FULL, some .TIME_PRESENT, some .NUMBER_PLURAL, some .CASE_INSTRUMENTAL, none, some .ANIMALITY_INANIMATE], 93),
   ([some .PARTICIPLE_FORM_FULL, some .TIME_PRESENT, some .NUMBER_PLURAL, some .CASE_PREPOSITIONAL, none, some .ANIMALITY_ANIMATE], 94),
   ([some .PARTICIPLE_FORM_FULL, some .TIME_PRESENT, some .NUMBER_PLURAL, some .CASE_PREPOSITIONAL, none, some .ANIMALITY_INANIMATE], 95),
   ([some .PARTICIPLE_FORM_FULL, some .TIME_FUTURE, some .NUMBER_SINGULAR, some .CASE_NOMINATIVE, some .GENDER_MASCULINE, some .ANIMALITY_ANIMATE], 96),
   ([some .PARTICIPLE_FORM_FULL, some .TIME_FUTURE, some .NUMBER_SINGULAR, some .CASE_NOMINATIVE, some .GENDER_MASCULINE, some .ANIMALITY_INANIMATE], 97),
   ([some .PARTICIPLE_FORM_FULL, some .TIME_FUTURE, some .NUMBER_SINGULAR, some .CASE_NOMINATIVE, some .GENDER_NEUTER, some .ANIMALITY_ANIMATE], 98),
   ([some .PARTICIPLE_FORM_FULL, some .TIME_FUTURE, some .NUMBER_SINGULAR, some .CASE_NOMINATIVE, some .GENDER_NEUTER, some .ANIMALITY_INANIMATE], 99),
   ([some .PARTICIPLE_FORM_FULL, some .TIME_FUTURE, some .NUMBER_SINGULAR, some .CASE_NOMINATIVE, some .GENDER_FEMININE, some .ANIMALITY_ANIMATE], 100),
   ([some .PARTICIPLE_FORM_FULL, some .TIME_FUTURE, some .NUMBER_SINGULAR, some .CASE_NOMINATIVE, some .GENDER_FEMININE, some .ANIMALITY_INANIMATE], 101),
   ([some .PARTICIPLE_FORM_FULL, some .TIME_FUTURE, some .NUMBER_SINGULAR, some .CASE_GENITIVE, some .GENDER_MASCULINE, some .ANIMALITY_ANIMATE], 102),
   ([some .PARTICIPLE_FORM_FULL, some .TIME_FUTURE, some .NUMBER_SINGULAR, some .CASE_GENITIVE, some .GENDER_MASCULINE, some .ANIMALITY_INANIMATE], 103),
   ([some .PARTICIPLE_FORM_FULL, some .TIME_FUTURE, some .NUMBER_SINGULAR, some .CASE_GENITIVE, some .GENDER_NEUTER, some .ANIMALITY_ANIMATE], 104),
   ([some .PARTICIPLE_FORM_FULL, some .TIME_FUTURE, some .NUMBER_SINGULAR, some .CASE_GENITIVE, some .GENDER_NEUTER, some .ANIMALITY_INANIMATE], 105),
   ([some .PARTICIPLE_FORM_FULL, some .TIME_FUTURE, some .NUMBER_SINGULAR, some .CASE_GENITIVE, some .GENDER_FEMININE, some .ANIMALITY_ANIMATE], 106),
   ([some .PARTICIPLE_FORM_FULL, some .TIME_FUTURE, some .NUMBER_SINGULAR, some .CASE_GENITIVE, some .GENDER_FEMININE, some .ANIMALITY_INANIMATE], 107),
   ([some .PARTICIPLE_FORM_FULL, some .TIME_FUTURE, some .NUMBER_SINGULAR, some .CASE_DATIVE, some .GENDER_MASCULINE, some .ANIMALITY_ANIMATE], 108),
   ([some .PARTICIPLE_FORM_FULL, some .TIME_FUTURE, some .NUMBER_SINGULAR, some .CASE_DATIVE, some .GENDER_MASCULINE, some .ANIMALITY_INANIMATE], 109),
   ([some .PARTICIPLE_FORM_FULL, some .TIME_FUTURE, some .NUMBER_SINGULAR, some .CASE_DATIVE, some .GENDER_NEUTER, some .ANIMALITY_ANIMATE], 110),
   ([some .PARTICIPLE_FORM_FULL, some .TIME_FUTURE, some .NUMBER_SINGULAR, some .CASE_DATIVE, some .GENDER_NEUTER, some .ANIMALITY_INANIMATE], 111),
   ([some .PARTICIPLE_FORM_FULL, some .TIME_FUTURE, some .NUMBER_SINGULAR, some .CASE_DATIVE, some .GENDER_FEMININE, some .ANIMALITY_ANIMATE], 112),
   ([some .PARTICIPLE_FORM_FULL, some .TIME_FUTURE, some .NUMBER_SINGULAR, some .CASE_DATIVE, some .GENDER_FEMININE, some .ANIMALITY_INANIMATE], 113),
   ([some .PARTICIPLE_FORM_FULL, some .TIME_FUTURE, some .NUMBER_SINGULAR, some .CASE_ACCUSATIVE, some .GENDER_MASCULINE, some .ANIMALITY_ANIMATE], 114),
   ([some .PARTICIPLE_FORM_FULL, some .TIME_FUTURE, some .NUMBER_SINGULAR, some .CASE_ACCUSATIVE, some .GENDER_MASCULINE, some .ANIMALITY_INANIMATE], 115),
   ([some .PARTICIPLE_FORM_FULL, some .TIME_FUTURE, some .NUMBER_SINGULAR, some .CASE_ACCUSATIVE, some .GENDER_NEUTER, some .ANIMALITY_ANIMATE], 116),
   ([some .PARTICIPLE_FORM_FULL, some .TIME_FUTURE, some .NUMBER_SINGULAR, some .CASE_ACCUSATIVE, some .GENDER_NEUTER, some .ANIMALITY_INANIMATE], 117),
   ([some .PARTICIPLE_FORM_FULL, some .TIME_FUTURE, some .NUMBER_SINGULAR, some .CASE_ACCUSATIVE, some .GENDER_FEMININE, some .ANIMALITY_ANIMATE], 118),
   ([some .PARTICIPLE_FORM_FULL, some .TIME_FUTURE, some .NUMBER_SINGULAR, some .CASE_ACCUSATIVE, some .GENDER_FEMININE, some .ANIMALITY_INANIMATE], 119),
   ([some .PARTICIPLE_FORM_FULL, some .TIME_FUTURE, some .NUMBER_SINGULAR, some .CASE_INSTRUMENTAL, some .GENDER_MASCULINE, some .ANIMALITY_ANIMATE], 120),
   ([some .PARTICIPLE_FORM_FULL, some .TIME_FUTURE, some .NUMBER_SINGULAR, some .CASE_INSTRUMENTAL, some .GENDER_MASCULINE, some .ANIMALITY_INANIMATE], 121),
   ([some .PARTICIPLE_FORM_FULL, some .TIME_FUTURE, some .NUMBER_SINGULAR, some .CASE_INSTRUMENTAL, some .GENDER_NEUTER, some .ANIMALITY_ANIMATE], 122),
   ([some .PARTICIPLE_FORM_FULL, some .TIME_FUTURE, some .NUMBER_SINGULAR, some .CASE_INSTRUMENTAL, some .GENDER_NEUTER, some .ANIMALITY_INANIMATE], 123),
   ([some .PARTICIPLE_FORM_FULL, some .TIME_FUTURE, some .NUMBER_SINGULAR, some .CASE_INSTRUMENTAL, some .GENDER_FEMININE, some .ANIMALITY_ANIMATE], 124),
   ([some .PARTICIPLE_FORM_FULL, some .TIME_FUTURE, some .NUMBER_SINGULAR, some .CASE_INSTRUMENTAL, some .GENDER_FEMININE, some .ANIMALITY_INANIMATE], 125),
   ([some .PARTICIPLE_FORM_FULL, some .TIME_FUTURE, some .NUMBER_SINGULAR, some .CASE_PREPOSITIONAL, some .GENDER_MASCULINE, some .ANIMALITY_ANIMATE], 126),
   ([some .PARTICIPLE_FORM_FULL, some .TIME_FUTURE, some .NUMBER_SINGULAR, some .CASE_PREPOSITIONAL, some .GENDER_MASCULINE, some .ANIMALITY_INANIMATE], 127),
   ([some .PARTICIPLE_FORM_FULL, some .TIME_FUTURE, some .NUMBER_SINGULAR, some .CASE_PREPOSITIONAL, some .GENDER_NEUTER, some .ANIMALITY_ANIMATE], 128),
   ([some .PARTICIPLE_FORM_FULL, some .TIME_FUTURE, some .NUMBER_SINGULAR, some .CASE_PREPOSITIONAL, some .GENDER_NEUTER, some .ANIMALITY_INANIMATE], 129),
   ([some .PARTICIPLE_FORM_FULL, some .TIME_FUTURE, some .NUMBER_SINGULAR, some .CASE_PREPOSITIONAL, some .GENDER_FEMININE, some .ANIMALITY_ANIMATE], 130),
   ([some .PARTICIPLE_FORM_FULL, some .TIME_FUTURE, some .NUMBER_SINGULAR, some .CASE_PREPOSITIONAL, some .GENDER_FEMININE, some .ANIMALITY_INANIMATE], 131),
   ([some .PARTICIPLE_FORM_FULL, some .TIME_FUTURE, some .NUMBER_PLURAL, some .CASE_NOMINATIVE, none, some .ANIMALITY_ANIMATE], 132),
   ([some .PARTICIPLE_FORM_FULL, some .TIME_FUTURE, some .NUMBER_PLURAL, some .CASE_NOMINATIVE, none, some .ANIMALITY_INANIMATE], 133),
   ([some .PARTICIPLE_FORM_FULL, some .TIME_FUTURE, some .NUMBER_PLURAL, some .CASE_GENITIVE, none, some .ANIMALITY_ANIMATE], 134),
   ([some .PARTICIPLE_FORM_FULL, some .TIME_FUTURE, some .NUMBER_PLURAL, some .CASE_GENITIVE, none, some .ANIMALITY_INANIMATE], 135),
   ([some .PARTICIPLE_FORM_FULL, some .TIME_FUTURE, some .NUMBER_PLURAL, some .CASE_DATIVE, none, some .ANIMALITY_ANIMATE], 136),
   ([some .PARTICIPLE_FORM_FULL, some .TIME_FUTURE, some .NUMBER_PLURAL, some .CASE_DATIVE, none, some .ANIMALITY_INANIMATE], 137),
   ([some .PARTICIPLE_FORM_FULL, some .TIME_FUTURE, some .NUMBER_PLURAL, some .CASE_ACCUSATIVE, none, some .ANIMALITY_ANIMATE], 138),
   ([some .PARTICIPLE_FORM_FULL, some .TIME_FUTURE, some .NUMBER_PLURAL, some .CASE_ACCUSATIVE, none, some .ANIMALITY_INANIMATE], 139),
   ([some .PARTICIPLE_FORM_FULL, some .TIME_FUTURE, some .NUMBER_PLURAL, some .CASE_INSTRUMENTAL, none, some .ANIMALITY_ANIMATE], 140),
   ([some .PARTICIPLE_FORM_FULL, some .TIME_FUTURE, some .NUMBER_PLURAL, some .CASE_INSTRUMENTAL, none, some .ANIMALITY_INANIMATE], 141),
   ([some .PARTICIPLE_FORM_FULL, some .TIME_FUTURE, some .NUMBER_PLURAL, some .CASE_PREPOSITIONAL, none, some .ANIMALITY_ANIMATE], 142),
   ([some .PARTICIPLE_FORM_FULL, some .TIME_FUTURE, some .NUMBER_PLURAL, some .CASE_PREPOSITIONAL, none, some .ANIMALITY_INANIMATE], 143),
   ([some .PARTICIPLE_FORM_SHORT, none, some .NUMBER_SINGULAR, none, some .GENDER_MASCULINE, none], 144),
   ([some .PARTICIPLE_FORM_SHORT, none, some .NUMBER_SINGULAR, none, some .GENDER_NEUTER, none], 145),
   ([some .PARTICIPLE_FORM_SHORT, none, some .NUMBER_SINGULAR, none, some .GENDER_FEMININE, none], 146),
   ([some .PARTICIPLE_FORM_SHORT, none, some .NUMBER_PLURAL, none, none, none], 147)]

/-- `NEW_CACHES[WORD_TYPE.INTEGER]` (utg/migrations/m_0007_reduce_words_forms.py:951-951). -/
def newInteger : Dict Key Nat :=
  [([], 0)]

/-- `NEW_CACHES[WORD_TYPE.TEXT]` (utg/migrations/m_0007_reduce_words_forms.py:952-952). -/
def newText : Dict Key Nat :=
  [([], 0)]

/-- `NEW_CACHES[WORD_TYPE.PREPOSITION]` (utg/migrations/m_0007_reduce_words_forms.py:953-955). -/
def newPreposition : Dict Key Nat :=
  [([some .PREPOSITION_FORM_NORMAL], 0),
   ([some .PREPOSITION_FORM_ALTERNATIVE], 1),
   ([some .PREPOSITION_FORM_SPECIAL], 2)]

/-- `NEW_CACHES` (utg/migrations/m_0007_reduce_words_forms.py). -/
def newCaches : WordType → Dict Key Nat
  | .NOUN => newNoun
  | .ADJECTIVE => newAdjective
  | .PRONOUN => newPronoun
  | .VERB => newVerb
  | .PARTICIPLE => newParticiple
  | .INTEGER => newInteger
  | .TEXT => newText
  | .PREPOSITION => newPreposition

end Utg.M0007
