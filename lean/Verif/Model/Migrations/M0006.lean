import Verif.Model.Migrations.OldRec
/-!
# The key tables of `utg/migrations/m_0006_per_word_type_restrictions.py`

Generated by `tools/gen_migrations.py` from the text of the source (regular expressions only), then read against it.
-/

namespace Utg.M0006
open Py

/-- `OLD_CACHES[WORD_TYPE.NOUN]` (utg/migrations/m_0006_per_word_type_restrictions.py:30-47). -/
def oldNoun : Dict OldKey Nat :=
  [([some (.cur .NOUN_FORM_NORMAL), some (.cur .NUMBER_SINGULAR), some (.cur .CASE_NOMINATIVE)], 0),
   ([some (.cur .NOUN_FORM_NORMAL), some (.cur .NUMBER_SINGULAR), some (.cur .CASE_GENITIVE)], 1),
   ([some (.cur .NOUN_FORM_NORMAL), some (.cur .NUMBER_SINGULAR), some (.cur .CASE_DATIVE)], 2),
   ([some (.cur .NOUN_FORM_NORMAL), some (.cur .NUMBER_SINGULAR), some (.cur .CASE_ACCUSATIVE)], 3),
   ([some (.cur .NOUN_FORM_NORMAL), some (.cur .NUMBER_SINGULAR), some (.cur .CASE_INSTRUMENTAL)], 4),
   ([some (.cur .NOUN_FORM_NORMAL), some (.cur .NUMBER_SINGULAR), some (.cur .CASE_PREPOSITIONAL)], 5),
   ([some (.cur .NOUN_FORM_NORMAL), some (.cur .NUMBER_PLURAL), some (.cur .CASE_NOMINATIVE)], 6),
   ([some (.cur .NOUN_FORM_NORMAL), some (.cur .NUMBER_PLURAL), some (.cur .CASE_GENITIVE)], 7),
   ([some (.cur .NOUN_FORM_NORMAL), some (.cur .NUMBER_PLURAL), some (.cur .CASE_DATIVE)], 8),
   ([some (.cur .NOUN_FORM_NORMAL), some (.cur .NUMBER_PLURAL), some (.cur .CASE_ACCUSATIVE)], 9),
   ([some (.cur .NOUN_FORM_NORMAL), some (.cur .NUMBER_PLURAL), some (.cur .CASE_INSTRUMENTAL)], 10),
   ([some (.cur .NOUN_FORM_NORMAL), some (.cur .NUMBER_PLURAL), some (.cur .CASE_PREPOSITIONAL)], 11),
   ([some (.cur .NOUN_FORM_COUNTABLE), some (.cur .NUMBER_PLURAL), some (.cur .CASE_NOMINATIVE)], 12),
   ([some (.cur .NOUN_FORM_COUNTABLE), some (.cur .NUMBER_PLURAL), some (.cur .CASE_GENITIVE)], 13),
   ([some (.cur .NOUN_FORM_COUNTABLE), some (.cur .NUMBER_PLURAL), some (.cur .CASE_DATIVE)], 14),
   ([some (.cur .NOUN_FORM_COUNTABLE), some (.cur .NUMBER_PLURAL), some (.cur .CASE_ACCUSATIVE)], 15),
   ([some (.cur .NOUN_FORM_COUNTABLE), some (.cur .NUMBER_PLURAL), some (.cur .CASE_INSTRUMENTAL)], 16),
   ([some (.cur .NOUN_FORM_COUNTABLE), some (.cur .NUMBER_PLURAL), some (.cur .CASE_PREPOSITIONAL)], 17)]

/-- `OLD_CACHES[WORD_TYPE.ADJECTIVE]` (utg/migrations/m_0006_per_word_type_restrictions.py:48-195). -/
def oldAdjective : Dict OldKey Nat :=
  [([some (.cur .ADJECTIVE_FORM_FULL), some (.cur .NUMBER_SINGULAR), some (.cur .CASE_NOMINATIVE), some (.cur .GENDER_MASCULINE), some (.cur .ANIMALITY_ANIMATE), some (.cur .GRADE_POSITIVE)], 0),
   ([some (.cur .ADJECTIVE_FORM_FULL), some (.cur .NUMBER_SINGULAR), some (.cur .CASE_NOMINATIVE), some (.cur .GENDER_MASCULINE), some (.cur .ANIMALITY_ANIMATE), some (.cur .GRADE_COMPARATIVE)], 1),
   ([some (.cur .ADJECTIVE_FORM_FULL), some (.cur .NUMBER_SINGULAR), some (.cur .CASE_NOMINATIVE), some (.cur .GENDER_MASCULINE), some (.cur .ANIMALITY_ANIMATE), some (.cur .GRADE_SUPERLATIVE)], 2),
   ([some (.cur .ADJECTIVE_FORM_FULL), some (.cur .NUMBER_SINGULAR), some (.cur .CASE_NOMINATIVE), some (.cur .GENDER_MASCULINE), some (.cur .ANIMALITY_INANIMATE), some (.cur .GRADE_POSITIVE)], 3),
   ([some (.cur .ADJECTIVE_FORM_FULL), some (.cur .NUMBER_SINGULAR), some (.cur .CASE_NOMINATIVE), some (.cur .GENDER_MASCULINE), some (.cur .ANIMALITY_INANIMATE), some (.cur .GRADE_COMPARATIVE)], 4),
   ([some (.cur .ADJECTIVE_FORM_FULL), some (.cur .NUMBER_SINGULAR), some (.cur .CASE_NOMINATIVE), some (.cur .GENDER_MASCULINE), some (.cur .ANIMALITY_INANIMATE), some (.cur .GRADE_SUPERLATIVE)], 5),
   ([some (.cur .ADJECTIVE_FORM_FULL), some (.cur .NUMBER_SINGULAR), some (.cur .CASE_NOMINATIVE), some (.cur .GENDER_NEUTER), some (.cur .ANIMALITY_ANIMATE), some (.cur .GRADE_POSITIVE)], 6),
   ([some (.cur .ADJECTIVE_FORM_FULL), some (.cur .NUMBER_SINGULAR), some (.cur .CASE_NOMINATIVE), some (.cur .GENDER_NEUTER), some (.cur .ANIMALITY_ANIMATE), some (.cur .GRADE_COMPARATIVE)], 7),
   ([some (.cur .ADJECTIVE_FORM_FULL), some (.cur .NUMBER_SINGULAR), some (.cur .CASE_NOMINATIVE), some (.cur .GENDER_NEUTER), some (.cur .ANIMALITY_ANIMATE), some (.cur .GRADE_SUPERLATIVE)], 8),
   ([some (.cur .ADJECTIVE_FORM_FULL), some (.cur .NUMBER_SINGULAR), some (.cur .CASE_NOMINATIVE), some (.cur .GENDER_NEUTER), some (.cur .ANIMALITY_INANIMATE), some (.cur .GRADE_POSITIVE)], 9),
   ([some (.cur .ADJECTIVE_FORM_FULL), some (.cur .NUMBER_SINGULAR), some (.cur .CASE_NOMINATIVE), some (.cur .GENDER_NEUTER), some (.cur .ANIMALITY_INANIMATE), some (.cur .GRADE_COMPARATIVE)], 10),
   ([some (.cur .ADJECTIVE_FORM_FULL), some (.cur .NUMBER_SINGULAR), some (.cur .CASE_NOMINATIVE), some (.cur .GENDER_NEUTER), some (.cur .ANIMALITY_INANIMATE), some (.cur .GRADE_SUPERLATIVE)], 11),
   ([some (.cur .ADJECTIVE_FORM_FULL), some (.cur .NUMBER_SINGULAR), some (.cur .CASE_NOMINATIVE), some (.cur .GENDER_FEMININE), some (.cur .ANIMALITY_ANIMATE), some (.cur .GRADE_POSITIVE)], 12),
   ([some (.cur .ADJECTIVE_FORM_FULL), some (.cur .NUMBER_SINGULAR), some (.cur .CASE_NOMINATIVE), some (.cur .GENDER_FEMININE), some (.cur .ANIMALITY_ANIMATE), some (.cur .GRADE_COMPARATIVE)], 13),
   ([some (.cur .ADJECTIVE_FORM_FULL), some (.cur .NUMBER_SINGULAR), some (.cur .CASE_NOMINATIVE), some (.cur .GENDER_FEMININE), some (.cur .ANIMALITY_ANIMATE), some (.cur .GRADE_SUPERLATIVE)], 14),
   ([some (.cur .ADJECTIVE_FORM_FULL), some (.cur .NUMBER_SINGULAR), some (.cur .CASE_NOMINATIVE), some (.cur .GENDER_FEMININE), some (.cur .ANIMALITY_INANIMATE), some (.cur .GRADE_POSITIVE)], 15),
   ([some (.cur .ADJECTIVE_FORM_FULL), some (.cur .NUMBER_SINGULAR), some (.cur .CASE_NOMINATIVE), some (.cur .GENDER_FEMININE), some (.cur .ANIMALITY_INANIMATE), some (.cur .GRADE_COMPARATIVE)], 16),
   ([some (.cur .ADJECTIVE_FORM_FULL), some (.cur .NUMBER_SINGULAR), some (.cur .CASE_NOMINATIVE), some (.cur .GENDER_FEMININE), some (.cur .ANIMALITY_INANIMATE), some (.cur .GRADE_SUPERLATIVE)], 17),
   ([some (.cur .ADJECTIVE_FORM_FULL), some (.cur .NUMBER_SINGULAR), some (.cur .CASE_GENITIVE), some (.cur .GENDER_MASCULINE), some (.cur .ANIMALITY_ANIMATE), some (.cur .GRADE_POSITIVE)], 18),
   ([some (.cur .ADJECTIVE_FORM_FULL), some (.cur .NUMBER_SINGULAR), some (.cur .CASE_GENITIVE), some (.cur .GENDER_MASCULINE), some (.cur .ANIMALITY_ANIMATE), some (.cur .GRADE_COMPARATIVE)], 19),
   ([some (.cur .ADJECTIVE_FORM_FULL), some (.cur .NUMBER_SINGULAR), some (.cur .CASE_GENITIVE), some (.cur .GENDER_MASCULINE), some (.cur .ANIMALITY_ANIMATE), some (.cur .GRADE_SUPERLATIVE)], 20),
   ([some (.cur .ADJECTIVE_FORM_FULL), some (.cur .NUMBER_SINGULAR), some (.cur .CASE_GENITIVE), some (.cur .GENDER_MASCULINE), some (.cur .ANIMALITY_INANIMATE), some (.cur .GRADE_POSITIVE)], 21),
   ([some (.cur .ADJECTIVE_FORM_FULL), some (.cur .NUMBER_SINGULAR), some (.cur .CASE_GENITIVE), some (.cur .GENDER_MASCULINE), some (.cur .ANIMALITY_INANIMATE), some (.cur .GRADE_COMPARATIVE)], 22),
   ([some (.cur .ADJECTIVE_FORM_FULL), some (.cur .NUMBER_SINGULAR), some (.cur .CASE_GENITIVE), some (.cur .GENDER_MASCULINE), some (.cur .ANIMALITY_INANIMATE), some (.cur .GRADE_SUPERLATIVE)], 23),
   ([some (.cur .ADJECTIVE_FORM_FULL), some (.cur .NUMBER_SINGULAR), some (.cur .CASE_GENITIVE), some (.cur .GENDER_NEUTER), some (.cur .ANIMALITY_ANIMATE), some (.cur .GRADE_POSITIVE)], 24),
   ([some (.cur .ADJECTIVE_FORM_FULL), some (.cur .NUMBER_SINGULAR), some (.cur .CASE_GENITIVE), some (.cur .GENDER_NEUTER), some (.cur .ANIMALITY_ANIMATE), some (.cur .GRADE_COMPARATIVE)], 25),
   ([some (.cur .ADJECTIVE_FORM_FULL), some (.cur .NUMBER_SINGULAR), some (.cur .CASE_GENITIVE), some (.cur .GENDER_NEUTER), some (.cur .ANIMALITY_ANIMATE), some (.cur .GRADE_SUPERLATIVE)], 26),
   ([some (.cur .ADJECTIVE_FORM_FULL), some (.cur .NUMBER_SINGULAR), some (.cur .CASE_GENITIVE), some (.cur .GENDER_NEUTER), some (.cur .ANIMALITY_INANIMATE), some (.cur .GRADE_POSITIVE)], 27),
   ([some (.cur .ADJECTIVE_FORM_FULL), some (.cur .NUMBER_SINGULAR), some (.cur .CASE_GENITIVE), some (.cur .GENDER_NEUTER), some (.cur .ANIMALITY_INANIMATE), some (.cur .GRADE_COMPARATIVE)], 28),
   ([some (.cur .ADJECTIVE_FORM_FULL), some (.cur .NUMBER_SINGULAR), some (.cur .CASE_GENITIVE), some (.cur .GENDER_NEUTER), some (.cur .ANIMALITY_INANIMATE), some (.cur .GRADE_SUPERLATIVE)], 29),
   ([some (.cur .ADJECTIVE_FORM_FULL), some (.cur .NUMBER_SINGULAR), some (.cur .CASE_GENITIVE), some (.cur .GENDER_FEMININE), some (.cur .ANIMALITY_ANIMATE), some (.cur .GRADE_POSITIVE)], 30),
   ([some (.cur .ADJECTIVE_FORM_FULL), some (.cur .NUMBER_SINGULAR), some (.cur .CASE_GENITIVE), some (.cur .GENDER_FEMININE), some (.cur .ANIMALITY_ANIMATE), some (.cur .GRADE_COMPARATIVE)], 31),
   ([some (.cur .ADJECTIVE_FORM_FULL), some (.cur .NUMBER_SINGULAR), some (.cur .CASE_GENITIVE), some (.cur .GENDER_FEMININE), some (.cur .ANIMALITY_ANIMATE), some (.cur .GRADE_SUPERLATIVE)], 32),
   ([some (.cur .ADJECTIVE_FORM_FULL), some (.cur .NUMBER_SINGULAR), some (.cur .CASE_GENITIVE), some (.cur .GENDER_FEMININE), some (.cur .ANIMALITY_INANIMATE), some (.cur .GRADE_POSITIVE)], 33),
   ([some (.cur .ADJECTIVE_FORM_FULL), some (.cur .NUMBER_SINGULAR), some (.cur .CASE_GENITIVE), some (.cur .GENDER_FEMININE), some (.cur .ANIMALITY_INANIMATE), some (.cur .GRADE_COMPARATIVE)], 34),
   ([some (.cur .ADJECTIVE_FORM_FULL), some (.cur .NUMBER_SINGULAR), some (.cur .CASE_GENITIVE), some (.cur .GENDER_FEMININE), some (.cur .ANIMALITY_INANIMATE), some (.cur .GRADE_SUPERLATIVE)], 35),
   ([some (.cur .ADJECTIVE_FORM_FULL), some (.cur .NUMBER_SINGULAR), some (.cur .CASE_DATIVE), some (.cur .GENDER_MASCULINE), some (.cur .ANIMALITY_ANIMATE), some (.cur .GRADE_POSITIVE)], 36),
   ([some (.cur .ADJECTIVE_FORM_FULL), some (.cur .NUMBER_SINGULAR), some (.cur .CASE_DATIVE), some (.cur .GENDER_MASCULINE), some (.cur .ANIMALITY_ANIMATE), some (.cur .GRADE_COMPARATIVE)], 37),
   ([some (.cur .ADJECTIVE_FORM_FULL), some (.cur .NUMBER_SINGULAR), some (.cur .CASE_DATIVE), some (.cur .GENDER_MASCULINE), some (.cur .ANIMALITY_ANIMATE), some (.cur .GRADE_SUPERLATIVE)], 38),
   ([some (.cur .ADJECTIVE_FORM_FULL), some (.cur .NUMBER_SINGULAR), some (.cur .CASE_DATIVE), some (.cur .GENDER_MASCULINE), some (.cur .ANIMALITY_INANIMATE), some (.cur .GRADE_POSITIVE)], 39),
   ([some (.cur .ADJECTIVE_FORM_FULL), some (.cur .NUMBER_SINGULAR), some (.cur .CASE_DATIVE), some (.cur .GENDER_MASCULINE), some (.cur .ANIMALITY_INANIMATE), some (.cur .GRADE_COMPARATIVE)], 40),
   ([some (.cur .ADJECTIVE_FORM_FULL), some (.cur .NUMBER_SINGULAR), some (.cur .CASE_DATIVE), some (.cur .GENDER_MASCULINE), some (.cur .ANIMALITY_INANIMATE), some (.cur .GRADE_SUPERLATIVE)], 41),
   ([some (.cur .ADJECTIVE_FORM_FULL), some (.cur .NUMBER_SINGULAR), some (.cur .CASE_DATIVE), some (.cur .GENDER_NEUTER), some (.cur .ANIMALITY_ANIMATE), some (.cur .GRADE_POSITIVE)], 42),
   ([some (.cur .ADJECTIVE_FORM_FULL), some (.cur .NUMBER_SINGULAR), some (.cur .CASE_DATIVE), some (.cur .GENDER_NEUTER), some (.cur .ANIMALITY_ANIMATE), some (.cur .GRADE_COMPARATIVE)], 43),
   ([some (.cur .ADJECTIVE_FORM_FULL), some (.cur .NUMBER_SINGULAR), some (.cur .CASE_DATIVE), some (.cur .GENDER_NEUTER), some (.cur .ANIMALITY_ANIMATE), some (.cur .GRADE_SUPERLATIVE)], 44),
   ([some (.cur .ADJECTIVE_FORM_FULL), some (.cur .NUMBER_SINGULAR), some (.cur .CASE_DATIVE), some (.cur .GENDER_NEUTER), some (.cur .ANIMALITY_INANIMATE), some (.cur .GRADE_POSITIVE)], 45),
   ([some (.cur .ADJECTIVE_FORM_FULL), some (.cur .NUMBER_SINGULAR), some (.cur .CASE_DATIVE), some (.cur .GENDER_NEUTER), some (.cur .ANIMALITY_INANIMATE), some (.cur .GRADE_COMPARATIVE)], 46),
   ([some (.cur .ADJECTIVE_FORM_FULL), some (.cur .NUMBER_SINGULAR), some (.cur .CASE_DATIVE), some (.cur .GENDER_NEUTER), some (.cur .ANIMALITY_INANIMATE), some (.cur .GRADE_SUPERLATIVE)], 47),
   ([some (.cur .ADJECTIVE_FORM_FULL), some (.cur .NUMBER_SINGULAR), some (.cur .CASE_DATIVE), some (.cur .GENDER_FEMININE), some (.cur .ANIMALITY_ANIMATE), some (.cur .GRADE_POSITIVE)], 48),
   ([some (.cur .ADJECTIVE_FORM_FULL), some (.cur .NUMBER_SINGULAR), some (.cur .CASE_DATIVE), some (.cur .GENDER_FEMININE), some (.cur .ANIMALITY_ANIMATE), some (.cur .GRADE_COMPARATIVE)], 49),
   ([some (.cur .ADJECTIVE_FORM_FULL), some (.cur .NUMBER_SINGULAR), some (.cur .CASE_DATIVE), some (.cur .GENDER_FEMININE), some (.cur .ANIMALITY_ANIMATE), some (.cur .GRADE_SUPERLATIVE)], 50),
   ([some (.cur .ADJECTIVE_FORM_FULL), some (.cur .NUMBER_SINGULAR), some (.cur .CASE_DATIVE), some (.cur .GENDER_FEMININE), some (.cur .ANIMALITY_INANIMATE), some (.cur .GRADE_POSITIVE)], 51),
   ([some (.cur .ADJECTIVE_FORM_FULL), some (.cur .NUMBER_SINGULAR), some (.cur .CASE_DATIVE), some (.cur .GENDER_FEMININE), some (.cur .ANIMALITY_INANIMATE), some (.cur .GRADE_COMPARATIVE)], 52),
   ([some (.cur .ADJECTIVE_FORM_FULL), some (.cur .NUMBER_SINGULAR), some (.cur .CASE_DATIVE), some (.cur .GENDER_FEMININE), some (.cur .ANIMALITY_INANIMATE), some (.cur .GRADE_SUPERLATIVE)], 53),
   ([some (.cur .ADJECTIVE_FORM_FULL), some (.cur .NUMBER_SINGULAR), some (.cur .CASE_ACCUSATIVE), some (.cur .GENDER_MASCULINE), some (.cur .ANIMALITY_ANIMATE), some (.cur .GRADE_POSITIVE)], 54),
   ([some (.cur .ADJECTIVE_FORM_FULL), some (.cur .NUMBER_SINGULAR), some (.cur .CASE_ACCUSATIVE), some (.cur .GENDER_MASCULINE), some (.cur .ANIMALITY_ANIMATE), some (.cur .GRADE_COMPARATIVE)], 55),
   ([some (.cur .ADJECTIVE_FORM_FULL), some (.cur .NUMBER_SINGULAR), some (.cur .CASE_ACCUSATIVE), some (.cur .GENDER_MASCULINE), some (.cur .ANIMALITY_ANIMATE), some (.cur .GRADE_SUPERLATIVE)], 56),
   ([some (.cur .ADJECTIVE_FORM_FULL), some (.cur .NUMBER_SINGULAR), some (.cur .CASE_ACCUSATIVE), some (.cur .GENDER_MASCULINE), some (.cur .ANIMALITY_INANIMATE), some (.cur .GRADE_POSITIVE)], 57),
   ([some (.cur .ADJECTIVE_FORM_FULL), some (.cur .NUMBER_SINGULAR), some (.cur .CASE_ACCUSATIVE), some (.cur .GENDER_MASCULINE), some (.cur .ANIMALITY_INANIMATE), some (.cur .GRADE_COMPARATIVE)], 58),
   ([some (.cur .ADJECTIVE_FORM_FULL), some (.cur .NUMBER_SINGULAR), some (.cur .CASE_ACCUSATIVE), some (.cur .GENDER_MASCULINE), some (.cur .ANIMALITY_INANIMATE), some (.cur .GRADE_SUPERLATIVE)], 59),
   ([some (.cur .ADJECTIVE_FORM_FULL), some (.cur .NUMBER_SINGULAR), some (.cur .CASE_ACCUSATIVE), some (.cur .GENDER_NEUTER), some (.cur .ANIMALITY_ANIMATE), some (.cur .GRADE_POSITIVE)], 60),
   ([some (.cur .ADJECTIVE_FORM_FULL), some (.cur .NUMBER_SINGULAR), some (.cur .CASE_ACCUSATIVE), some (.cur .GENDER_NEUTER), some (.cur .ANIMALITY_ANIMATE), some (.cur .GRADE_COMPARATIVE)], 61),
   ([some (.cur .ADJECTIVE_FORM_FULL), some (.cur .NUMBER_SINGULAR), some (.cur .CASE_ACCUSATIVE), some (.cur .GENDER_NEUTER), some (.cur .ANIMALITY_ANIMATE), some (.cur .GRADE_SUPERLATIVE)], 62),
   ([some (.cur .ADJECTIVE_FORM_FULL), some (.cur .NUMBER_SINGULAR), some (.cur .CASE_ACCUSATIVE), some (.cur .GENDER_NEUTER), some (.cur .ANIMALITY_INANIMATE), some (.cur .GRADE_POSITIVE)], 63),
   ([some (.cur .ADJECTIVE_FORM_FULL), some (.cur .NUMBER_SINGULAR), some (.cur .CASE_ACCUSATIVE), some (.cur .GENDER_NEUTER), some (.cur .ANIMALITY_INANIMATE), some (.cur .GRADE_COMPARATIVE)], 64),
   ([some (.cur .ADJECTIVE_FORM_FULL), some (.cur .NUMBER_SINGULAR), some (.cur .CASE_ACCUSATIVE), some (.cur .GENDER_NEUTER), some (.cur .ANIMALITY_INANIMATE), some (.cur .GRADE_SUPERLATIVE)], 65),
   ([some (.cur .ADJECTIVE_FORM_FULL), some (.cur .NUMBER_SINGULAR), some (.cur .CASE_ACCUSATIVE), some (.cur .GENDER_FEMININE), some (.cur .ANIMALITY_ANIMATE), some (.cur .GRADE_POSITIVE)], 66),
   ([some (.cur .ADJECTIVE_FORM_FULL), some (.cur .NUMBER_SINGULAR), some (.cur .CASE_ACCUSATIVE), some (.cur .GENDER_FEMININE), some (.cur .ANIMALITY_ANIMATE), some (.cur .GRADE_COMPARATIVE)], 67),
   ([some (.cur .ADJECTIVE_FORM_FULL), some (.cur .NUMBER_SINGULAR), some (.cur .CASE_ACCUSATIVE), some (.cur .GENDER_FEMININE), some (.cur .ANIMALITY_ANIMATE), some (.cur .GRADE_SUPERLATIVE)], 68),
   ([some (.cur .ADJECTIVE_FORM_FULL), some (.cur .NUMBER_SINGULAR), some (.cur .CASE_ACCUSATIVE), some (.cur .GENDER_FEMININE), some (.cur .ANIMALITY_INANIMATE), some (.cur .GRADE_POSITIVE)], 69),
   ([some (.cur .ADJECTIVE_FORM_FULL), some (.cur .NUMBER_SINGULAR), some (.cur .CASE_ACCUSATIVE), some (.cur .GENDER_FEMININE), some (.cur .ANIMALITY_INANIMATE), some (.cur .GRADE_COMPARATIVE)], 70),
   ([some (.cur .ADJECTIVE_FORM_FULL), some (.cur .NUMBER_SINGULAR), some (.cur .CASE_ACCUSATIVE), some (.cur .GENDER_FEMININE), some (.cur .ANIMALITY_INANIMATE), some (.cur .GRADE_SUPERLATIVE)], 71),
   ([some (.cur .ADJECTIVE_FORM_FULL), some (.cur .NUMBER_SINGULAR), some (.cur .CASE_INSTRUMENTAL), some (.cur .GENDER_MASCULINE), some (.cur .ANIMALITY_ANIMATE), some (.cur .GRADE_POSITIVE)], 72),
   ([some (.cur .ADJECTIVE_FORM_FULL), some (.cur .NUMBER_SINGULAR), some (.cur .CASE_INSTRUMENTAL), some (.cur .GENDER_MASCULINE), some (.cur .ANIMALITY_ANIMATE), some (.cur .GRADE_COMPARATIVE)], 73),
   ([some (.cur .ADJECTIVE_FORM_FULL), some (.cur .NUMBER_SINGULAR), some (.cur .CASE_INSTRUMENTAL), some (.cur .GENDER_MASCULINE), some (.cur .ANIMALITY_ANIMATE), some (.cur .GRADE_SUPERLATIVE)], 74),
   ([some (.cur .ADJECTIVE_FORM_FULL), some (.cur .NUMBER_SINGULAR), some (.cur .CASE_INSTRUMENTAL), some (.cur .GENDER_MASCULINE), some (.cur .ANIMALITY_INANIMATE), some (.cur .GRADE_POSITIVE)], 75),
   ([some (.cur .ADJECTIVE_FORM_FULL), some (.cur .NUMBER_SINGULAR), some (.cur .CASE_INSTRUMENTAL), some (.cur .GENDER_MASCULINE), some (.cur .ANIMALITY_INANIMATE), some (.cur .GRADE_COMPARATIVE)], 76),
   ([some (.cur .ADJECTIVE_FORM_FULL), some (.cur .NUMBER_SINGULAR), some (.cur .CASE_INSTRUMENTAL), some (.cur .GENDER_MASCULINE), some (.cur .ANIMALITY_INANIMATE), some (.cur .GRADE_SUPERLATIVE)], 77),
   ([some (.cur .ADJECTIVE_FORM_FULL), some (.cur .NUMBER_SINGULAR), some (.cur .CASE_INSTRUMENTAL), some (.cur .GENDER_NEUTER), some (.cur .ANIMALITY_ANIMATE), some (.cur .GRADE_POSITIVE)], 78),
   ([some (.cur .ADJECTIVE_FORM_FULL), some (.cur .NUMBER_SINGULAR), some (.cur .CASE_INSTRUMENTAL), some (.cur .GENDER_NEUTER), some (.cur .ANIMALITY_ANIMATE), some (.cur .GRADE_COMPARATIVE)], 79),
   ([some (.cur .ADJECTIVE_FORM_FULL), some (.cur .NUMBER_SINGULAR), some (.cur .CASE_INSTRUMENTAL), some (.cur .GENDER_NEUTER), some (.cur .ANIMALITY_ANIMATE), some (.cur .GRADE_SUPERLATIVE)], 80),
   ([some (.cur .ADJECTIVE_FORM_FULL), some (.cur .NUMBER_SINGULAR), some (.cur .CASE_INSTRUMENTAL), some (.cur .GENDER_NEUTER), some (.cur .ANIMALITY_INANIMATE), some (.cur .GRADE_POSITIVE)], 81),
   ([some (.cur .ADJECTIVE_FORM_FULL), some (.cur .NUMBER_SINGULAR), some (.cur .CASE_INSTRUMENTAL), some (.cur .GENDER_NEUTER), some (.cur .ANIMALITY_INANIMATE), some (.cur .GRADE_COMPARATIVE)], 82),
   ([some (.cur .ADJECTIVE_FORM_FULL), some (.cur .NUMBER_SINGULAR), some (.cur .CASE_INSTRUMENTAL), some (.cur .GENDER_NEUTER), some (.cur .ANIMALITY_INANIMATE), some (.cur .GRADE_SUPERLATIVE)], 83),
   ([some (.cur .ADJECTIVE_FORM_FULL), some (.cur .NUMBER_SINGULAR), some (.cur .CASE_INSTRUMENTAL), some (.cur .GENDER_FEMININE), some (.cur .ANIMALITY_ANIMATE), some (.cur .GRADE_POSITIVE)], 84),
   ([some (.cur .ADJECTIVE_FORM_FULL), some (.cur .NUMBER_SINGULAR), some (.cur .CASE_INSTRUMENTAL), some (.cur .GENDER_FEMININE), some (.cur .ANIMALITY_ANIMATE), some (.cur .GRADE_COMPARATIVE)], 85),
   ([some (.cur .ADJECTIVE_FORM_FULL), some (.cur .NUMBER_SINGULAR), some (.cur .CASE_INSTRUMENTAL), some (.cur .GENDER_FEMININE), some (.cur .ANIMALITY_ANIMATE), some (.cur .GRADE_SUPERLATIVE)], 86),
   ([some (.cur .ADJECTIVE_FORM_FULL), some (.cur .NUMBER_SINGULAR), some (.cur .CASE_INSTRUMENTAL), some (.cur .GENDER_FEMININE), some (.cur .ANIMALITY_INANIMATE), some (.cur .GRADE_POSITIVE)], 87),
   ([some (.cur .ADJECTIVE_FORM_FULL), some (.cur .NUMBER_SINGULAR), some (.cur .CASE_INSTRUMENTAL), some (.cur .GENDER_FEMININE), some (.cur .ANIMALITY_INANIMATE), some (.cur .GRADE_COMPARATIVE)], 88),
   ([some (.cur .ADJECTIVE_FORM_FULL), some (.cur .NUMBER_SINGULAR), some (.cur .CASE_INSTRUMENTAL), some (.cur .GENDER_FEMININE), some (.cur .ANIMALITY_INANIMATE), some (.cur .GRADE_SUPERLATIVE)], 89),
   ([some (.cur .ADJECTIVE_FORM_FULL), some (.cur .NUMBER_SINGULAR), some (.cur .CASE_PREPOSITIONAL), some (.cur .GENDER_MASCULINE), some (.cur .ANIMALITY_ANIMATE), some (.cur .GRADE_POSITIVE)], 90),
   ([some (.cur .ADJECTIVE_FORM_FULL), some (.cur .NUMBER_SINGULAR), some (.cur .CASE_PREPOSITIONAL), some (.cur .GENDER_MASCULINE), some (.cur .ANIMALITY_ANIMATE), some (.cur .GRADE_COMPARATIVE)], 91),
   ([some (.cur .ADJECTIVE_FORM_FULL), some (.cur .NUMBER_SINGULAR), some (.cur .CASE_PREPOSITIONAL), some (.cur .GENDER_MASCULINE), some (.cur .ANIMALITY_ANIMATE), some (.cur .GRADE_SUPERLATIVE)], 92),
   ([some (.cur .ADJECTIVE_FORM_FULL), some (.cur .NUMBER_SINGULAR), some (.cur .CASE_PREPOSITIONAL), some (.cur .GENDER_MASCULINE), some (.cur .ANIMALITY_INANIMATE), some (.cur .GRADE_POSITIVE)], 93),
   ([some (.cur .ADJECTIVE_FORM_FULL), some (.cur .NUMBER_SINGULAR), some (.cur .CASE_PREPOSITIONAL), some (.cur .GENDER_MASCULINE), some (.cur .ANIMALITY_INANIMATE), some (.cur .GRADE_COMPARATIVE)], 94),
   ([some (.cur .ADJECTIVE_FORM_FULL), some (.cur .NUMBER_SINGULAR), some (.cur .CASE_PREPOSITIONAL), some (.cur .GENDER_MASCULINE), some (.cur .ANIMALITY_INANIMATE), some (.cur .GRADE_SUPERLATIVE)], 95),
   ([some (.cur .ADJECTIVE_FORM_FULL), some (.cur .NUMBER_SINGULAR), some (.cur .CASE_PREPOSITIONAL), some (.cur .GENDER_NEUTER), some (.cur .ANIMALITY_ANIMATE), some (.cur .GRADE_POSITIVE)], 96),
   ([some (.cur .ADJECTIVE_FORM_FULL), some (.cur .NUMBER_SINGULAR), some (.cur .CASE_PREPOSITIONAL), some (.cur .GENDER_NEUTER), some (.cur .ANIMALITY_ANIMATE), some (.cur .GRADE_COMPARATIVE)], 97),
   ([some (.cur .ADJECTIVE_FORM_FULL), some (.cur .NUMBER_SINGULAR), some (.cur .CASE_PREPOSITIONAL), some (.cur .GENDER_NEUTER), some (.cur .ANIMALITY_ANIMATE), some (.cur .GRADE_SUPERLATIVE)], 98),
   ([some (.cur .ADJECTIVE_FORM_FULL), some (.cur .NUMBER_SINGULAR), some (.cur .CASE_PREPOSITIONAL), some (.cur .GENDER_NEUTER), some (.cur .ANIMALITY_INANIMATE), some (.cur .GRADE_POSITIVE)], 99),
   ([some (.cur .ADJECTIVE_FORM_FULL), some (.cur .NUMBER_SINGULAR), some (.cur .CASE_PREPOSITIONAL), some (.cur .GENDER_NEUTER), some (.cur .ANIMALITY_INANIMATE), some (.cur .GRADE_COMPARATIVE)], 100),
   ([some (.cur .ADJECTIVE_FORM_FULL), some (.cur .NUMBER_SINGULAR), some (.cur .CASE_PREPOSITIONAL), some (.cur .GENDER_NEUTER), some (.cur .ANIMALITY_INANIMATE), some (.cur .GRADE_SUPERLATIVE)], 101),
   ([some (.cur .ADJECTIVE_FORM_FULL), some (.cur .NUMBER_SINGULAR), some (.cur .CASE_PREPOSITIONAL), some (.cur .GENDER_FEMININE), some (.cur .ANIMALITY_ANIMATE), some (.cur .GRADE_POSITIVE)], 102),
   ([some (.cur .ADJECTIVE_FORM_FULL), some (.cur .NUMBER_SINGULAR), some (.cur .CASE_PREPOSITIONAL), some (.cur .GENDER_FEMININE), some (.cur .ANIMALITY_ANIMATE), some (.cur .GRADE_COMPARATIVE)], 103),
   ([some (.cur .ADJECTIVE_FORM_FULL), some (.cur .NUMBER_SINGULAR), some (.cur .CASE_PREPOSITIONAL), some (.cur .GENDER_FEMININE), some (.cur .ANIMALITY_ANIMATE), some (.cur .GRADE_SUPERLATIVE)], 104),
   ([some (.cur .ADJECTIVE_FORM_FULL), some (.cur .NUMBER_SINGULAR), some (.cur .CASE_PREPOSITIONAL), some (.cur .GENDER_FEMININE), some (.cur .ANIMALITY_INANIMATE), some (.cur .GRADE_POSITIVE)], 105),
   ([some (.cur .ADJECTIVE_FORM_FULL), some (.cur .NUMBER_SINGULAR), some (.cur .CASE_PREPOSITIONAL), some (.cur .GENDER_FEMININE), some (.cur .ANIMALITY_INANIMATE), some (.cur .GRADE_COMPARATIVE)], 106),
   ([some (.cur .ADJECTIVE_FORM_FULL), some (.cur .NUMBER_SINGULAR), some (.cur .CASE_PREPOSITIONAL), some (.cur .GENDER_FEMININE), some (.cur .ANIMALITY_INANIMATE), some (.cur .GRADE_SUPERLATIVE)], 107),
   ([some (.cur .ADJECTIVE_FORM_FULL), some (.cur .NUMBER_PLURAL), some (.cur .CASE_NOMINATIVE), none, some (.cur .ANIMALITY_ANIMATE), some (.cur .GRADE_POSITIVE)], 108),
   ([some (.cur .ADJECTIVE_FORM_FULL), some (.cur .NUMBER_PLURAL), some (.cur .CASE_NOMINATIVE), none, some (.cur .ANIMALITY_ANIMATE), some (.cur .GRADE_COMPARATIVE)], 109),
   ([some (.cur .ADJECTIVE_FORM_FULL), some (.cur .NUMBER_PLURAL), some (.cur .CASE_NOMINATIVE), none, some (.cur .ANIMALITY_ANIMATE), some (.cur .GRADE_SUPERLATIVE)], 110),
   ([some (.cur .ADJECTIVE_FORM_FULL), some (.cur .NUMBER_PLURAL), some (.cur .CASE_NOMINATIVE), none, some (.cur .ANIMALITY_INANIMATE), some (.cur .GRADE_POSITIVE)], 111),
   ([some (.cur .ADJECTIVE_FORM_FULL), some (.cur .NUMBER_PLURAL), some (.cur .CASE_NOMINATIVE), none, some (.cur .ANIMALITY_INANIMATE), some (.cur .GRADE_COMPARATIVE)], 112),
   ([some (.cur .ADJECTIVE_FORM_FULL), some (.cur .NUMBER_PLURAL), some (.cur .CASE_NOMINATIVE), none, some (.cur .ANIMALITY_INANIMATE), some (.cur .GRADE_SUPERLATIVE)], 113),
   ([some (.cur .ADJECTIVE_FORM_FULL), some (.cur .NUMBER_PLURAL), some (.cur .CASE_GENITIVE), none, some (.cur .ANIMALITY_ANIMATE), some (.cur .GRADE_POSITIVE)], 114),
   ([some (.cur .ADJECTIVE_FORM_FULL), some (.cur .NUMBER_PLURAL), some (.cur .CASE_GENITIVE), none, some (.cur .ANIMALITY_ANIMATE), some (.cur .GRADE_COMPARATIVE)], 115),
   ([some (.cur .ADJECTIVE_FORM_FULL), some (.cur .NUMBER_PLURAL), some (.cur .CASE_GENITIVE), none, some (.cur .ANIMALITY_ANIMATE), some (.cur .GRADE_SUPERLATIVE)], 116),
   ([some (.cur .ADJECTIVE_FORM_FULL), some (.cur .NUMBER_PLURAL), some (.cur .CASE_GENITIVE), none, some (.cur .ANIMALITY_INANIMATE), some (.cur .GRADE_POSITIVE)], 117),
   ([some (.cur .ADJECTIVE_FORM_FULL), some (.cur .NUMBER_PLURAL), some (.cur .CASE_GENITIVE), none, some (.cur .ANIMALITY_INANIMATE), some (.cur .GRADE_COMPARATIVE)], 118),
   ([some (.cur .ADJECTIVE_FORM_FULL), some (.cur .NUMBER_PLURAL), some (.cur .CASE_GENITIVE), none, some (.cur .ANIMALITY_INANIMATE), some (.cur .GRADE_SUPERLATIVE)], 119),
   ([some (.cur .ADJECTIVE_FORM_FULL), some (.cur .NUMBER_PLURAL), some (.cur .CASE_DATIVE), none, some (.cur .ANIMALITY_ANIMATE), some (.cur .GRADE_POSITIVE)], 120),
   ([some (.cur .ADJECTIVE_FORM_FULL), some (.cur .NUMBER_PLURAL), some (.cur .CASE_DATIVE), none, some (.cur .ANIMALITY_ANIMATE), some (.cur .GRADE_COMPARATIVE)], 121),
   ([some (.cur .ADJECTIVE_FORM_FULL), some (.cur .NUMBER_PLURAL), some (.cur .CASE_DATIVE), none, some (.cur .ANIMALITY_ANIMATE), some (.cur .GRADE_SUPERLATIVE)], 122),
   ([some (.cur .ADJECTIVE_FORM_FULL), some (.cur .NUMBER_PLURAL), some (.cur .CASE_DATIVE), none, some (.cur .ANIMALITY_INANIMATE), some (.cur .GRADE_POSITIVE)], 123),
   ([some (.cur .ADJECTIVE_FORM_FULL), some (.cur .NUMBER_PLURAL), some (.cur .CASE_DATIVE), none, some (.cur .ANIMALITY_INANIMATE), some (.cur .GRADE_COMPARATIVE)], 124),
   ([some (.cur .ADJECTIVE_FORM_FULL), some (.cur .NUMBER_PLURAL), some (.cur .CASE_DATIVE), none, some (.cur .ANIMALITY_INANIMATE), some (.cur .GRADE_SUPERLATIVE)], 125),
   ([some (.cur .ADJECTIVE_FORM_FULL), some (.cur .NUMBER_PLURAL), some (.cur .CASE_ACCUSATIVE), none, some (.cur .ANIMALITY_ANIMATE), some (.cur .GRADE_POSITIVE)], 126),
   ([some (.cur .ADJECTIVE_FORM_FULL), some (.cur .NUMBER_PLURAL), some (.cur .CASE_ACCUSATIVE), none, some (.cur .ANIMALITY_ANIMATE), some (.cur .GRADE_COMPARATIVE)], 127),
   ([some (.cur .ADJECTIVE_FORM_FULL), some (.cur .NUMBER_PLURAL), some (.cur .CASE_ACCUSATIVE), none, some (.cur .ANIMALITY_ANIMATE), some (.cur .GRADE_SUPERLATIVE)], 128),
   ([some (.cur .ADJECTIVE_FORM_FULL), some (.cur .NUMBER_PLURAL), some (.cur .CASE_ACCUSATIVE), none, some (.cur .ANIMALITY_INANIMATE), some (.cur .GRADE_POSITIVE)], 129),
   ([some (.cur .ADJECTIVE_FORM_FULL), some (.cur .NUMBER_PLURAL), some (.cur .CASE_ACCUSATIVE), none, some (.cur .ANIMALITY_INANIMATE), some (.cur .GRADE_COMPARATIVE)], 130),
   ([some (.cur .ADJECTIVE_FORM_FULL), some (.cur .NUMBER_PLURAL), some (.cur .CASE_ACCUSATIVE), none, some (.cur .ANIMALITY_INANIMATE), some (.cur .GRADE_SUPERLATIVE)], 131),
   ([some (.cur .ADJECTIVE_FORM_FULL), some (.cur .NUMBER_PLURAL), some (.cur .CASE_INSTRUMENTAL), none, some (.cur .ANIMALITY_ANIMATE), some (.cur .GRADE_POSITIVE)], 132),
   ([some (.cur .ADJECTIVE_FORM_FULL), some (.cur .NUMBER_PLURAL), some (.cur .CASE_INSTRUMENTAL), none, some (.cur .ANIMALITY_ANIMATE), some (.cur .GRADE_COMPARATIVE)], 133),
   ([some (.cur .ADJECTIVE_FORM_FULL), some (.cur .NUMBER_PLURAL), some (.cur .CASE_INSTRUMENTAL), none, some (.cur .ANIMALITY_ANIMATE), some (.cur .GRADE_SUPERLATIVE)], 134),
   ([some (.cur .ADJECTIVE_FORM_FULL), some (.cur .NUMBER_PLURAL), some (.cur .CASE_INSTRUMENTAL), none, some (.cur .ANIMALITY_INANIMATE), some (.cur .GRADE_POSITIVE)], 135),
   ([some (.cur .ADJECTIVE_FORM_FULL), some (.cur .NUMBER_PLURAL), some (.cur .CASE_INSTRUMENTAL), none, some (.cur .ANIMALITY_INANIMATE), some (.cur .GRADE_COMPARATIVE)], 136),
   ([some (.cur .ADJECTIVE_FORM_FULL), some (.cur .NUMBER_PLURAL), some (.cur .CASE_INSTRUMENTAL), none, some (.cur .ANIMALITY_INANIMATE), some (.cur .GRADE_SUPERLATIVE)], 137),
   ([some (.cur .ADJECTIVE_FORM_FULL), some (.cur .NUMBER_PLURAL), some (.cur .CASE_PREPOSITIONAL), none, some (.cur .ANIMALITY_ANIMATE), some (.cur .GRADE_POSITIVE)], 138),
   ([some (.cur .ADJECTIVE_FORM_FULL), some (.cur .NUMBER_PLURAL), some (.cur .CASE_PREPOSITIONAL), none, some (.cur .ANIMALITY_ANIMATE), some (.cur .GRADE_COMPARATIVE)], 139),
   ([some (.cur .ADJECTIVE_FORM_FULL), some (.cur .NUMBER_PLURAL), some (.cur .CASE_PREPOSITIONAL), none, some (.cur .ANIMALITY_ANIMATE), some (.cur .GRADE_SUPERLATIVE)], 140),
   ([some (.cur .ADJECTIVE_FORM_FULL), some (.cur .NUMBER_PLURAL), some (.cur .CASE_PREPOSITIONAL), none, some (.cur .ANIMALITY_INANIMATE), some (.cur .GRADE_POSITIVE)], 141),
   ([some (.cur .ADJECTIVE_FORM_FULL), some (.cur .NUMBER_PLURAL), some (.cur .CASE_PREPOSITIONAL), none, some (.cur .ANIMALITY_INANIMATE), some (.cur .GRADE_COMPARATIVE)], 142),
   ([some (.cur .ADJECTIVE_FORM_FULL), some (.cur .NUMBER_PLURAL), some (.cur .CASE_PREPOSITIONAL), none, some (.cur .ANIMALITY_INANIMATE), some (.cur .GRADE_SUPERLATIVE)], 143),
   ([some (.cur .ADJECTIVE_FORM_SHORT), some (.cur .NUMBER_SINGULAR), none, some (.cur .GENDER_MASCULINE), none, none], 144),
   ([some (.cur .ADJECTIVE_FORM_SHORT), some (.cur .NUMBER_SINGULAR), none, some (.cur .GENDER_NEUTER), none, none], 145),
   ([some (.cur .ADJECTIVE_FORM_SHORT), some (.cur .NUMBER_SINGULAR), none, some (.cur .GENDER_FEMININE), none, none], 146),
   ([some (.cur .ADJECTIVE_FORM_SHORT), some (.cur .NUMBER_PLURAL), none, none, none, none], 147)]

/-- `OLD_CACHES[WORD_TYPE.PRONOUN]` (utg/migrations/m_0006_per_word_type_restrictions.py:196-267). -/
def oldPronoun : Dict OldKey Nat :=
  [([some (.cur .NUMBER_SINGULAR), some (.cur .CASE_NOMINATIVE), some (.cur .PERSON_FIRST), some (.cur .GENDER_MASCULINE)], 0),
   ([some (.cur .NUMBER_SINGULAR), some (.cur .CASE_NOMINATIVE), some (.cur .PERSON_FIRST), some (.cur .GENDER_NEUTER)], 1),
   ([some (.cur .NUMBER_SINGULAR), some (.cur .CASE_NOMINATIVE), some (.cur .PERSON_FIRST), some (.cur .GENDER_FEMININE)], 2),
   ([some (.cur .NUMBER_SINGULAR), some (.cur .CASE_NOMINATIVE), some (.cur .PERSON_SECOND), some (.cur .GENDER_MASCULINE)], 3),
   ([some (.cur .NUMBER_SINGULAR), some (.cur .CASE_NOMINATIVE), some (.cur .PERSON_SECOND), some (.cur .GENDER_NEUTER)], 4),
   ([some (.cur .NUMBER_SINGULAR), some (.cur .CASE_NOMINATIVE), some (.cur .PERSON_SECOND), some (.cur .GENDER_FEMININE)], 5),
   ([some (.cur .NUMBER_SINGULAR), some (.cur .CASE_NOMINATIVE), some (.cur .PERSON_THIRD), some (.cur .GENDER_MASCULINE)], 6),
   ([some (.cur .NUMBER_SINGULAR), some (.cur .CASE_NOMINATIVE), some (.cur .PERSON_THIRD), some (.cur .GENDER_NEUTER)], 7),
   ([some (.cur .NUMBER_SINGULAR), some (.cur .CASE_NOMINATIVE), some (.cur .PERSON_THIRD), some (.cur .GENDER_FEMININE)], 8),
   ([some (.cur .NUMBER_SINGULAR), some (.cur .CASE_GENITIVE), some (.cur .PERSON_FIRST), some (.cur .GENDER_MASCULINE)], 9),
   ([some (.cur .NUMBER_SINGULAR), some (.cur .CASE_GENITIVE), some (.cur .PERSON_FIRST), some (.cur .GENDER_NEUTER)], 10),
   ([some (.cur .NUMBER_SINGULAR), some (.cur .CASE_GENITIVE), some (.cur .PERSON_FIRST), some (.cur .GENDER_FEMININE)], 11),
   ([some (.cur .NUMBER_SINGULAR), some (.cur .CASE_GENITIVE), some (.cur .PERSON_SECOND), some (.cur .GENDER_MASCULINE)], 12),
   ([some (.cur .NUMBER_SINGULAR), some (.cur .CASE_GENITIVE), some (.cur .PERSON_SECOND), some (.cur .GENDER_NEUTER)], 13),
   ([some (.cur .NUMBER_SINGULAR), some (.cur .CASE_GENITIVE), some (.cur .PERSON_SECOND), some (.cur .GENDER_FEMININE)], 14),
   ([some (.cur .NUMBER_SINGULAR), some (.cur .CASE_GENITIVE), some (.cur .PERSON_THIRD), some (.cur .GENDER_MASCULINE)], 15),
   ([some (.cur .NUMBER_SINGULAR), some (.cur .CASE_GENITIVE), some (.cur .PERSON_THIRD), some (.cur .GENDER_NEUTER)], 16),
   ([some (.cur .NUMBER_SINGULAR), some (.cur .CASE_GENITIVE), some (.cur .PERSON_THIRD), some (.cur .GENDER_FEMININE)], 17),
   ([some (.cur .NUMBER_SINGULAR), some (.cur .CASE_DATIVE), some (.cur .PERSON_FIRST), some (.cur .GENDER_MASCULINE)], 18),
   ([some (.cur .NUMBER_SINGULAR), some (.cur .CASE_DATIVE), some (.cur .PERSON_FIRST), some (.cur .GENDER_NEUTER)], 19),
   ([some (.cur .NUMBER_SINGULAR), some (.cur .CASE_DATIVE), some (.cur .PERSON_FIRST), some (.cur .GENDER_FEMININE)], 20),
   ([some (.cur .NUMBER_SINGULAR), some (.cur .CASE_DATIVE), some (.cur .PERSON_SECOND), some (.cur .GENDER_MASCULINE)], 21),
   ([some (.cur .NUMBER_SINGULAR), some (.cur .CASE_DATIVE), some (.cur .PERSON_SECOND), some (.cur .GENDER_NEUTER)], 22),
   ([some (.cur .NUMBER_SINGULAR), some (.cur .CASE_DATIVE), some (.cur .PERSON_SECOND), some (.cur .GENDER_FEMININE)], 23),
   ([some (.cur .NUMBER_SINGULAR), some (.cur .CASE_DATIVE), some (.cur .PERSON_THIRD), some (.cur .GENDER_MASCULINE)], 24),
   ([some (.cur .NUMBER_SINGULAR), some (.cur .CASE_DATIVE), some (.cur .PERSON_THIRD), some (.cur .GENDER_NEUTER)], 25),
   ([some (.cur .NUMBER_SINGULAR), some (.cur .CASE_DATIVE), some (.cur .PERSON_THIRD), some (.cur .GENDER_FEMININE)], 26),
   ([some (.cur .NUMBER_SINGULAR), some (.cur .CASE_ACCUSATIVE), some (.cur .PERSON_FIRST), some (.cur .GENDER_MASCULINE)], 27),
   ([some (.cur .NUMBER_SINGULAR), some (.cur .CASE_ACCUSATIVE), some (.cur .PERSON_FIRST), some (.cur .GENDER_NEUTER)], 28),
   ([some (.cur .NUMBER_SINGULAR), some (.cur .CASE_ACCUSATIVE), some (.cur .PERSON_FIRST), some (.cur .GENDER_FEMININE)], 29),
   ([some (.cur .NUMBER_SINGULAR), some (.cur .CASE_ACCUSATIVE), some (.cur .PERSON_SECOND), some (.cur .GENDER_MASCULINE)], 30),
   ([some (.cur .NUMBER_SINGULAR), some (.cur .CASE_ACCUSATIVE), some (.cur .PERSON_SECOND), some (.cur .GENDER_NEUTER)], 31),
   ([some (.cur .NUMBER_SINGULAR), some (.cur .CASE_ACCUSATIVE), some (.cur .PERSON_SECOND), some (.cur .GENDER_FEMININE)], 32),
   ([some (.cur .NUMBER_SINGULAR), some (.cur .CASE_ACCUSATIVE), some (.cur .PERSON_THIRD), some (.cur .GENDER_MASCULINE)], 33),
   ([some (.cur .NUMBER_SINGULAR), some (.cur .CASE_ACCUSATIVE), some (.cur .PERSON_THIRD), some (.cur .GENDER_NEUTER)], 34),
   ([some (.cur .NUMBER_SINGULAR), some (.cur .CASE_ACCUSATIVE), some (.cur .PERSON_THIRD), some (.cur .GENDER_FEMININE)], 35),
   ([some (.cur .NUMBER_SINGULAR), some (.cur .CASE_INSTRUMENTAL), some (.cur .PERSON_FIRST), some (.cur .GENDER_MASCULINE)], 36),
   ([some (.cur .NUMBER_SINGULAR), some (.cur .CASE_INSTRUMENTAL), some (.cur .PERSON_FIRST), some (.cur .GENDER_NEUTER)], 37),
   ([some (.cur .NUMBER_SINGULAR), some (.cur .CASE_INSTRUMENTAL), some (.cur .PERSON_FIRST), some (.cur .GENDER_FEMININE)], 38),
   ([some (.cur .NUMBER_SINGULAR), some (.cur .CASE_INSTRUMENTAL), some (.cur .PERSON_SECOND), some (.cur .GENDER_MASCULINE)], 39),
   ([some (.cur .NUMBER_SINGULAR), some (.cur .CASE_INSTRUMENTAL), some (.cur .PERSON_SECOND), some (.cur .GENDER_NEUTER)], 40),
   ([some (.cur .NUMBER_SINGULAR), some (.cur .CASE_INSTRUMENTAL), some (.cur .PERSON_SECOND), some (.cur .GENDER_FEMININE)], 41),
   ([some (.cur .NUMBER_SINGULAR), some (.cur .CASE_INSTRUMENTAL), some (.cur .PERSON_THIRD), some (.cur .GENDER_MASCULINE)], 42),
   ([some (.cur .NUMBER_SINGULAR), some (.cur .CASE_INSTRUMENTAL), some (.cur .PERSON_THIRD), some (.cur .GENDER_NEUTER)], 43),
   ([some (.cur .NUMBER_SINGULAR), some (.cur .CASE_INSTRUMENTAL), some (.cur .PERSON_THIRD), some (.cur .GENDER_FEMININE)], 44),
   ([some (.cur .NUMBER_SINGULAR), some (.cur .CASE_PREPOSITIONAL), some (.cur .PERSON_FIRST), some (.cur .GENDER_MASCULINE)], 45),
   ([some (.cur .NUMBER_SINGULAR), some (.cur .CASE_PREPOSITIONAL), some (.cur .PERSON_FIRST), some (.cur .GENDER_NEUTER)], 46),
   ([some (.cur .NUMBER_SINGULAR), some (.cur .CASE_PREPOSITIONAL), some (.cur .PERSON_FIRST), some (.cur .GENDER_FEMININE)], 47),
   ([some (.cur .NUMBER_SINGULAR), some (.cur .CASE_PREPOSITIONAL), some (.cur .PERSON_SECOND), some (.cur .GENDER_MASCULINE)], 48),
   ([some (.cur .NUMBER_SINGULAR), some (.cur .CASE_PREPOSITIONAL), some (.cur .PERSON_SECOND), some (.cur .GENDER_NEUTER)], 49),
   ([some (.cur .NUMBER_SINGULAR), some (.cur .CASE_PREPOSITIONAL), some (.cur .PERSON_SECOND), some (.cur .GENDER_FEMININE)], 50),
   ([some (.cur .NUMBER_SINGULAR), some (.cur .CASE_PREPOSITIONAL), some (.cur .PERSON_THIRD), some (.cur .GENDER_MASCULINE)], 51),
   ([some (.cur .NUMBER_SINGULAR), some (.cur .CASE_PREPOSITIONAL), some (.cur .PERSON_THIRD), some (.cur .GENDER_NEUTER)], 52),
   ([some (.cur .NUMBER_SINGULAR), some (.cur .CASE_PREPOSITIONAL), some (.cur .PERSON_THIRD), some (.cur .GENDER_FEMININE)], 53),
   ([some (.cur .NUMBER_PLURAL), some (.cur .CASE_NOMINATIVE), some (.cur .PERSON_FIRST), none], 54),
   ([some (.cur .NUMBER_PLURAL), some (.cur .CASE_NOMINATIVE), some (.cur .PERSON_SECOND), none], 55),
   ([some (.cur .NUMBER_PLURAL), some (.cur .CASE_NOMINATIVE), some (.cur .PERSON_THIRD), none], 56),
   ([some (.cur .NUMBER_PLURAL), some (.cur .CASE_GENITIVE), some (.cur .PERSON_FIRST), none], 57),
   ([some (.cur .NUMBER_PLURAL), some (.cur .CASE_GENITIVE), some (.cur .PERSON_SECOND), none], 58),
   ([some (.cur .NUMBER_PLURAL), some (.cur .CASE_GENITIVE), some (.cur .PERSON_THIRD), none], 59),
   ([some (.cur .NUMBER_PLURAL), some (.cur .CASE_DATIVE), some (.cur .PERSON_FIRST), none], 60),
   ([some (.cur .NUMBER_PLURAL), some (.cur .CASE_DATIVE), some (.cur .PERSON_SECOND), none], 61),
   ([some (.cur .NUMBER_PLURAL), some (.cur .CASE_DATIVE), some (.cur .PERSON_THIRD), none], 62),
   ([some (.cur .NUMBER_PLURAL), some (.cur .CASE_ACCUSATIVE), some (.cur .PERSON_FIRST), none], 63),
   ([some (.cur .NUMBER_PLURAL), some (.cur .CASE_ACCUSATIVE), some (.cur .PERSON_SECOND), none], 64),
   ([some (.cur .NUMBER_PLURAL), some (.cur .CASE_ACCUSATIVE), some (.cur .PERSON_THIRD), none], 65),
   ([some (.cur .NUMBER_PLURAL), some (.cur .CASE_INSTRUMENTAL), some (.cur .PERSON_FIRST), none], 66),
   ([some (.cur .NUMBER_PLURAL), some (.cur .CASE_INSTRUMENTAL), some (.cur .PERSON_SECOND), none], 67),
   ([some (.cur .NUMBER_PLURAL), some (.cur .CASE_INSTRUMENTAL), some (.cur .PERSON_THIRD), none], 68),
   ([some (.cur .NUMBER_PLURAL), some (.cur .CASE_PREPOSITIONAL), some (.cur .PERSON_FIRST), none], 69),
   ([some (.cur .NUMBER_PLURAL), some (.cur .CASE_PREPOSITIONAL), some (.cur .PERSON_SECOND), none], 70),
   ([some (.cur .NUMBER_PLURAL), some (.cur .CASE_PREPOSITIONAL), some (.cur .PERSON_THIRD), none], 71)]

/-- `OLD_CACHES[WORD_TYPE.VERB]` (utg/migrations/m_0006_per_word_type_restrictions.py:268-294). -/
def oldVerb : Dict OldKey Nat :=
  [([some (.cur .VERB_FORM_INFINITIVE), none, none, none, none], 0),
   ([some (.cur .VERB_FORM_INDICATIVE), some (.cur .TIME_PAST), some (.cur .NUMBER_SINGULAR), none, some (.cur .GENDER_MASCULINE)], 1),
   ([some (.cur .VERB_FORM_INDICATIVE), some (.cur .TIME_PAST), some (.cur .NUMBER_SINGULAR), none, some (.cur .GENDER_NEUTER)], 2),
   ([some (.cur .VERB_FORM_INDICATIVE), some (.cur .TIME_PAST), some (.cur .NUMBER_SINGULAR), none, some (.cur .GENDER_FEMININE)], 3),
   ([some (.cur .VERB_FORM_INDICATIVE), some (.cur .TIME_PAST), some (.cur .NUMBER_PLURAL), none, none], 4),
   ([some (.cur .VERB_FORM_INDICATIVE), some (.cur .TIME_PRESENT), some (.cur .NUMBER_SINGULAR), some (.cur .PERSON_FIRST), none], 5),
   ([some (.cur .VERB_FORM_INDICATIVE), some (.cur .TIME_PRESENT), some (.cur .NUMBER_SINGULAR), some (.cur .PERSON_SECOND), none], 6),
   ([some (.cur .VERB_FORM_INDICATIVE), some (.cur .TIME_PRESENT), some (.cur .NUMBER_SINGULAR), some (.cur .PERSON_THIRD), none], 7),
   ([some (.cur .VERB_FORM_INDICATIVE), some (.cur .TIME_PRESENT), some (.cur .NUMBER_PLURAL), some (.cur .PERSON_FIRST), none], 8),
   ([some (.cur .VERB_FORM_INDICATIVE), some (.cur .TIME_PRESENT), some (.cur .NUMBER_PLURAL), some (.cur .PERSON_SECOND), none], 9),
   ([some (.cur .VERB_FORM_INDICATIVE), some (.cur .TIME_PRESENT), some (.cur .NUMBER_PLURAL), some (.cur .PERSON_THIRD), none], 10),
   ([some (.cur .VERB_FORM_INDICATIVE), some (.cur .TIME_FUTURE), some (.cur .NUMBER_SINGULAR), some (.cur .PERSON_FIRST), none], 11),
   ([some (.cur .VERB_FORM_INDICATIVE), some (.cur .TIME_FUTURE), some (.cur .NUMBER_SINGULAR), some (.cur .PERSON_SECOND), none], 12),
   ([some (.cur .VERB_FORM_INDICATIVE), some (.cur .TIME_FUTURE), some (.cur .NUMBER_SINGULAR), some (.cur .PERSON_THIRD), none], 13),
   ([some (.cur .VERB_FORM_INDICATIVE), some (.cur .TIME_FUTURE), some (.cur .NUMBER_PLURAL), some (.cur .PERSON_FIRST), none], 14),
   ([some (.cur .VERB_FORM_INDICATIVE), some (.cur .TIME_FUTURE), some (.cur .NUMBER_PLURAL), some (.cur .PERSON_SECOND), none], 15),
   ([some (.cur .VERB_FORM_INDICATIVE), some (.cur .TIME_FUTURE), some (.cur .NUMBER_PLURAL), some (.cur .PERSON_THIRD), none], 16),
   ([some .VERB_FORM_CONDITIONAL, none, some (.cur .NUMBER_SINGULAR), none, some (.cur .GENDER_MASCULINE)], 17),
   ([some .VERB_FORM_CONDITIONAL, none, some (.cur .NUMBER_SINGULAR), none, some (.cur .GENDER_NEUTER)], 18),
   ([some .VERB_FORM_CONDITIONAL, none, some (.cur .NUMBER_SINGULAR), none, some (.cur .GENDER_FEMININE)], 19),
   ([some .VERB_FORM_CONDITIONAL, none, some (.cur .NUMBER_PLURAL), none, none], 20),
   ([some (.cur .VERB_FORM_IMPERATIVE), none, some (.cur .NUMBER_SINGULAR), some (.cur .PERSON_FIRST), none], 21),
   ([some (.cur .VERB_FORM_IMPERATIVE), none, some (.cur .NUMBER_SINGULAR), some (.cur .PERSON_SECOND), none], 22),
   ([some (.cur .VERB_FORM_IMPERATIVE), none, some (.cur .NUMBER_SINGULAR), some (.cur .PERSON_THIRD), none], 23),
   ([some (.cur .VERB_FORM_IMPERATIVE), none, some (.cur .NUMBER_PLURAL), some (.cur .PERSON_FIRST), none], 24),
   ([some (.cur .VERB_FORM_IMPERATIVE), none, some (.cur .NUMBER_PLURAL), some (.cur .PERSON_SECOND), none], 25),
   ([some (.cur .VERB_FORM_IMPERATIVE), none, some (.cur .NUMBER_PLURAL), some (.cur .PERSON_THIRD), none], 26)]

/-- `OLD_CACHES[WORD_TYPE.PARTICIPLE]` (utg/migrations/m_0006_per_word_type_restrictions.py:295-490). -/
def oldParticiple : Dict OldKey Nat :=
  [([some (.cur .PARTICIPLE_FORM_FULL), some (.cur .TIME_PAST), some (.cur .VOICE_DIRECT), some (.cur .NUMBER_SINGULAR), some (.cur .CASE_NOMINATIVE), some (.cur .GENDER_MASCULINE), some (.cur .ANIMALITY_ANIMATE)], 0),
   ([some (.cur .PARTICIPLE_FORM_FULL), some (.cur .TIME_PAST), some (.cur .VOICE_DIRECT), some (.cur .NUMBER_SINGULAR), some (.cur .CASE_NOMINATIVE), some (.cur .GENDER_MASCULINE), some (.cur .ANIMALITY_INANIMATE)], 1),
   ([some (.cur .PARTICIPLE_FORM_FULL), some (.cur .TIME_PAST), some (.cur .VOICE_DIRECT), some (.cur .NUMBER_SINGULAR), some (.cur .CASE_NOMINATIVE), some (.cur .GENDER_NEUTER), some (.cur .ANIMALITY_ANIMATE)], 2),
   ([some (.cur .PARTICIPLE_FORM_FULL), some (.cur .TIME_PAST), some (.cur .VOICE_DIRECT), some (.cur .NUMBER_SINGULAR), some (.cur .CASE_NOMINATIVE), some (.cur .GENDER_NEUTER), some (.cur .ANIMALITY_INANIMATE)], 3),
   ([some (.cur .PARTICIPLE_FORM_FULL), some (.cur .TIME_PAST), some (.cur .VOICE_DIRECT), some (.cur .NUMBER_SINGULAR), some (.cur .CASE_NOMINATIVE), some (.cur .GENDER_FEMININE), some (.cur .ANIMALITY_ANIMATE)], 4),
   ([some (.cur .PARTICIPLE_FORM_FULL), some (.cur .TIME_PAST), some (.cur .VOICE_DIRECT), some (.cur .NUMBER_SINGULAR), some (.cur .CASE_NOMINATIVE), some (.cur .GENDER_FEMININE), some (.cur .ANIMALITY_INANIMATE)], 5),
   ([some (.cur .PARTICIPLE_FORM_FULL), some (.cur .TIME_PAST), some (.cur .VOICE_DIRECT), some (.cur .NUMBER_SINGULAR), some (.cur .CASE_GENITIVE), some (.cur .GENDER_MASCULINE), some (.cur .ANIMALITY_ANIMATE)], 6),
   ([some (.cur .PARTICIPLE_FORM_FULL), some (.cur .TIME_PAST), some (.cur .VOICE_DIRECT), some (.cur .NUMBER_SINGULAR), some (.cur .CASE_GENITIVE), some (.cur .GENDER_MASCULINE), some (.cur .ANIMALITY_INANIMATE)], 7),
   ([some (.cur .PARTICIPLE_FORM_FULL), some (.cur .TIME_PAST), some (.cur .VOICE_DIRECT), some (.cur .NUMBER_SINGULAR), some (.cur .CASE_GENITIVE), some (.cur .GENDER_NEUTER), some (.cur .ANIMALITY_ANIMATE)], 8),
   ([some (.cur .PARTICIPLE_FORM_FULL), some (.cur .TIME_PAST), some (.cur .VOICE_DIRECT), some (.cur .NUMBER_SINGULAR), some (.cur .CASE_GENITIVE), some (.cur .GENDER_NEUTER), some (.cur .ANIMALITY_INANIMATE)], 9),
   ([some (.cur .PARTICIPLE_FORM_FULL), some (.cur .TIME_PAST), some (.cur .VOICE_DIRECT), some (.cur .NUMBER_SINGULAR), some (.cur .CASE_GENITIVE), some (.cur .GENDER_FEMININE), some (.cur .ANIMALITY_ANIMATE)], 10),
   ([some (.cur .PARTICIPLE_FORM_FULL), some (.cur .TIME_PAST), some (.cur .VOICE_DIRECT), some (.cur .NUMBER_SINGULAR), some (.cur .CASE_GENITIVE), some (.cur .GENDER_FEMININE), some (.cur .ANIMALITY_INANIMATE)], 11),
   ([some (.cur .PARTICIPLE_FORM_FULL), some (.cur .TIME_PAST), some (.cur .VOICE_DIRECT), some (.cur .NUMBER_SINGULAR), some (.cur .CASE_DATIVE), some (.cur .GENDER_MASCULINE), some (.cur .ANIMALITY_ANIMATE)], 12),
   ([some (.cur .PARTICIPLE_FORM_FULL), some (.cur .TIME_PAST), some (.cur .VOICE_DIRECT), some (.cur .NUMBER_SINGULAR), some (.cur .CASE_DATIVE), some (.cur .GENDER_MASCULINE), some (.cur .ANIMALITY_INANIMATE)], 13),
   ([some (.cur .PARTICIPLE_FORM_FULL), some (.cur .TIME_PAST), some (.cur .VOICE_DIRECT), some (.cur .NUMBER_SINGULAR), some (.cur .CASE_DATIVE), some (.cur .GENDER_NEUTER), some (.cur .ANIMALITY_ANIMATE)], 14),
   ([some (.cur .PARTICIPLE_FORM_FULL), some (.cur .TIME_PAST), some (.cur .VOICE_DIRECT), some (.cur .NUMBER_SINGULAR), some (.cur .CASE_DATIVE), some (.cur .GENDER_NEUTER), some (.cur .ANIMALITY_INANIMATE)], 15),
   ([some (.cur .PARTICIPLE_FORM_FULL), some (.cur .TIME_PAST), some (.cur .VOICE_DIRECT), some (.cur .NUMBER_SINGULAR), some (.cur .CASE_DATIVE), some (.cur .GENDER_FEMININE), some (.cur .ANIMALITY_ANIMATE)], 16),
   ([some (.cur .PARTICIPLE_FORM_FULL), some (.cur .TIME_PAST), some (.cur .VOICE_DIRECT), some (.cur .NUMBER_SINGULAR), some (.cur .CASE_DATIVE), some (.cur .GENDER_FEMININE), some (.cur .ANIMALITY_INANIMATE)], 17),
   ([some (.cur .PARTICIPLE_FORM_FULL), some (.cur .TIME_PAST), some (.cur .VOICE_DIRECT), some (.cur .NUMBER_SINGULAR), some (.cur .CASE_ACCUSATIVE), some (.cur .GENDER_MASCULINE), some (.cur .ANIMALITY_ANIMATE)], 18),
   ([some (.cur .PARTICIPLE_FORM_FULL), some (.cur .TIME_PAST), some (.cur .VOICE_DIRECT), some (.cur .NUMBER_SINGULAR), some (.cur .CASE_ACCUSATIVE), some (.cur .GENDER_MASCULINE), some (.cur .ANIMALITY_INANIMATE)], 19),
   ([some (.cur .PARTICIPLE_FORM_FULL), some (.cur .TIME_PAST), some (.cur .VOICE_DIRECT), some (.cur .NUMBER_SINGULAR), some (.cur .CASE_ACCUSATIVE), some (.cur .GENDER_NEUTER), some (.cur .ANIMALITY_ANIMATE)], 20),
   ([some (.cur .PARTICIPLE_FORM_FULL), some (.cur .TIME_PAST), some (.cur .VOICE_DIRECT), some (.cur .NUMBER_SINGULAR), some (.cur .CASE_ACCUSATIVE), some (.cur .GENDER_NEUTER), some (.cur .ANIMALITY_INANIMATE)], 21),
   ([some (.cur .PARTICIPLE_FORM_FULL), some (.cur .TIME_PAST), some (.cur .VOICE_DIRECT), some (.cur .NUMBER_SINGULAR), some (.cur .CASE_ACCUSATIVE), some (.cur .GENDER_FEMININE), some (.cur .ANIMALITY_ANIMATE)], 22),
   ([some (.cur .PARTICIPLE_FORM_FULL), some (.cur .TIME_PAST), some (.cur .VOICE_DIRECT), some (.cur .NUMBER_SINGULAR), some (.cur .CASE_ACCUSATIVE), some (.cur .GENDER_FEMININE), some (.cur .ANIMALITY_INANIMATE)], 23),
   ([some (.cur .PARTICIPLE_FORM_FULL), some (.cur .TIME_PAST), some (.cur .VOICE_DIRECT), some (.cur .NUMBER_SINGULAR), some (.cur .CASE_INSTRUMENTAL), some (.cur .GENDER_MASCULINE), some (.cur .ANIMALITY_ANIMATE)], 24),
   ([some (.cur .PARTICIPLE_FORM_FULL), some (.cur .TIME_PAST), some (.cur .VOICE_DIRECT), some (.cur .NUMBER_SINGULAR), some (.cur .CASE_INSTRUMENTAL), some (.cur .GENDER_MASCULINE), some (.cur .ANIMALITY_INANIMATE)], 25),
   ([some (.cur .PARTICIPLE_FORM_FULL), some (.cur .TIME_PAST), some (.cur .VOICE_DIRECT), some (.cur .NUMBER_SINGULAR), some (.cur .CASE_INSTRUMENTAL), some (.cur .GENDER_NEUTER), some (.cur .ANIMALITY_ANIMATE)], 26),
   ([some (.cur .PARTICIPLE_FORM_FULL), some (.cur .TIME_PAST), some (.cur .VOICE_DIRECT), some (.cur .NUMBER_SINGULAR), some (.cur .CASE_INSTRUMENTAL), some (.cur .GENDER_NEUTER), some (.cur .ANIMALITY_INANIMATE)], 27),
   ([some (.cur .PARTICIPLE_FORM_FULL), some (.cur .TIME_PAST), some (.cur .VOICE_DIRECT), some (.cur .NUMBER_SINGULAR), some (.cur .CASE_INSTRUMENTAL), some (.cur .GENDER_FEMININE), some (.cur .ANIMALITY_ANIMATE)], 28),
   ([some (.cur .PARTICIPLE_FORM_FULL), some (.cur .TIME_PAST), some (.cur .VOICE_DIRECT), some (.cur .NUMBER_SINGULAR), some (.cur .CASE_INSTRUMENTAL), some (.cur .GENDER_FEMININE), some (.cur .ANIMALITY_INANIMATE)], 29),
   ([some (.cur .PARTICIPLE_FORM_FULL), some (.cur .TIME_PAST), some (.cur .VOICE_DIRECT), some (.cur .NUMBER_SINGULAR), some (.cur .CASE_PREPOSITIONAL), some (.cur .GENDER_MASCULINE), some (.cur .ANIMALITY_ANIMATE)], 30),
   ([some (.cur .PARTICIPLE_FORM_FULL), some (.cur .TIME_PAST), some (.cur .VOICE_DIRECT), some (.cur .NUMBER_SINGULAR), some (.cur .CASE_PREPOSITIONAL), some (.cur .GENDER_MASCULINE), some (.cur .ANIMALITY_INANIMATE)], 31),
   ([some (.cur .PARTICIPLE_FORM_FULL), some (.cur .TIME_PAST), some (.cur .VOICE_DIRECT), some (.cur .NUMBER_SINGULAR), some (.cur .CASE_PREPOSITIONAL), some (.cur .GENDER_NEUTER), some (.cur .ANIMALITY_ANIMATE)], 32),
   ([some (.cur .PARTICIPLE_FORM_FULL), some (.cur .TIME_PAST), some (.cur .VOICE_DIRECT), some (.cur .NUMBER_SINGULAR), some (.cur .CASE_PREPOSITIONAL), some (.cur .GENDER_NEUTER), some (.cur .ANIMALITY_INANIMATE)], 33),
   ([some (.cur .PARTICIPLE_FORM_FULL), some (.cur .TIME_PAST), some (.cur .VOICE_DIRECT), some (.cur .NUMBER_SINGULAR), some (.cur .CASE_PREPOSITIONAL), some (.cur .GENDER_FEMININE), some (.cur .ANIMALITY_ANIMATE)], 34),
   ([some (.cur .PARTICIPLE_FORM_FULL), some (.cur .TIME_PAST), some (.cur .VOICE_DIRECT), some (.cur .NUMBER_SINGULAR), some (.cur .CASE_PREPOSITIONAL), some (.cur .GENDER_FEMININE), some (.cur .ANIMALITY_INANIMATE)], 35),
   ([some (.cur .PARTICIPLE_FORM_FULL), some (.cur .TIME_PAST), some (.cur .VOICE_DIRECT), some (.cur .NUMBER_PLURAL), some (.cur .CASE_NOMINATIVE), none, some (.cur .ANIMALITY_ANIMATE)], 36),
   ([some (.cur .PARTICIPLE_FORM_FULL), some (.cur .TIME_PAST), some (.cur .VOICE_DIRECT), some (.cur .NUMBER_PLURAL), some (.cur .CASE_NOMINATIVE), none, some (.cur .ANIMALITY_INANIMATE)], 37),
   ([some (.cur .PARTICIPLE_FORM_FULL), some (.cur .TIME_PAST), some (.cur .VOICE_DIRECT), some (.cur .NUMBER_PLURAL), some (.cur .CASE_GENITIVE), none, some (.cur .ANIMALITY_ANIMATE)], 38),
   ([some (.cur .PARTICIPLE_FORM_FULL), some (.cur .TIME_PAST), some (.cur .VOICE_DIRECT), some (.cur .NUMBER_PLURAL), some (.cur .CASE_GENITIVE), none, some (.cur .ANIMALITY_INANIMATE)], 39),
   ([some (.cur .PARTICIPLE_FORM_FULL), some (.cur .TIME_PAST), some (.cur .VOICE_DIRECT), some (.cur .NUMBER_PLURAL), some (.cur .CASE_DATIVE), none, some (.cur .ANIMALITY_ANIMATE)], 40),
   ([some (.cur .PARTICIPLE_FORM_FULL), some (.cur .TIME_PAST), some (.cur .VOICE_DIRECT), some (.cur .NUMBER_PLURAL), some (.cur .CASE_DATIVE), none, some (.cur .ANIMALITY_INANIMATE)], 41),
   ([some (.cur .PARTICIPLE_FORM_FULL), some (.cur .TIME_PAST), some (.cur .VOICE_DIRECT), some (.cur .NUMBER_PLURAL), some (.cur .CASE_ACCUSATIVE), none, some (.cur .ANIMALITY_ANIMATE)], 42),
   ([some (.cur .PARTICIPLE_FORM_FULL), some (.cur .TIME_PAST), some (.cur .VOICE_DIRECT), some (.cur .NUMBER_PLURAL), some (.cur .CASE_ACCUSATIVE), none, some (.cur .ANIMALITY_INANIMATE)], 43),
   ([some (.cur .PARTICIPLE_FORM_FULL), some (.cur .TIME_PAST), some (.cur .VOICE_DIRECT), some (.cur .NUMBER_PLURAL), some (.cur .CASE_INSTRUMENTAL), none, some (.cur .ANIMALITY_ANIMATE)], 44),
   ([some (.cur .PARTICIPLE_FORM_FULL), some (.cur .TIME_PAST), some (.cur .VOICE_DIRECT), some (.cur .NUMBER_PLURAL), some (.cur .CASE_INSTRUMENTAL), none, some (.cur .ANIMALITY_INANIMATE)], 45),
   ([some (.cur .PARTICIPLE_FORM_FULL), some (.cur .TIME_PAST), some (.cur .VOICE_DIRECT), some (.cur .NUMBER_PLURAL), some (.cur .CASE_PREPOSITIONAL), none, some (.cur .ANIMALITY_ANIMATE)], 46),
   ([some (.cur .PARTICIPLE_FORM_FULL), some (.cur .TIME_PAST), some (.cur .VOICE_DIRECT), some (.cur .NUMBER_PLURAL), some (.cur .CASE_PREPOSITIONAL), none, some (.cur .ANIMALITY_INANIMATE)], 47),
   ([some (.cur .PARTICIPLE_FORM_FULL), some (.cur .TIME_PAST), some (.cur .VOICE_REVERSE), some (.cur .NUMBER_SINGULAR), some (.cur .CASE_NOMINATIVE), some (.cur .GENDER_MASCULINE), some (.cur .ANIMALITY_ANIMATE)], 48),
   ([some (.cur .PARTICIPLE_FORM_FULL), some (.cur .TIME_PAST), some (.cur .VOICE_REVERSE), some (.cur .NUMBER_SINGULAR), some (.cur .CASE_NOMINATIVE), some (.cur .GENDER_MASCULINE), some (.cur .ANIMALITY_INANIMATE)], 49),
   ([some (.cur .PARTICIPLE_FORM_FULL), some (.cur .TIME_PAST), some (.cur .VOICE_REVERSE), some (.cur .NUMBER_SINGULAR), some (.cur .CASE_NOMINATIVE), some (.cur .GENDER_NEUTER), some (.cur .ANIMALITY_ANIMATE)], 50),
   ([some (.cur .PARTICIPLE_FORM_FULL), some (.cur .TIME_PAST), some (.cur .VOICE_REVERSE), some (.cur .NUMBER_SINGULAR), some (.cur .CASE_NOMINATIVE), some (.cur .GENDER_NEUTER), some (.cur .ANIMALITY_INANIMATE)], 51),
   ([some (.cur .PARTICIPLE_FORM_FULL), some (.cur .TIME_PAST), some (.cur .VOICE_REVERSE), some (.cur .NUMBER_SINGULAR), some (.cur .CASE_NOMINATIVE), some (.cur .GENDER_FEMININE), some (.cur .ANIMALITY_ANIMATE)], 52),
   ([some (.cur .PARTICIPLE_FORM_FULL), some (.cur .TIME_PAST), some (.cur .VOICE_REVERSE), some (.cur .NUMBER_SINGULAR), some (.cur .CASE_NOMINATIVE), some (.cur .GENDER_FEMININE), some (.cur .ANIMALITY_INANIMATE)], 53),
   ([some (.cur .PARTICIPLE_FORM_FULL), some (.cur .TIME_PAST), some (.cur .VOICE_REVERSE), some (.cur .NUMBER_SINGULAR), some (.cur .CASE_GENITIVE), some (.cur .GENDER_MASCULINE), some (.cur .ANIMALITY_ANIMATE)], 54),
   ([some (.cur .PARTICIPLE_FORM_FULL), some (.cur .TIME_PAST), some (.cur .VOICE_REVERSE), some (.cur .NUMBER_SINGULAR), some (.cur .CASE_GENITIVE), some (.cur .GENDER_MASCULINE), some (.cur .ANIMALITY_INANIMATE)], 55),
   ([some (.cur .PARTICIPLE_FORM_FULL), some (.cur .TIME_PAST), some (.cur .VOICE_REVERSE), some (.cur .NUMBER_SINGULAR), some (.cur .CASE_GENITIVE), some (.cur .GENDER_NEUTER), some (.cur .ANIMALITY_ANIMATE)], 56),
   ([some (.cur .PARTICIPLE_FORM_FULL), some (.cur .TIME_PAST), some (.cur .VOICE_REVERSE), some (.cur .NUMBER_SINGULAR), some (.cur .CASE_GENITIVE), some (.cur .GENDER_NEUTER), some (.cur .ANIMALITY_INANIMATE)], 57),
   ([some (.cur .PARTICIPLE_FORM_FULL), some (.cur .TIME_PAST), some (.cur .VOICE_REVERSE), some (.cur .NUMBER_SINGULAR), some (.cur .CASE_GENITIVE), some (.cur .GENDER_FEMININE), some (.cur .ANIMALITY_ANIMATE)], 58),
   ([some (.cur .PARTICIPLE_FORM_FULL), some (.cur .TIME_PAST), some (.cur .VOICE_REVERSE), some (.cur .NUMBER_SINGULAR), some (.cur .CASE_GENITIVE), some (.cur .GENDER_FEMININE), some (.cur .ANIMALITY_INANIMATE)], 59),
   ([some (.cur .PARTICIPLE_FORM_FULL), some (.cur .TIME_PAST), some (.cur .VOICE_REVERSE), some (.cur .NUMBER_SINGULAR), some (.cur .CASE_DATIVE), some (.cur .GENDER_MASCULINE), some (.cur .ANIMALITY_ANIMATE)], 60),
   ([some (.cur .PARTICIPLE_FORM_FULL), some (.cur .TIME_PAST), some (.cur .VOICE_REVERSE), some (.cur .NUMBER_SINGULAR), some (.cur .CASE_DATIVE), some (.cur .GENDER_MASCULINE), some (.cur .ANIMALITY_INANIMATE)], 61),
   ([some (.cur .PARTICIPLE_FORM_FULL), some (.cur .TIME_PAST), some (.cur .VOICE_REVERSE), some (.cur .NUMBER_SINGULAR), some (.cur .CASE_DATIVE), some (.cur .GENDER_NEUTER), some (.cur .ANIMALITY_ANIMATE)], 62),
   ([some (.cur .PARTICIPLE_FORM_FULL), some (.cur .TIME_PAST), some (.cur .VOICE_REVERSE), some (.cur .NUMBER_SINGULAR), some (.cur .CASE_DATIVE), some (.cur .GENDER_NEUTER), some (.cur .ANIMALITY_INANIMATE)], 63),
   ([some (.cur .PARTICIPLE_FORM_FULL), some (.cur .TIME_PAST), some (.cur .VOICE_REVERSE), some (.cur .NUMBER_SINGULAR), some (.cur .CASE_DATIVE), some (.cur .GENDER_FEMININE), some (.cur .ANIMALITY_ANIMATE)], 64),
   ([some (.cur .PARTICIPLE_FORM_FULL), some (.cur .TIME_PAST), some (.cur .VOICE_REVERSE), some (.cur .NUMBER_SINGULAR), some (.cur .CASE_DATIVE), some (.cur .GENDER_FEMININE), some (.cur .ANIMALITY_INANIMATE)], 65),
   ([some (.cur .PARTICIPLE_FORM_FULL), some (.cur .TIME_PAST), some (.cur .VOICE_REVERSE), some (.cur .NUMBER_SINGULAR), some (.cur .CASE_ACCUSATIVE), some (.cur .GENDER_MASCULINE), some (.cur .ANIMALITY_ANIMATE)], 66),
   ([some (.cur .PARTICIPLE_FORM_FULL), some (.cur .TIME_PAST), some (.cur .VOICE_REVERSE), some (.cur .NUMBER_SINGULAR), some (.cur .CASE_ACCUSATIVE), some (.cur .GENDER_MASCULINE), some (.cur .ANIMALITY_INANIMATE)], 67),
   ([some (.cur .PARTICIPLE_FORM_FULL), some (.cur .TIME_PAST), some (.cur .VOICE_REVERSE), some (.cur .NUMBER_SINGULAR), some (.cur .CASE_ACCUSATIVE), some (.cur .GENDER_NEUTER), some (.cur .ANIMALITY_ANIMATE)], 68),
   ([some (.cur .PARTICIPLE_FORM_FULL), some (.cur .TIME_PAST), some (.cur .VOICE_REVERSE), some (.cur .NUMBER_SINGULAR), some (.cur .CASE_ACCUSATIVE), some (.cur .GENDER_NEUTER), some (.cur .ANIMALITY_INANIMATE)], 69),
   ([some (.cur .PARTICIPLE_FORM_FULL), some (.cur .TIME_PAST), some (.cur .VOICE_REVERSE), some (.cur .NUMBER_SINGULAR), some (.cur .CASE_ACCUSATIVE), some (.cur .GENDER_FEMININE), some (.cur .ANIMALITY_ANIMATE)], 70),
   ([some (.cur .PARTICIPLE_FORM_FULL), some (.cur .TIME_PAST), some (.cur .VOICE_REVERSE), some (.cur .NUMBER_SINGULAR), some (.cur .CASE_ACCUSATIVE), some (.cur .GENDER_FEMININE), some (.cur .ANIMALITY_INANIMATE)], 71),
   ([some (.cur .PARTICIPLE_FORM_FULL), some (.cur .TIME_PAST), some (.cur .VOICE_REVERSE), some (.cur .NUMBER_SINGULAR), some (.cur .CASE_INSTRUMENTAL), some (.cur .GENDER_MASCULINE), some (.cur .ANIMALITY_ANIMATE)], 72),
   ([some (.cur .PARTICIPLE_FORM_FULL), some (.cur .TIME_PAST), some (.cur .VOICE_REVERSE), some (.cur .NUMBER_SINGULAR), some (.cur .CASE_INSTRUMENTAL), some (.cur .GENDER_MASCULINE), some (.cur .ANIMALITY_INANIMATE)], 73),
   ([some (.cur .PARTICIPLE_FORM_FULL), some (.cur .TIME_PAST), some (.cur .VOICE_REVERSE), some (.cur .NUMBER_SINGULAR), some (.cur .CASE_INSTRUMENTAL), some (.cur .GENDER_NEUTER), some (.cur .ANIMALITY_ANIMATE)], 74),
   ([some (.cur .PARTICIPLE_FORM_FULL), some (.cur .TIME_PAST), some (.cur .VOICE_REVERSE), some (.cur .NUMBER_SINGULAR), some (.cur .CASE_INSTRUMENTAL), some (.cur .GENDER_NEUTER), some (.cur .ANIMALITY_INANIMATE)], 75),
   ([some (.cur .PARTICIPLE_FORM_FULL), some (.cur .TIME_PAST), some (.cur .VOICE_REVERSE), some (.cur .NUMBER_SINGULAR), some (.cur .CASE_INSTRUMENTAL), some (.cur .GENDER_FEMININE), some (.cur .ANIMALITY_ANIMATE)], 76),
   ([some (.cur .PARTICIPLE_FORM_FULL), some (.cur .TIME_PAST), some (.cur .VOICE_REVERSE), some (.cur .NUMBER_SINGULAR), some (.cur .CASE_INSTRUMENTAL), some (.cur .GENDER_FEMININE), some (.cur .ANIMALITY_INANIMATE)], 77),
   ([some (.cur .PARTICIPLE_FORM_FULL), some (.cur .TIME_PAST), some (.cur .VOICE_REVERSE), some (.cur .NUMBER_SINGULAR), some (.cur .CASE_PREPOSITIONAL), some (.cur .GENDER_MASCULINE), some (.cur .ANIMALITY_ANIMATE)], 78),
   ([some (.cur .PARTICIPLE_FORM_FULL), some (.cur .TIME_PAST), some (.cur .VOICE_REVERSE), some (.cur .NUMBER_SINGULAR), some (.cur .CASE_PREPOSITIONAL), some (.cur .GENDER_MASCULINE), some (.cur .ANIMALITY_INANIMATE)], 79),
   ([some (.cur .PARTICIPLE_FORM_FULL), some (.cur .TIME_PAST), some (.cur .VOICE_REVERSE), some (.cur .NUMBER_SINGULAR), some (.cur .CASE_PREPOSITIONAL), some (.cur .GENDER_NEUTER), some (.cur .ANIMALITY_ANIMATE)], 80),
   ([some (.cur .PARTICIPLE_FORM_FULL), some (.cur .TIME_PAST), some (.cur .VOICE_REVERSE), some (.cur .NUMBER_SINGULAR), some (.cur .CASE_PREPOSITIONAL), some (.cur .GENDER_NEUTER), some (.cur .ANIMALITY_INANIMATE)], 81),
   ([some (.cur .PARTICIPLE_FORM_FULL), some (.cur .TIME_PAST), some (.cur .VOICE_REVERSE), some (.cur .NUMBER_SINGULAR), some (.cur .CASE_PREPOSITIONAL), some (.cur .GENDER_FEMININE), some (.cur .ANIMALITY_ANIMATE)], 82),
   ([some (.cur .PARTICIPLE_FORM_FULL), some (.cur .TIME_PAST), some (.cur .VOICE_REVERSE), some (.cur .NUMBER_SINGULAR), some (.cur .CASE_PREPOSITIONAL), some (.cur .GENDER_FEMININE), some (.cur .ANIMALITY_INANIMATE)], 83),
   ([some (.cur .PARTICIPLE_FORM_FULL), some (.cur .TIME_PAST), some (.cur .VOICE_REVERSE), some (.cur .NUMBER_PLURAL), some (.cur .CASE_NOMINATIVE), none, some (.cur .ANIMALITY_ANIMATE)], 84),
   ([some (.cur .PARTICIPLE_FORM_FULL), some (.cur .TIME_PAST), some (.cur .VOICE_REVERSE), some (.cur .NUMBER_PLURAL), some (.cur .CASE_NOMINATIVE), none, some (.cur .ANIMALITY_INANIMATE)], 85),
   ([some (.cur .PARTICIPLE_FORM_FULL), some (.cur .TIME_PAST), some (.cur .VOICE_REVERSE), some (.cur .NUMBER_PLURAL), some (.cur .CASE_GENITIVE), none, some (.cur .ANIMALITY_ANIMATE)], 86),
   ([some (.cur .PARTICIPLE_FORM_FULL), some (.cur .TIME_PAST), some (.cur .VOICE_REVERSE), some (.cur .NUMBER_PLURAL), some (.cur .CASE_GENITIVE), none, some (.cur .ANIMALITY_INANIMATE)], 87),
   ([some (.cur .PARTICIPLE_FORM_FULL), some (.cur .TIME_PAST), some (.cur .VOICE_REVERSE), some (.cur .NUMBER_PLURAL), some (.cur .CASE_DATIVE), none, some (.cur .ANIMALITY_ANIMATE)], 88),
   ([some (.cur .PARTICIPLE_FORM_FULL), some (.cur .TIME_PAST), some (.cur .VOICE_REVERSE), some (.cur .NUMBER_PLURAL), some (.cur .CASE_DATIVE), none, some (.cur .ANIMALITY_INANIMATE)], 89),
   ([some (.cur .PARTICIPLE_FORM_FULL), some (.cur .TIME_PAST), some (.cur .VOICE_REVERSE), some (.cur .NUMBER_PLURAL), some (.cur .CASE_ACCUSATIVE), none, some (.cur .ANIMALITY_ANIMATE)], 90),
   ([some (.cur .PARTICIPLE_FORM_FULL), some (.cur .TIME_PAST), some (.cur .VOICE_REVERSE), some (.cur .NUMBER_PLURAL), some (.cur .CASE_ACCUSATIVE), none, some (.cur .ANIMALITY_INANIMATE)], 91),
   ([some (.cur .PARTICIPLE_FORM_FULL), some (.cur .TIME_PAST), some (.cur .VOICE_REVERSE), some (.cur .NUMBER_PLURAL), some (.cur .CASE_INSTRUMENTAL), none, some (.cur .ANIMALITY_ANIMATE)], 92),
   ([some (.cur .PARTICIPLE_FORM_FULL), some (.cur .TIME_PAST), some (.cur .VOICE_REVERSE), some (.cur .NUMBER_PLURAL), some (.cur .CASE_INSTRUMENTAL), none, some (.cur .ANIMALITY_INANIMATE)], 93),
   ([some (.cur .PARTICIPLE_FORM_FULL), some (.cur .TIME_PAST), some (.cur .VOICE_REVERSE), some (.cur .NUMBER_PLURAL), some (.cur .CASE_PREPOSITIONAL), none, some (.cur .ANIMALITY_ANIMATE)], 94),
   ([some (.cur .PARTICIPLE_FORM_FULL), some (.cur .TIME_PAST), some (.cur .VOICE_REVERSE), some (.cur .NUMBER_PLURAL), some (.cur .CASE_PREPOSITIONAL), none, some (.cur .ANIMALITY_INANIMATE)], 95),
   ([some (.cur .PARTICIPLE_FORM_FULL), some (.cur .TIME_PRESENT), some (.cur .VOICE_DIRECT), some (.cur .NUMBER_SINGULAR), some (.cur .CASE_NOMINATIVE), none, some (.cur .ANIMALITY_ANIMATE)], 96),
   ([some (.cur .PARTICIPLE_FORM_FULL), some (.cur .TIME_PRESENT), some (.cur .VOICE_DIRECT), some (.cur .NUMBER_SINGULAR), some (.cur .CASE_NOMINATIVE), none, some (.cur .ANIMALITY_INANIMATE)], 97),
   ([some (.cur .PARTICIPLE_FORM_FULL), some (.cur .TIME_PRESENT), some (.cur .VOICE_DIRECT), some (.cur .NUMBER_SINGULAR), some (.cur .CASE_GENITIVE), none, some (.cur .ANIMALITY_ANIMATE)], 98),
   ([some (.cur .PARTICIPLE_FORM_FULL), some (.cur .TIME_PRESENT), some (.cur .VOICE_DIRECT), some (.cur .NUMBER_SINGULAR), some (.cur .CASE_GENITIVE), none, some (.cur .ANIMALITY_INANIMATE)], 99),
   ([some (.cur .PARTICIPLE_FORM_FULL), some (.cur .TIME_PRESENT), some (.cur .VOICE_DIRECT), some (.cur .NUMBER_SINGULAR), some (.cur .CASE_DATIVE), none, some (.cur .ANIMALITY_ANIMATE)], 100),
   ([some (.cur .PARTICIPLE_FORM_FULL), some (.cur .TIME_PRESENT), some (.cur .VOICE_DIRECT), some (.cur .NUMBER_SINGULAR), some (.cur .CASE_DATIVE), none, some (.cur .ANIMALITY_INANIMATE)], 101),
   ([some (.cur .PARTICIPLE_FORM_FULL), some (.cur .TIME_PRESENT), some (.cur .VOICE_DIRECT), some (.cur .NUMBER_SINGULAR), some (.cur .CASE_ACCUSATIVE), none, some (.cur .ANIMALITY_ANIMATE)], 102),
   ([some (.cur .PARTICIPLE_FORM_FULL), some (.cur .TIME_PRESENT), some (.cur .VOICE_DIRECT), some (.cur .NUMBER_SINGULAR), some (.cur .CASE_ACCUSATIVE), none, some (.cur .ANIMALITY_INANIMATE)], 103),
   ([some (.cur .PARTICIPLE_FORM_FULL), some (.cur .TIME_PRESENT), some (.cur .VOICE_DIRECT), some (.cur .NUMBER_SINGULAR), some (.cur .CASE_INSTRUMENTAL), none, some (.cur .ANIMALITY_ANIMATE)], 104),
   ([some (.cur .PARTICIPLE_FORM_FULL), some (.cur .TIME_PRESENT), some (.cur .VOICE_DIRECT), some (.cur .NUMBER_SINGULAR), some (.cur .CASE_INSTRUMENTAL), none, some (.cur .ANIMALITY_INANIMATE)], 105),
   ([some (.cur .PARTICIPLE_FORM_FULL), some (.cur .TIME_PRESENT), some (.cur .VOICE_DIRECT), some (.cur .NUMBER_SINGULAR), some (.cur .CASE_PREPOSITIONAL), none, some (.cur .ANIMALITY_ANIMATE)], 106),
   ([some (.cur .PARTICIPLE_FORM_FULL), some (.cur .TIME_PRESENT), some (.cur .VOICE_DIRECT), some (.cur .NUMBER_SINGULAR), some (.cur .CASE_PREPOSITIONAL), none, some (.cur .ANIMALITY_INANIMATE)], 107),
   ([some (.cur .PARTICIPLE_FORM_FULL), some (.cur .TIME_PRESENT), some (.cur .VOICE_DIRECT), some (.cur .NUMBER_PLURAL), some (.cur .CASE_NOMINATIVE), none, some (.cur .ANIMALITY_ANIMATE)], 108),
   ([some (.cur .PARTICIPLE_FORM_FULL), some (.cur .TIME_PRESENT), some (.cur .VOICE_DIRECT), some (.cur .NUMBER_PLURAL), some (.cur .CASE_NOMINATIVE), none, some (.cur .ANIMALITY_INANIMATE)], 109),
   ([some (.cur .PARTICIPLE_FORM_FULL), some (.cur .TIME_PRESENT), some (.cur .VOICE_DIRECT), some (.cur .NUMBER_PLURAL), some (.cur .CASE_GENITIVE), none, some (.cur .ANIMALITY_ANIMATE)], 110),
   ([some (.cur .PARTICIPLE_FORM_FULL), some (.cur .TIME_PRESENT), some (.cur .VOICE_DIRECT), some (.cur .NUMBER_PLURAL), some (.cur .CASE_GENITIVE), none, some (.cur .ANIMALITY_INANIMATE)], 111),
   ([some (.cur .PARTICIPLE_FORM_FULL), some (.cur .TIME_PRESENT), some (.cur .VOICE_DIRECT), some (.cur .NUMBER_PLURAL), some (.cur .CASE_DATIVE), none, some (.cur .ANIMALITY_ANIMATE)], 112),
   ([some (.cur .PARTICIPLE_FORM_FULL), some (.cur .TIME_PRESENT), some (.cur .VOICE_DIRECT), some (.cur .NUMBER_PLURAL), some (.cur .CASE_DATIVE), none, some (.cur .ANIMALITY_INANIMATE)], 113),
   ([some (.cur .PARTICIPLE_FORM_FULL), some (.cur .TIME_PRESENT), some (.cur .VOICE_DIRECT), some (.cur .NUMBER_PLURAL), some (.cur .CASE_ACCUSATIVE), none, some (.cur .ANIMALITY_ANIMATE)], 114),
   ([some (.cur .PARTICIPLE_FORM_FULL), some (.cur .TIME_PRESENT), some (.cur .VOICE_DIRECT), some (.cur .NUMBER_PLURAL), some (.cur .CASE_ACCUSATIVE), none, some (.cur .ANIMALITY_INANIMATE)], 115),
   ([some (.cur .PARTICIPLE_FORM_FULL), some (.cur .TIME_PRESENT), some (.cur .VOICE_DIRECT), some (.cur .NUMBER_PLURAL), some (.cur .CASE_INSTRUMENTAL), none, some (.cur .ANIMALITY_ANIMATE)], 116),
   ([some (.cur .PARTICIPLE_FORM_FULL), some (.cur .TIME_PRESENT), some (.cur .VOICE_DIRECT), some (.cur .NUMBER_PLURAL), some (.cur .CASE_INSTRUMENTAL), none, some (.cur .ANIMALITY_INANIMATE)], 117),
   ([some (.cur .PARTICIPLE_FORM_FULL), some (.cur .TIME_PRESENT), some (.cur .VOICE_DIRECT), some (.cur .NUMBER_PLURAL), some (.cur .CASE_PREPOSITIONAL), none, some (.cur .ANIMALITY_ANIMATE)], 118),
   ([some (.cur .PARTICIPLE_FORM_FULL), some (.cur .TIME_PRESENT), some (.cur .VOICE_DIRECT), some (.cur .NUMBER_PLURAL), some (.cur .CASE_PREPOSITIONAL), none, some (.cur .ANIMALITY_INANIMATE)], 119),
   ([some (.cur .PARTICIPLE_FORM_FULL), some (.cur .TIME_PRESENT), some (.cur .VOICE_REVERSE), some (.cur .NUMBER_SINGULAR), some (.cur .CASE_NOMINATIVE), none, some (.cur .ANIMALITY_ANIMATE)], 120),
   ([some (.cur .PARTICIPLE_FORM_FULL), some (.cur .TIME_PRESENT), some (.cur .VOICE_REVERSE), some (.cur .NUMBER_SINGULAR), some (.cur .CASE_NOMINATIVE), none, some (.cur .ANIMALITY_INANIMATE)], 121),
   ([some (.cur .PARTICIPLE_FORM_FULL), some (.cur .TIME_PRESENT), some (.cur .VOICE_REVERSE), some (.cur .NUMBER_SINGULAR), some (.cur .CASE_GENITIVE), none, some (.cur .ANIMALITY_ANIMATE)], 122),
   ([some (.cur .PARTICIPLE_FORM_FULL), some (.cur .TIME_PRESENT), some (.cur .VOICE_REVERSE), some (.cur .NUMBER_SINGULAR), some (.cur .CASE_GENITIVE), none, some (.cur .ANIMALITY_INANIMATE)], 123),
   ([some (.cur .PARTICIPLE_FORM_FULL), some (.cur .TIME_PRESENT), some (.cur .VOICE_REVERSE), some (.cur .NUMBER_SINGULAR), some (.cur .CASE_DATIVE), none, some (.cur .ANIMALITY_ANIMATE)], 124),
   ([some (.cur .PARTICIPLE_FORM_FULL), some (.cur .TIME_PRESENT), some (.cur .VOICE_REVERSE), some (.cur .NUMBER_SINGULAR), some (.cur .CASE_DATIVE), none, some (.cur .ANIMALITY_INANIMATE)], 125),
   ([some (.cur .PARTICIPLE_FORM_FULL), some (.cur .TIME_PRESENT), some (.cur .VOICE_REVERSE), some (.cur .NUMBER_SINGULAR), some (.cur .CASE_ACCUSATIVE), none, some (.cur .ANIMALITY_ANIMATE)], 126),
   ([some (.cur .PARTICIPLE_FORM_FULL), some (.cur .TIME_PRESENT), some (.cur .VOICE_REVERSE), some (.cur .NUMBER_SINGULAR), some (.cur .CASE_ACCUSATIVE), none, some (.cur .ANIMALITY_INANIMATE)], 127),
   ([some (.cur .PARTICIPLE_FORM_FULL), some (.cur .TIME_PRESENT), some (.cur .VOICE_REVERSE), some (.cur .NUMBER_SINGULAR), some (.cur .CASE_INSTRUMENTAL), none, some (.cur .ANIMALITY_ANIMATE)], 128),
   ([some (.cur .PARTICIPLE_FORM_FULL), some (.cur .TIME_PRESENT), some (.cur .VOICE_REVERSE), some (.cur .NUMBER_SINGULAR), some (.cur .CASE_INSTRUMENTAL), none, some (.cur .ANIMALITY_INANIMATE)], 129),
   ([some (.cur .PARTICIPLE_FORM_FULL), some (.cur .TIME_PRESENT), some (.cur .VOICE_REVERSE), some (.cur .NUMBER_SINGULAR), some (.cur .CASE_PREPOSITIONAL), none, some (.cur .ANIMALITY_ANIMATE)], 130),
   ([some (.cur .PARTICIPLE_FORM_FULL), some (.cur .TIME_PRESENT), some (.cur .VOICE_REVERSE), some (.cur .NUMBER_SINGULAR), some (.cur .CASE_PREPOSITIONAL), none, some (.cur .ANIMALITY_INANIMATE)], 131),
   ([some (.cur .PARTICIPLE_FORM_FULL), some (.cur .TIME_PRESENT), some (.cur .VOICE_REVERSE), some (.cur .NUMBER_PLURAL), some (.cur .CASE_NOMINATIVE), none, some (.cur .ANIMALITY_ANIMATE)], 132),
   ([some (.cur .PARTICIPLE_FORM_FULL), some (.cur .TIME_PRESENT), some (.cur .VOICE_REVERSE), some (.cur .NUMBER_PLURAL), some (.cur .CASE_NOMINATIVE), none, some (.cur .ANIMALITY_INANIMATE)], 133),
   ([some (.cur .PARTICIPLE_FORM_FULL), some (.cur .TIME_PRESENT), some (.cur .VOICE_REVERSE), some (.cur .NUMBER_PLURAL), some (.cur .CASE_GENITIVE), none, some (.cur .ANIMALITY_ANIMATE)], 134),
   ([some (.cur .PARTICIPLE_FORM_FULL), some (.cur .TIME_PRESENT), some (.cur .VOICE_REVERSE), some (.cur .NUMBER_PLURAL), some (.cur .CASE_GENITIVE), none, some (.cur .ANIMALITY_INANIMATE)], 135),
   ([some (.cur .PARTICIPLE_FORM_FULL), some (.cur .TIME_PRESENT), some (.cur .VOICE_REVERSE), some (.cur .NUMBER_PLURAL), some (.cur .CASE_DATIVE), none, some (.cur .ANIMALITY_ANIMATE)], 136),
   ([some (.cur .PARTICIPLE_FORM_FULL), some (.cur .TIME_PRESENT), some (.cur .VOICE_REVERSE), some (.cur .NUMBER_PLURAL), some (.cur .CASE_DATIVE), none, some (.cur .ANIMALITY_INANIMATE)], 137),
   ([some (.cur .PARTICIPLE_FORM_FULL), some (.cur .TIME_PRESENT), some (.cur .VOICE_REVERSE), some (.cur .NUMBER_PLURAL), some (.cur .CASE_ACCUSATIVE), none, some (.cur .ANIMALITY_ANIMATE)], 138),
   ([some (.cur .PARTICIPLE_FORM_FULL), some (.cur .TIME_PRESENT), some (.cur .VOICE_REVERSE), some (.cur .NUMBER_PLURAL), some (.cur .CASE_ACCUSATIVE), none, some (.cur .ANIMALITY_INANIMATE)], 139),
   ([some (.cur .PARTICIPLE_FORM_FULL), some (.cur .TIME_PRESENT), some (.cur .VOICE_REVERSE), some (.cur .NUMBER_PLURAL), some (.cur .CASE_INSTRUMENTAL), none, some (.cur .ANIMALITY_ANIMATE)], 140),
   ([some (.cur .PARTICIPLE_FORM_FULL), some (.cur .TIME_PRESENT), some (.cur .VOICE_REVERSE), some (.cur .NUMBER_PLURAL), some (.cur .CASE_INSTRUMENTAL), none, some (.cur .ANIMALITY_INANIMATE)], 141),
   ([some (.cur .PARTICIPLE_FORM_FULL), some (.cur .TIME_PRESENT), some (.cur .VOICE_REVERSE), some (.cur .NUMBER_PLURAL), some (.cur .CASE_PREPOSITIONAL), none, some (.cur .ANIMALITY_ANIMATE)], 142),
   ([some (.cur .PARTICIPLE_FORM_FULL), some (.cur .TIME_PRESENT), some (.cur .VOICE_REVERSE), some (.cur .NUMBER_PLURAL), some (.cur .CASE_PREPOSITIONAL), none, some (.cur .ANIMALITY_INANIMATE)], 143),
   ([some (.cur .PARTICIPLE_FORM_FULL), some (.cur .TIME_FUTURE), some (.cur .VOICE_DIRECT), some (.cur .NUMBER_SINGULAR), some (.cur .CASE_NOMINATIVE), none, some (.cur .ANIMALITY_ANIMATE)], 144),
   ([some (.cur .PARTICIPLE_FORM_FULL), some (.cur .TIME_FUTURE), some (.cur .VOICE_DIRECT), some (.cur .NUMBER_SINGULAR), some (.cur .CASE_NOMINATIVE), none, some (.cur .ANIMALITY_INANIMATE)], 145),
   ([some (.cur .PARTICIPLE_FORM_FULL), some (.cur .TIME_FUTURE), some (.cur .VOICE_DIRECT), some (.cur .NUMBER_SINGULAR), some (.cur .CASE_GENITIVE), none, some (.cur .ANIMALITY_ANIMATE)], 146),
   ([some (.cur .PARTICIPLE_FORM_FULL), some (.cur .TIME_FUTURE), some (.cur .VOICE_DIRECT), some (.cur .NUMBER_SINGULAR), some (.cur .CASE_GENITIVE), none, some (.cur .ANIMALITY_INANIMATE)], 147),
   ([some (.cur .PARTICIPLE_FORM_FULL), some (.cur .TIME_FUTURE), some (.cur .VOICE_DIRECT), some (.cur .NUMBER_SINGULAR), some (.cur .CASE_DATIVE), none, some (.cur .ANIMALITY_ANIMATE)], 148),
   ([some (.cur .PARTICIPLE_FORM_FULL), some (.cur .TIME_FUTURE), some (.cur .VOICE_DIRECT), some (.cur .NUMBER_SINGULAR), some (.cur .CASE_DATIVE), none, some (.cur .ANIMALITY_INANIMATE)], 149),
   ([some (.cur .PARTICIPLE_FORM_FULL), some (.cur .TIME_FUTURE), some (.cur .VOICE_DIRECT), some (.cur .NUMBER_SINGULAR), some (.cur .CASE_ACCUSATIVE), none, some (.cur .ANIMALITY_ANIMATE)], 150),
   ([some (.cur .PARTICIPLE_FORM_FULL), some (.cur .TIME_FUTURE), some (.cur .VOICE_DIRECT), some (.cur .NUMBER_SINGULAR), some (.cur .CASE_ACCUSATIVE), none, some (.cur .ANIMALITY_INANIMATE)], 151),
   ([some (.cur .PARTICIPLE_FORM_FULL), some (.cur .TIME_FUTURE), some (.cur .VOICE_DIRECT), some (.cur .NUMBER_SINGULAR), some (.cur .CASE_INSTRUMENTAL), none, some (.cur .ANIMALITY_ANIMATE)], 152),
   ([some (.cur .PARTICIPLE_FORM_FULL), some (.cur .TIME_FUTURE), some (.cur .VOICE_DIRECT), some (.cur .NUMBER_SINGULAR), some (.cur .CASE_INSTRUMENTAL), none, some (.cur .ANIMALITY_INANIMATE)], 153),
   ([some (.cur .PARTICIPLE_FORM_FULL), some (.cur .TIME_FUTURE), some (.cur .VOICE_DIRECT), some (.cur .NUMBER_SINGULAR), some (.cur .CASE_PREPOSITIONAL), none, some (.cur .ANIMALITY_ANIMATE)], 154),
   ([some (.cur .PARTICIPLE_FORM_FULL), some (.cur .TIME_FUTURE), some (.cur .VOICE_DIRECT), some (.cur .NUMBER_SINGULAR), some (.cur .CASE_PREPOSITIONAL), none, some (.cur .ANIMALITY_INANIMATE)], 155),
   ([some (.cur .PARTICIPLE_FORM_FULL), some (.cur .TIME_FUTURE), some (.cur .VOICE_DIRECT), some (.cur .NUMBER_PLURAL), some (.cur .CASE_NOMINATIVE), none, some (.cur .ANIMALITY_ANIMATE)], 156),
   ([some (.cur .PARTICIPLE_FORM_FULL), some (.cur .TIME_FUTURE), some (.cur .VOICE_DIRECT), some (.cur .NUMBER_PLURAL), some (.cur .CASE_NOMINATIVE), none, some (.cur .ANIMALITY_INANIMATE)], 157),
   ([some (.cur .PARTICIPLE_FORM_FULL), some (.cur .TIME_FUTURE), some (.cur .VOICE_DIRECT), some (.cur .NUMBER_PLURAL), some (.cur .CASE_GENITIVE), none, some (.cur .ANIMALITY_ANIMATE)], 158),
   ([some (.cur .PARTICIPLE_FORM_FULL), some (.cur .TIME_FUTURE), some (.cur .VOICE_DIRECT), some (.cur .NUMBER_PLURAL), some (.cur .CASE_GENITIVE), none, some (.cur .ANIMALITY_INANIMATE)], 159),
   ([some (.cur .PARTICIPLE_FORM_FULL), some (.cur .TIME_FUTURE), some (.cur .VOICE_DIRECT), some (.cur .NUMBER_PLURAL), some (.cur .CASE_DATIVE), none, some (.cur .ANIMALITY_ANIMATE)], 160),
   ([some (.cur .PARTICIPLE_FORM_FULL), some (.cur .TIME_FUTURE), some (.cur .VOICE_DIRECT), some (.cur .NUMBER_PLURAL), some (.cur .CASE_DATIVE), none, some (.cur .ANIMALITY_INANIMATE)], 161),
   ([some (.cur .PARTICIPLE_FORM_FULL), some (.cur .TIME_FUTURE), some (.cur .VOICE_DIRECT), some (.cur .NUMBER_PLURAL), some (.cur .CASE_ACCUSATIVE), none, some (.cur .ANIMALITY_ANIMATE)], 162),
   ([some (.cur .PARTICIPLE_FORM_FULL), some (.cur .TIME_FUTURE), some (.cur .VOICE_DIRECT), some (.cur .NUMBER_PLURAL), some (.cur .CASE_ACCUSATIVE), none, some (.cur .ANIMALITY_INANIMATE)], 163),
   ([some (.cur .PARTICIPLE_FORM_FULL), some (.cur .TIME_FUTURE), some (.cur .VOICE_DIRECT), some (.cur .NUMBER_PLURAL), some (.cur .CASE_INSTRUMENTAL), none, some (.cur .ANIMALITY_ANIMATE)], 164),
   ([some (.cur .PARTICIPLE_FORM_FULL), some (.cur .TIME_FUTURE), some (.cur .VOICE_DIRECT), some (.cur .NUMBER_PLURAL), some (.cur .CASE_INSTRUMENTAL), none, some (.cur .ANIMALITY_INANIMATE)], 165),
   ([some (.cur .PARTICIPLE_FORM_FULL), some (.cur .TIME_FUTURE), some (.cur .VOICE_DIRECT), some (.cur .NUMBER_PLURAL), some (.cur .CASE_PREPOSITIONAL), none, some (.cur .ANIMALITY_ANIMATE)], 166),
   ([some (.cur .PARTICIPLE_FORM_FULL), some (.cur .TIME_FUTURE), some (.cur .VOICE_DIRECT), some (.cur .NUMBER_PLURAL), some (.cur .CASE_PREPOSITIONAL), none, some (.cur .ANIMALITY_INANIMATE)], 167),
   ([some (.cur .PARTICIPLE_FORM_FULL), some (.cur .TIME_FUTURE), some (.cur .VOICE_REVERSE), some (.cur .NUMBER_SINGULAR), some (.cur .CASE_NOMINATIVE), none, some (.cur .ANIMALITY_ANIMATE)], 168),
   ([some (.cur .PARTICIPLE_FORM_FULL), some (.cur .TIME_FUTURE), some (.cur .VOICE_REVERSE), some (.cur .NUMBER_SINGULAR), some (.cur .CASE_NOMINATIVE), none, some (.cur .ANIMALITY_INANIMATE)], 169),
   ([some (.cur .PARTICIPLE_FORM_FULL), some (.cur .TIME_FUTURE), some (.cur .VOICE_REVERSE), some (.cur .NUMBER_SINGULAR), some (.cur .CASE_GENITIVE), none, some (.cur .ANIMALITY_ANIMATE)], 170),
   ([some (.cur .PARTICIPLE_FORM_FULL), some (.cur .TIME_FUTURE), some (.cur .VOICE_REVERSE), some (.cur .NUMBER_SINGULAR), some (.cur .CASE_GENITIVE), none, some (.cur .ANIMALITY_INANIMATE)], 171),
   ([some (.cur .PARTICIPLE_FORM_FULL), some (.cur .TIME_FUTURE), some (.cur .VOICE_REVERSE), some (.cur .NUMBER_SINGULAR), some (.cur .CASE_DATIVE), none, some (.cur .ANIMALITY_ANIMATE)], 172),
   ([some (.cur .PARTICIPLE_FORM_FULL), some (.cur .TIME_FUTURE), some (.cur .VOICE_REVERSE), some (.cur .NUMBER_SINGULAR), some (.cur .CASE_DATIVE), none, some (.cur .ANIMALITY_INANIMATE)], 173),
   ([some (.cur .PARTICIPLE_FORM_FULL), some (.cur .TIME_FUTURE), some (.cur .VOICE_REVERSE), some (.cur .NUMBER_SINGULAR), some (.cur .CASE_ACCUSATIVE), none, some (.cur .ANIMALITY_ANIMATE)], 174),
   ([some (.cur .PARTICIPLE_FORM_FULL), some (.cur .TIME_FUTURE), some (.cur .VOICE_REVERSE), some (.cur .NUMBER_SINGULAR), some (.cur .CASE_ACCUSATIVE), none, some (.cur .ANIMALITY_INANIMATE)], 175),
   ([some (.cur .PARTICIPLE_FORM_FULL), some (.cur .TIME_FUTURE), some (.cur .VOICE_REVERSE), some (.cur .NUMBER_SINGULAR), some (.cur .CASE_INSTRUMENTAL), none, some (.cur .ANIMALITY_ANIMATE)], 176),
   ([some (.cur .PARTICIPLE_FORM_FULL), some (.cur .TIME_FUTURE), some (.cur .VOICE_REVERSE), some (.cur .NUMBER_SINGULAR), some (.cur .CASE_INSTRUMENTAL), none, some (.cur .ANIMALITY_INANIMATE)], 177),
   ([some (.cur .PARTICIPLE_FORM_FULL), some (.cur .TIME_FUTURE), some (.cur .VOICE_REVERSE), some (.cur .NUMBER_SINGULAR), some (.cur .CASE_PREPOSITIONAL), none, some (.cur .ANIMALITY_ANIMATE)], 178),
   ([some (.cur .PARTICIPLE_FORM_FULL), some (.cur .TIME_FUTURE), some (.cur .VOICE_REVERSE), some (.cur .NUMBER_SINGULAR), some (.cur .CASE_PREPOSITIONAL), none, some (.cur .ANIMALITY_INANIMATE)], 179),
   ([some (.cur .PARTICIPLE_FORM_FULL), some (.cur .TIME_FUTURE), some (.cur .VOICE_REVERSE), some (.cur .NUMBER_PLURAL), some (.cur .CASE_NOMINATIVE), none, some (.cur .ANIMALITY_ANIMATE)], 180),
   ([some (.cur .PARTICIPLE_FORM_FULL), some (.cur .TIME_FUTURE), some (.cur .VOICE_REVERSE), some (.cur .NUMBER_PLURAL), some (.cur .CASE_NOMINATIVE), none, some (.cur .ANIMALITY_INANIMATE)], 181),
   ([some (.cur .PARTICIPLE_FORM_FULL), some (.cur .TIME_FUTURE), some (.cur .VOICE_REVERSE), some (.cur .NUMBER_PLURAL), some (.cur .CASE_GENITIVE), none, some (.cur .ANIMALITY_ANIMATE)], 182),
   ([some (.cur .PARTICIPLE_FORM_FULL), some (.cur .TIME_FUTURE), some (.cur .VOICE_REVERSE), some (.cur .NUMBER_PLURAL), some (.cur .CASE_GENITIVE), none, some (.cur .ANIMALITY_INANIMATE)], 183),
   ([some (.cur .PARTICIPLE_FORM_FULL), some (.cur .TIME_FUTURE), some (.cur .VOICE_REVERSE), some (.cur .NUMBER_PLURAL), some (.cur .CASE_DATIVE), none, some (.cur .ANIMALITY_ANIMATE)], 184),
   ([some (.cur .PARTICIPLE_FORM_FULL), some (.cur .TIME_FUTURE), some (.cur .VOICE_REVERSE), some (.cur .NUMBER_PLURAL), some (.cur .CASE_DATIVE), none, some (.cur .ANIMALITY_INANIMATE)], 185),
   ([some (.cur .PARTICIPLE_FORM_FULL), some (.cur .TIME_FUTURE), some (.cur .VOICE_REVERSE), some (.cur .NUMBER_PLURAL), some (.cur .CASE_ACCUSATIVE), none, some (.cur .ANIMALITY_ANIMATE)], 186),
   ([some (.cur .PARTICIPLE_FORM_FULL), some (.cur .TIME_FUTURE), some (.cur .VOICE_REVERSE), some (.cur .NUMBER_PLURAL), some (.cur .CASE_ACCUSATIVE), none, some (.cur .ANIMALITY_INANIMATE)], 187),
   ([some (.cur .PARTICIPLE_FORM_FULL), some (.cur .TIME_FUTURE), some (.cur .VOICE_REVERSE), some (.cur .NUMBER_PLURAL), some (.cur .CASE_INSTRUMENTAL), none, some (.cur .ANIMALITY_ANIMATE)], 188),
   ([some (.cur .PARTICIPLE_FORM_FULL), some (.cur .TIME_FUTURE), some (.cur .VOICE_REVERSE), some (.cur .NUMBER_PLURAL), some (.cur .CASE_INSTRUMENTAL), none, some (.cur .ANIMALITY_INANIMATE)], 189),
   ([some (.cur .PARTICIPLE_FORM_FULL), some (.cur .TIME_FUTURE), some (.cur .VOICE_REVERSE), some (.cur .NUMBER_PLURAL), some (.cur .CASE_PREPOSITIONAL), none, some (.cur .ANIMALITY_ANIMATE)], 190),
   ([some (.cur .PARTICIPLE_FORM_FULL), some (.cur .TIME_FUTURE), some (.cur .VOICE_REVERSE), some (.cur .NUMBER_PLURAL), some (.cur .CASE_PREPOSITIONAL), none, some (.cur .ANIMALITY_INANIMATE)], 191),
   ([some (.cur .PARTICIPLE_FORM_SHORT), none, none, some (.cur .NUMBER_SINGULAR), none, some (.cur .GENDER_MASCULINE), none], 192),
   ([some (.cur .PARTICIPLE_FORM_SHORT), none, none, some (.cur .NUMBER_SINGULAR), none, some (.cur .GENDER_NEUTER), none], 193),
   ([some (.cur .PARTICIPLE_FORM_SHORT), none, none, some (.cur .NUMBER_SINGULAR), none, some (.cur .GENDER_FEMININE), none], 194),
   ([some (.cur .PARTICIPLE_FORM_SHORT), none, none, some (.cur .NUMBER_PLURAL), none, none, none], 195)]

/-- `OLD_CACHES[WORD_TYPE.INTEGER]` (utg/migrations/m_0006_per_word_type_restrictions.py:491-491). -/
def oldInteger : Dict OldKey Nat :=
  [([], 0)]

/-- `OLD_CACHES[WORD_TYPE.TEXT]` (utg/migrations/m_0006_per_word_type_restrictions.py:492-492). -/
def oldText : Dict OldKey Nat :=
  [([], 0)]

/-- `OLD_CACHES[WORD_TYPE.PREPOSITION]` (utg/migrations/m_0006_per_word_type_restrictions.py:493-495). -/
def oldPreposition : Dict OldKey Nat :=
  [([some (.cur .PREPOSITION_FORM_NORMAL)], 0),
   ([some (.cur .PREPOSITION_FORM_ALTERNATIVE)], 1),
   ([some (.cur .PREPOSITION_FORM_SPECIAL)], 2)]

/-- `OLD_CACHES` (utg/migrations/m_0006_per_word_type_restrictions.py). -/
def oldCaches : WordType → Dict OldKey Nat
  | .NOUN => oldNoun
  | .ADJECTIVE => oldAdjective
  | .PRONOUN => oldPronoun
  | .VERB => oldVerb
  | .PARTICIPLE => oldParticiple
  | .INTEGER => oldInteger
  | .TEXT => oldText
  | .PREPOSITION => oldPreposition

end Utg.M0006
