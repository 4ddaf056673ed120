import Verif.Model.Migrations.Common
/-!
# The key tables of `utg/migrations/m_0001_include_short_forms_in_full.py`

Generated by `tools/gen_migrations.py` from the text of the source (regular expressions only), then read against it.
-/

namespace Utg.M0001
open Py

/-- `OLD_ADJECTIVE_CACHE` (utg/migrations/m_0001_include_short_forms_in_full.py:45). -/
def oldAdjective : Dict Key Nat :=
  [([some .NUMBER_PLURAL, some .CASE_INSTRUMENTAL, none, some .ANIMALITY_ANIMATE, some .GRADE_POSITIVE], 132),
   ([some .NUMBER_SINGULAR, some .CASE_NOMINATIVE, some .GENDER_FEMININE, some .ANIMALITY_INANIMATE, some .GRADE_COMPARATIVE], 16),
   ([some .NUMBER_SINGULAR, some .CASE_DATIVE, some .GENDER_MASCULINE, some .ANIMALITY_INANIMATE, some .GRADE_SUPERLATIVE], 41),
   ([some .NUMBER_SINGULAR, some .CASE_DATIVE, some .GENDER_MASCULINE, some .ANIMALITY_ANIMATE, some .GRADE_COMPARATIVE], 37),
   ([some .NUMBER_SINGULAR, some .CASE_GENITIVE, some .GENDER_FEMININE, some .ANIMALITY_INANIMATE, some .GRADE_POSITIVE], 33),
   ([some .NUMBER_SINGULAR, some .CASE_INSTRUMENTAL, some .GENDER_MASCULINE, some .ANIMALITY_ANIMATE, some .GRADE_COMPARATIVE], 73),
   ([some .NUMBER_PLURAL, some .CASE_GENITIVE, none, some .ANIMALITY_ANIMATE, some .GRADE_POSITIVE], 114),
   ([some .NUMBER_SINGULAR, some .CASE_DATIVE, some .GENDER_MASCULINE, some .ANIMALITY_INANIMATE, some .GRADE_COMPARATIVE], 40),
   ([some .NUMBER_SINGULAR, some .CASE_GENITIVE, some .GENDER_NEUTER, some .ANIMALITY_INANIMATE, some .GRADE_POSITIVE], 27),
   ([some .NUMBER_PLURAL, some .CASE_NOMINATIVE, none, some .ANIMALITY_INANIMATE, some .GRADE_SUPERLATIVE], 113),
   ([some .NUMBER_PLURAL, some .CASE_ACCUSATIVE, none, some .ANIMALITY_ANIMATE, some .GRADE_COMPARATIVE], 127),
   ([some .NUMBER_SINGULAR, some .CASE_GENITIVE, some .GENDER_NEUTER, some .ANIMALITY_INANIMATE, some .GRADE_COMPARATIVE], 28),
   ([some .NUMBER_PLURAL, some .CASE_PREPOSITIONAL, none, some .ANIMALITY_INANIMATE, some .GRADE_POSITIVE], 141),
   ([some .NUMBER_SINGULAR, some .CASE_DATIVE, some .GENDER_FEMININE, some .ANIMALITY_ANIMATE, some .GRADE_SUPERLATIVE], 50),
   ([some .NUMBER_SINGULAR, some .CASE_INSTRUMENTAL, some .GENDER_NEUTER, some .ANIMALITY_ANIMATE, some .GRADE_COMPARATIVE], 79),
   ([some .NUMBER_SINGULAR, some .CASE_GENITIVE, some .GENDER_MASCULINE, some .ANIMALITY_INANIMATE, some .GRADE_COMPARATIVE], 22),
   ([some .NUMBER_SINGULAR, some .CASE_NOMINATIVE, some .GENDER_NEUTER, some .ANIMALITY_INANIMATE, some .GRADE_SUPERLATIVE], 11),
   ([some .NUMBER_SINGULAR, some .CASE_INSTRUMENTAL, some .GENDER_FEMININE, some .ANIMALITY_INANIMATE, some .GRADE_POSITIVE], 87),
   ([some .NUMBER_PLURAL, some .CASE_NOMINATIVE, none, some .ANIMALITY_ANIMATE, some .GRADE_SUPERLATIVE], 110),
   ([some .NUMBER_SINGULAR, some .CASE_DATIVE, some .GENDER_NEUTER, some .ANIMALITY_ANIMATE, some .GRADE_COMPARATIVE], 43),
   ([some .NUMBER_SINGULAR, some .CASE_DATIVE, some .GENDER_NEUTER, some .ANIMALITY_ANIMATE, some .GRADE_SUPERLATIVE], 44),
   ([some .NUMBER_SINGULAR, some .CASE_GENITIVE, some .GENDER_NEUTER, some .ANIMALITY_ANIMATE, some .GRADE_SUPERLATIVE], 26),
   ([some .NUMBER_PLURAL, some .CASE_INSTRUMENTAL, none, some .ANIMALITY_ANIMATE, some .GRADE_SUPERLATIVE], 134),
   ([some .NUMBER_SINGULAR, some .CASE_PREPOSITIONAL, some .GENDER_MASCULINE, some .ANIMALITY_INANIMATE, some .GRADE_POSITIVE], 93),
   ([some .NUMBER_SINGULAR, some .CASE_GENITIVE, some .GENDER_FEMININE, some .ANIMALITY_INANIMATE, some .GRADE_SUPERLATIVE], 35),
   ([some .NUMBER_PLURAL, some .CASE_DATIVE, none, some .ANIMALITY_INANIMATE, some .GRADE_SUPERLATIVE], 125),
   ([some .NUMBER_PLURAL, some .CASE_NOMINATIVE, none, some .ANIMALITY_INANIMATE, some .GRADE_POSITIVE], 111),
   ([some .NUMBER_SINGULAR, some .CASE_NOMINATIVE, some .GENDER_FEMININE, some .ANIMALITY_INANIMATE, some .GRADE_SUPERLATIVE], 17),
   ([some .NUMBER_PLURAL, some .CASE_PREPOSITIONAL, none, some .ANIMALITY_ANIMATE, some .GRADE_COMPARATIVE], 139),
   ([some .NUMBER_SINGULAR, some .CASE_INSTRUMENTAL, some .GENDER_MASCULINE, some .ANIMALITY_INANIMATE, some .GRADE_POSITIVE], 75),
   ([some .NUMBER_SINGULAR, some .CASE_DATIVE, some .GENDER_FEMININE, some .ANIMALITY_ANIMATE, some .GRADE_POSITIVE], 48),
   ([some .NUMBER_SINGULAR, some .CASE_GENITIVE, some .GENDER_FEMININE, some .ANIMALITY_ANIMATE, some .GRADE_POSITIVE], 30),
   ([some .NUMBER_SINGULAR, some .CASE_NOMINATIVE, some .GENDER_FEMININE, some .ANIMALITY_ANIMATE, some .GRADE_POSITIVE], 12),
   ([some .NUMBER_SINGULAR, some .CASE_PREPOSITIONAL, some .GENDER_FEMININE, some .ANIMALITY_INANIMATE, some .GRADE_COMPARATIVE], 106),
   ([some .NUMBER_SINGULAR, some .CASE_INSTRUMENTAL, some .GENDER_FEMININE, some .ANIMALITY_INANIMATE, some .GRADE_SUPERLATIVE], 89),
   ([some .NUMBER_SINGULAR, some .CASE_ACCUSATIVE, some .GENDER_FEMININE, some .ANIMALITY_ANIMATE, some .GRADE_POSITIVE], 66),
   ([some .NUMBER_SINGULAR, some .CASE_ACCUSATIVE, some .GENDER_MASCULINE, some .ANIMALITY_INANIMATE, some .GRADE_SUPERLATIVE], 59),
   ([some .NUMBER_SINGULAR, some .CASE_PREPOSITIONAL, some .GENDER_FEMININE, some .ANIMALITY_ANIMATE, some .GRADE_POSITIVE], 102),
   ([some .NUMBER_SINGULAR, some .CASE_NOMINATIVE, some .GENDER_FEMININE, some .ANIMALITY_ANIMATE, some .GRADE_COMPARATIVE], 13),
   ([some .NUMBER_SINGULAR, some .CASE_PREPOSITIONAL, some .GENDER_MASCULINE, some .ANIMALITY_ANIMATE, some .GRADE_SUPERLATIVE], 92),
   ([some .NUMBER_SINGULAR, some .CASE_NOMINATIVE, some .GENDER_MASCULINE, some .ANIMALITY_ANIMATE, some .GRADE_SUPERLATIVE], 2),
   ([some .NUMBER_SINGULAR, some .CASE_NOMINATIVE, some .GENDER_MASCULINE, some .ANIMALITY_ANIMATE, some .GRADE_COMPARATIVE], 1),
   ([some .NUMBER_SINGULAR, some .CASE_ACCUSATIVE, some .GENDER_MASCULINE, some .ANIMALITY_INANIMATE, some .GRADE_COMPARATIVE], 58),
   ([some .NUMBER_SINGULAR, some .CASE_PREPOSITIONAL, some .GENDER_FEMININE, some .ANIMALITY_ANIMATE, some .GRADE_SUPERLATIVE], 104),
   ([some .NUMBER_SINGULAR, some .CASE_INSTRUMENTAL, some .GENDER_MASCULINE, some .ANIMALITY_INANIMATE, some .GRADE_SUPERLATIVE], 77),
   ([some .NUMBER_PLURAL, some .CASE_DATIVE, none, some .ANIMALITY_INANIMATE, some .GRADE_POSITIVE], 123),
   ([some .NUMBER_PLURAL, some .CASE_INSTRUMENTAL, none, some .ANIMALITY_INANIMATE, some .GRADE_POSITIVE], 135),
   ([some .NUMBER_SINGULAR, some .CASE_PREPOSITIONAL, some .GENDER_MASCULINE, some .ANIMALITY_INANIMATE, some .GRADE_SUPERLATIVE], 95),
   ([some .NUMBER_PLURAL, some .CASE_ACCUSATIVE, none, some .ANIMALITY_INANIMATE, some .GRADE_POSITIVE], 129),
   ([some .NUMBER_SINGULAR, some .CASE_ACCUSATIVE, some .GENDER_NEUTER, some .ANIMALITY_INANIMATE, some .GRADE_POSITIVE], 63),
   ([some .NUMBER_SINGULAR, some .CASE_PREPOSITIONAL, some .GENDER_MASCULINE, some .ANIMALITY_ANIMATE, some .GRADE_POSITIVE], 90),
   ([some .NUMBER_SINGULAR, some .CASE_PREPOSITIONAL, some .GENDER_FEMININE, some .ANIMALITY_INANIMATE, some .GRADE_SUPERLATIVE], 107),
   ([some .NUMBER_SINGULAR, some .CASE_ACCUSATIVE, some .GENDER_NEUTER, some .ANIMALITY_ANIMATE, some .GRADE_SUPERLATIVE], 62),
   ([some .NUMBER_SINGULAR, some .CASE_ACCUSATIVE, some .GENDER_NEUTER, some .ANIMALITY_ANIMATE, some .GRADE_COMPARATIVE], 61),
   ([some .NUMBER_SINGULAR, some .CASE_GENITIVE, some .GENDER_MASCULINE, some .ANIMALITY_ANIMATE, some .GRADE_POSITIVE], 18),
   ([some .NUMBER_SINGULAR, some .CASE_PREPOSITIONAL, some .GENDER_NEUTER, some .ANIMALITY_ANIMATE, some .GRADE_COMPARATIVE], 97),
   ([some .NUMBER_SINGULAR, some .CASE_INSTRUMENTAL, some .GENDER_FEMININE, some .ANIMALITY_ANIMATE, some .GRADE_COMPARATIVE], 85),
   ([some .NUMBER_SINGULAR, some .CASE_DATIVE, some .GENDER_FEMININE, some .ANIMALITY_INANIMATE, some .GRADE_COMPARATIVE], 52),
   ([some .NUMBER_SINGULAR, some .CASE_ACCUSATIVE, some .GENDER_FEMININE, some .ANIMALITY_ANIMATE, some .GRADE_SUPERLATIVE], 68),
   ([some .NUMBER_SINGULAR, some .CASE_NOMINATIVE, some .GENDER_NEUTER, some .ANIMALITY_ANIMATE, some .GRADE_COMPARATIVE], 7),
   ([some .NUMBER_PLURAL, some .CASE_INSTRUMENTAL, none, some .ANIMALITY_ANIMATE, some .GRADE_COMPARATIVE], 133),
   ([some .NUMBER_SINGULAR, some .CASE_ACCUSATIVE, some .GENDER_NEUTER, some .ANIMALITY_INANIMATE, some .GRADE_COMPARATIVE], 64),
   ([some .NUMBER_SINGULAR, some .CASE_ACCUSATIVE, some .GENDER_FEMININE, some .ANIMALITY_INANIMATE, some .GRADE_SUPERLATIVE], 71),
   ([some .NUMBER_SINGULAR, some .CASE_ACCUSATIVE, some .GENDER_NEUTER, some .ANIMALITY_INANIMATE, some .GRADE_SUPERLATIVE], 65),
   ([some .NUMBER_SINGULAR, some .CASE_INSTRUMENTAL, some .GENDER_NEUTER, some .ANIMALITY_INANIMATE, some .GRADE_SUPERLATIVE], 83),
   ([some .NUMBER_SINGULAR, some .CASE_GENITIVE, some .GENDER_FEMININE, some .ANIMALITY_INANIMATE, some .GRADE_COMPARATIVE], 34),
   ([some .NUMBER_SINGULAR, some .CASE_PREPOSITIONAL, some .GENDER_FEMININE, some .ANIMALITY_ANIMATE, some .GRADE_COMPARATIVE], 103),
   ([some .NUMBER_PLURAL, some .CASE_GENITIVE, none, some .ANIMALITY_ANIMATE, some .GRADE_SUPERLATIVE], 116),
   ([some .NUMBER_SINGULAR, some .CASE_INSTRUMENTAL, some .GENDER_MASCULINE, some .ANIMALITY_ANIMATE, some .GRADE_SUPERLATIVE], 74),
   ([some .NUMBER_SINGULAR, some .CASE_DATIVE, some .GENDER_MASCULINE, some .ANIMALITY_INANIMATE, some .GRADE_POSITIVE], 39),
   ([some .NUMBER_SINGULAR, some .CASE_GENITIVE, some .GENDER_MASCULINE, some .ANIMALITY_ANIMATE, some .GRADE_COMPARATIVE], 19),
   ([some .NUMBER_SINGULAR, some .CASE_ACCUSATIVE, some .GENDER_MASCULINE, some .ANIMALITY_ANIMATE, some .GRADE_COMPARATIVE], 55),
   ([some .NUMBER_SINGULAR, some .CASE_PREPOSITIONAL, some .GENDER_NEUTER, some .ANIMALITY_INANIMATE, some .GRADE_POSITIVE], 99),
   ([some .NUMBER_PLURAL, some .CASE_ACCUSATIVE, none, some .ANIMALITY_ANIMATE, some .GRADE_POSITIVE], 126),
   ([some .NUMBER_SINGULAR, some .CASE_NOMINATIVE, some .GENDER_MASCULINE, some .ANIMALITY_INANIMATE, some .GRADE_COMPARATIVE], 4),
   ([some .NUMBER_SINGULAR, some .CASE_NOMINATIVE, some .GENDER_MASCULINE, some .ANIMALITY_INANIMATE, some .GRADE_SUPERLATIVE], 5),
   ([some .NUMBER_SINGULAR, some .CASE_DATIVE, some .GENDER_NEUTER, some .ANIMALITY_INANIMATE, some .GRADE_POSITIVE], 45),
   ([some .NUMBER_SINGULAR, some .CASE_PREPOSITIONAL, some .GENDER_NEUTER, some .ANIMALITY_ANIMATE, some .GRADE_SUPERLATIVE], 98),
   ([some .NUMBER_SINGULAR, some .CASE_GENITIVE, some .GENDER_MASCULINE, some .ANIMALITY_INANIMATE, some .GRADE_SUPERLATIVE], 23),
   ([some .NUMBER_SINGULAR, some .CASE_INSTRUMENTAL, some .GENDER_FEMININE, some .ANIMALITY_INANIMATE, some .GRADE_COMPARATIVE], 88),
   ([some .NUMBER_PLURAL, some .CASE_NOMINATIVE, none, some .ANIMALITY_ANIMATE, some .GRADE_POSITIVE], 108),
   ([some .NUMBER_SINGULAR, some .CASE_GENITIVE, some .GENDER_MASCULINE, some .ANIMALITY_ANIMATE, some .GRADE_SUPERLATIVE], 20),
   ([some .NUMBER_SINGULAR, some .CASE_ACCUSATIVE, some .GENDER_FEMININE, some .ANIMALITY_INANIMATE, some .GRADE_POSITIVE], 69),
   ([some .NUMBER_PLURAL, some .CASE_DATIVE, none, some .ANIMALITY_ANIMATE, some .GRADE_POSITIVE], 120),
   ([some .NUMBER_SINGULAR, some .CASE_DATIVE, some .GENDER_NEUTER, some .ANIMALITY_ANIMATE, some .GRADE_POSITIVE], 42),
   ([some .NUMBER_PLURAL, some .CASE_PREPOSITIONAL, none, some .ANIMALITY_INANIMATE, some .GRADE_SUPERLATIVE], 143),
   ([some .NUMBER_SINGULAR, some .CASE_GENITIVE, some .GENDER_NEUTER, some .ANIMALITY_ANIMATE, some .GRADE_POSITIVE], 24),
   ([some .NUMBER_PLURAL, some .CASE_GENITIVE, none, some .ANIMALITY_INANIMATE, some .GRADE_POSITIVE], 117),
   ([some .NUMBER_SINGULAR, some .CASE_NOMINATIVE, some .GENDER_MASCULINE, some .ANIMALITY_INANIMATE, some .GRADE_POSITIVE], 3),
   ([some .NUMBER_SINGULAR, some .CASE_DATIVE, some .GENDER_MASCULINE, some .ANIMALITY_ANIMATE, some .GRADE_POSITIVE], 36),
   ([some .NUMBER_SINGULAR, some .CASE_INSTRUMENTAL, some .GENDER_MASCULINE, some .ANIMALITY_ANIMATE, some .GRADE_POSITIVE], 72),
   ([some .NUMBER_PLURAL, some .CASE_GENITIVE, none, some .ANIMALITY_ANIMATE, some .GRADE_COMPARATIVE], 115),
   ([some .NUMBER_SINGULAR, some .CASE_PREPOSITIONAL, some .GENDER_MASCULINE, some .ANIMALITY_ANIMATE, some .GRADE_COMPARATIVE], 91),
   ([some .NUMBER_PLURAL, some .CASE_DATIVE, none, some .ANIMALITY_INANIMATE, some .GRADE_COMPARATIVE], 124),
   ([some .NUMBER_SINGULAR, some .CASE_PREPOSITIONAL, some .GENDER_FEMININE, some .ANIMALITY_INANIMATE, some .GRADE_POSITIVE], 105),
   ([some .NUMBER_PLURAL, some .CASE_ACCUSATIVE, none, some .ANIMALITY_ANIMATE, some .GRADE_SUPERLATIVE], 128),
   ([some .NUMBER_SINGULAR, some .CASE_PREPOSITIONAL, some .GENDER_NEUTER, some .ANIMALITY_INANIMATE, some .GRADE_SUPERLATIVE], 101),
   ([some .NUMBER_SINGULAR, some .CASE_GENITIVE, some .GENDER_FEMININE, some .ANIMALITY_ANIMATE, some .GRADE_COMPARATIVE], 31),
   ([some .NUMBER_SINGULAR, some .CASE_NOMINATIVE, some .GENDER_NEUTER, some .ANIMALITY_INANIMATE, some .GRADE_COMPARATIVE], 10),
   ([some .NUMBER_PLURAL, some .CASE_PREPOSITIONAL, none, some .ANIMALITY_INANIMATE, some .GRADE_COMPARATIVE], 142),
   ([some .NUMBER_SINGULAR, some .CASE_GENITIVE, some .GENDER_MASCULINE, some .ANIMALITY_INANIMATE, some .GRADE_POSITIVE], 21),
   ([some .NUMBER_SINGULAR, some .CASE_INSTRUMENTAL, some .GENDER_NEUTER, some .ANIMALITY_ANIMATE, some .GRADE_POSITIVE], 78),
   ([some .NUMBER_PLURAL, some .CASE_GENITIVE, none, some .ANIMALITY_INANIMATE, some .GRADE_SUPERLATIVE], 119),
   ([some .NUMBER_SINGULAR, some .CASE_NOMINATIVE, some .GENDER_NEUTER, some .ANIMALITY_ANIMATE, some .GRADE_SUPERLATIVE], 8),
   ([some .NUMBER_SINGULAR, some .CASE_NOMINATIVE, some .GENDER_FEMININE, some .ANIMALITY_ANIMATE, some .GRADE_SUPERLATIVE], 14),
   ([some .NUMBER_SINGULAR, some .CASE_NOMINATIVE, some .GENDER_FEMININE, some .ANIMALITY_INANIMATE, some .GRADE_POSITIVE], 15),
   ([some .NUMBER_SINGULAR, some .CASE_DATIVE, some .GENDER_MASCULINE, some .ANIMALITY_ANIMATE, some .GRADE_SUPERLATIVE], 38),
   ([some .NUMBER_SINGULAR, some .CASE_INSTRUMENTAL, some .GENDER_FEMININE, some .ANIMALITY_ANIMATE, some .GRADE_SUPERLATIVE], 86),
   ([some .NUMBER_PLURAL, some .CASE_NOMINATIVE, none, some .ANIMALITY_INANIMATE, some .GRADE_COMPARATIVE], 112),
   ([some .NUMBER_SINGULAR, some .CASE_ACCUSATIVE, some .GENDER_MASCULINE, some .ANIMALITY_ANIMATE, some .GRADE_SUPERLATIVE], 56),
   ([some .NUMBER_PLURAL, some .CASE_INSTRUMENTAL, none, some .ANIMALITY_INANIMATE, some .GRADE_SUPERLATIVE], 137),
   ([some .NUMBER_SINGULAR, some .CASE_INSTRUMENTAL, some .GENDER_MASCULINE, some .ANIMALITY_INANIMATE, some .GRADE_COMPARATIVE], 76),
   ([some .NUMBER_PLURAL, some .CASE_ACCUSATIVE, none, some .ANIMALITY_INANIMATE, some .GRADE_SUPERLATIVE], 131),
   ([some .NUMBER_PLURAL, some .CASE_ACCUSATIVE, none, some .ANIMALITY_INANIMATE, some .GRADE_COMPARATIVE], 130),
   ([some .NUMBER_SINGULAR, some .CASE_NOMINATIVE, some .GENDER_NEUTER, some .ANIMALITY_INANIMATE, some .GRADE_POSITIVE], 9),
   ([some .NUMBER_PLURAL, some .CASE_PREPOSITIONAL, none, some .ANIMALITY_ANIMATE, some .GRADE_POSITIVE], 138),
   ([some .NUMBER_SINGULAR, some .CASE_INSTRUMENTAL, some .GENDER_NEUTER, some .ANIMALITY_INANIMATE, some .GRADE_COMPARATIVE], 82),
   ([some .NUMBER_SINGULAR, some .CASE_DATIVE, some .GENDER_FEMININE, some .ANIMALITY_INANIMATE, some .GRADE_POSITIVE], 51),
   ([some .NUMBER_SINGULAR, some .CASE_ACCUSATIVE, some .GENDER_FEMININE, some .ANIMALITY_ANIMATE, some .GRADE_COMPARATIVE], 67),
   ([some .NUMBER_SINGULAR, some .CASE_NOMINATIVE, some .GENDER_NEUTER, some .ANIMALITY_ANIMATE, some .GRADE_POSITIVE], 6),
   ([some .NUMBER_SINGULAR, some .CASE_PREPOSITIONAL, some .GENDER_NEUTER, some .ANIMALITY_ANIMATE, some .GRADE_POSITIVE], 96),
   ([some .NUMBER_SINGULAR, some .CASE_ACCUSATIVE, some .GENDER_FEMININE, some .ANIMALITY_INANIMATE, some .GRADE_COMPARATIVE], 70),
   ([some .NUMBER_SINGULAR, some .CASE_INSTRUMENTAL, some .GENDER_NEUTER, some .ANIMALITY_ANIMATE, some .GRADE_SUPERLATIVE], 80),
   ([some .NUMBER_SINGULAR, some .CASE_INSTRUMENTAL, some .GENDER_NEUTER, some .ANIMALITY_INANIMATE, some .GRADE_POSITIVE], 81),
   ([some .NUMBER_SINGULAR, some .CASE_PREPOSITIONAL, some .GENDER_MASCULINE, some .ANIMALITY_INANIMATE, some .GRADE_COMPARATIVE], 94),
   ([some .NUMBER_SINGULAR, some .CASE_NOMINATIVE, some .GENDER_MASCULINE, some .ANIMALITY_ANIMATE, some .GRADE_POSITIVE], 0),
   ([some .NUMBER_SINGULAR, some .CASE_GENITIVE, some .GENDER_FEMININE, some .ANIMALITY_ANIMATE, some .GRADE_SUPERLATIVE], 32),
   ([some .NUMBER_SINGULAR, some .CASE_ACCUSATIVE, some .GENDER_MASCULINE, some .ANIMALITY_INANIMATE, some .GRADE_POSITIVE], 57),
   ([some .NUMBER_SINGULAR, some .CASE_ACCUSATIVE, some .GENDER_MASCULINE, some .ANIMALITY_ANIMATE, some .GRADE_POSITIVE], 54),
   ([some .NUMBER_PLURAL, some .CASE_INSTRUMENTAL, none, some .ANIMALITY_INANIMATE, some .GRADE_COMPARATIVE], 136),
   ([some .NUMBER_SINGULAR, some .CASE_GENITIVE, some .GENDER_NEUTER, some .ANIMALITY_INANIMATE, some .GRADE_SUPERLATIVE], 29),
   ([some .NUMBER_SINGULAR, some .CASE_DATIVE, some .GENDER_NEUTER, some .ANIMALITY_INANIMATE, some .GRADE_SUPERLATIVE], 47),
   ([some .NUMBER_SINGULAR, some .CASE_DATIVE, some .GENDER_NEUTER, some .ANIMALITY_INANIMATE, some .GRADE_COMPARATIVE], 46),
   ([some .NUMBER_SINGULAR, some .CASE_ACCUSATIVE, some .GENDER_NEUTER, some .ANIMALITY_ANIMATE, some .GRADE_POSITIVE], 60),
   ([some .NUMBER_PLURAL, some .CASE_NOMINATIVE, none, some .ANIMALITY_ANIMATE, some .GRADE_COMPARATIVE], 109),
   ([some .NUMBER_SINGULAR, some .CASE_INSTRUMENTAL, some .GENDER_FEMININE, some .ANIMALITY_ANIMATE, some .GRADE_POSITIVE], 84),
   ([some .NUMBER_PLURAL, some .CASE_DATIVE, none, some .ANIMALITY_ANIMATE, some .GRADE_SUPERLATIVE], 122),
   ([some .NUMBER_SINGULAR, some .CASE_DATIVE, some .GENDER_FEMININE, some .ANIMALITY_INANIMATE, some .GRADE_SUPERLATIVE], 53),
   ([some .NUMBER_PLURAL, some .CASE_PREPOSITIONAL, none, some .ANIMALITY_ANIMATE, some .GRADE_SUPERLATIVE], 140),
   ([some .NUMBER_PLURAL, some .CASE_DATIVE, none, some .ANIMALITY_ANIMATE, some .GRADE_COMPARATIVE], 121),
   ([some .NUMBER_SINGULAR, some .CASE_PREPOSITIONAL, some .GENDER_NEUTER, some .ANIMALITY_INANIMATE, some .GRADE_COMPARATIVE], 100),
   ([some .NUMBER_SINGULAR, some .CASE_DATIVE, some .GENDER_FEMININE, some .ANIMALITY_ANIMATE, some .GRADE_COMPARATIVE], 49),
   ([some .NUMBER_SINGULAR, some .CASE_GENITIVE, some .GENDER_NEUTER, some .ANIMALITY_ANIMATE, some .GRADE_COMPARATIVE], 25),
   ([some .NUMBER_PLURAL, some .CASE_GENITIVE, none, some .ANIMALITY_INANIMATE, some .GRADE_COMPARATIVE], 118)]

/-- `OLD_PARTICIPLE_CACHE` (utg/migrations/m_0001_include_short_forms_in_full.py:48). -/
def oldParticiple : Dict Key Nat :=
  [([some .TIME_PRESENT, some .VOICE_DIRECT, some .NUMBER_SINGULAR, some .CASE_INSTRUMENTAL, none, some .ANIMALITY_ANIMATE], 104),
   ([some .TIME_FUTURE, some .VOICE_DIRECT, some .NUMBER_PLURAL, some .CASE_NOMINATIVE, none, some .ANIMALITY_INANIMATE], 157),
   ([some .TIME_FUTURE, some .VOICE_REVERSE, some .NUMBER_SINGULAR, some .CASE_ACCUSATIVE, none, some .ANIMALITY_ANIMATE], 174),
   ([some .TIME_PRESENT, some .VOICE_REVERSE, some .NUMBER_SINGULAR, some .CASE_INSTRUMENTAL, none, some .ANIMALITY_INANIMATE], 129),
   ([some .TIME_PRESENT, some .VOICE_REVERSE, some .NUMBER_SINGULAR, some .CASE_ACCUSATIVE, none, some .ANIMALITY_ANIMATE], 126),
   ([some .TIME_PRESENT, some .VOICE_REVERSE, some .NUMBER_PLURAL, some .CASE_DATIVE, none, some .ANIMALITY_INANIMATE], 137),
   ([some .TIME_FUTURE, some .VOICE_DIRECT, some .NUMBER_SINGULAR, some .CASE_GENITIVE, none, some .ANIMALITY_INANIMATE], 147),
   ([some .TIME_PAST, some .VOICE_DIRECT, some .NUMBER_SINGULAR, some .CASE_PREPOSITIONAL, some .GENDER_FEMININE, some .ANIMALITY_INANIMATE], 35),
   ([some .TIME_FUTURE, some .VOICE_REVERSE, some .NUMBER_PLURAL, some .CASE_GENITIVE, none, some .ANIMALITY_ANIMATE], 182),
   ([some .TIME_PAST, some .VOICE_DIRECT, some .NUMBER_PLURAL, some .CASE_PREPOSITIONAL, none, some .ANIMALITY_INANIMATE], 47),
   ([some .TIME_PRESENT, some .VOICE_REVERSE, some .NUMBER_PLURAL, some .CASE_PREPOSITIONAL, none, some .ANIMALITY_ANIMATE], 142),
   ([some .TIME_PAST, some .VOICE_REVERSE, some .NUMBER_SINGULAR, some .CASE_ACCUSATIVE, some .GENDER_MASCULINE, some .ANIMALITY_ANIMATE], 66),
   ([some .TIME_PAST, some .VOICE_DIRECT, some .NUMBER_SINGULAR, some .CASE_NOMINATIVE, some .GENDER_FEMININE, some .ANIMALITY_INANIMATE], 5),
   ([some .TIME_PAST, some .VOICE_DIRECT, some .NUMBER_SINGULAR, some .CASE_ACCUSATIVE, some .GENDER_MASCULINE, some .ANIMALITY_ANIMATE], 18),
   ([some .TIME_PRESENT, some .VOICE_DIRECT, some .NUMBER_PLURAL, some .CASE_ACCUSATIVE, none, some .ANIMALITY_ANIMATE], 114),
   ([some .TIME_PAST, some .VOICE_REVERSE, some .NUMBER_PLURAL, some .CASE_GENITIVE, none, some .ANIMALITY_INANIMATE], 87),
   ([some .TIME_PAST, some .VOICE_DIRECT, some .NUMBER_PLURAL, some .CASE_INSTRUMENTAL, none, some .ANIMALITY_ANIMATE], 44),
   ([some .TIME_PRESENT, some .VOICE_DIRECT, some .NUMBER_PLURAL, some .CASE_DATIVE, none, some .ANIMALITY_INANIMATE], 113),
   ([some .TIME_PRESENT, some .VOICE_REVERSE, some .NUMBER_SINGULAR, some .CASE_ACCUSATIVE, none, some .ANIMALITY_INANIMATE], 127),
   ([some .TIME_PAST, some .VOICE_DIRECT, some .NUMBER_SINGULAR, some .CASE_NOMINATIVE, some .GENDER_FEMININE, some .ANIMALITY_ANIMATE], 4),
   ([some .TIME_PRESENT, some .VOICE_REVERSE, some .NUMBER_SINGULAR, some .CASE_NOMINATIVE, none, some .ANIMALITY_INANIMATE], 121),
   ([some .TIME_PAST, some .VOICE_REVERSE, some .NUMBER_SINGULAR, some .CASE_NOMINATIVE, some .GENDER_MASCULINE, some .ANIMALITY_INANIMATE], 49),
   ([some .TIME_PAST, some .VOICE_DIRECT, some .NUMBER_SINGULAR, some .CASE_ACCUSATIVE, some .GENDER_NEUTER, some .ANIMALITY_INANIMATE], 21),
   ([some .TIME_PRESENT, some .VOICE_DIRECT, some .NUMBER_PLURAL, some .CASE_GENITIVE, none, some .ANIMALITY_ANIMATE], 110),
   ([some .TIME_PAST, some .VOICE_DIRECT, some .NUMBER_SINGULAR, some .CASE_PREPOSITIONAL, some .GENDER_NEUTER, some .ANIMALITY_ANIMATE], 32),
   ([some .TIME_PAST, some .VOICE_REVERSE, some .NUMBER_PLURAL, some .CASE_INSTRUMENTAL, none, some .ANIMALITY_ANIMATE], 92),
   ([some .TIME_PAST, some .VOICE_DIRECT, some .NUMBER_SINGULAR, some .CASE_GENITIVE, some .GENDER_FEMININE, some .ANIMALITY_INANIMATE], 11),
   ([some .TIME_FUTURE, some .VOICE_REVERSE, some .NUMBER_SINGULAR, some .CASE_DATIVE, none, some .ANIMALITY_ANIMATE], 172),
   ([some .TIME_FUTURE, some .VOICE_DIRECT, some .NUMBER_SINGULAR, some .CASE_DATIVE, none, some .ANIMALITY_INANIMATE], 149),
   ([some .TIME_PAST, some .VOICE_DIRECT, some .NUMBER_SINGULAR, some .CASE_INSTRUMENTAL, some .GENDER_NEUTER, some .ANIMALITY_ANIMATE], 26),
   ([some .TIME_FUTURE, some .VOICE_DIRECT, some .NUMBER_PLURAL, some .CASE_INSTRUMENTAL, none, some .ANIMALITY_INANIMATE], 165),
   ([some .TIME_FUTURE, some .VOICE_DIRECT, some .NUMBER_PLURAL, some .CASE_PREPOSITIONAL, none, some .ANIMALITY_INANIMATE], 167),
   ([some .TIME_FUTURE, some .VOICE_DIRECT, some .NUMBER_SINGULAR, some .CASE_GENITIVE, none, some .ANIMALITY_ANIMATE], 146),
   ([some .TIME_PAST, some .VOICE_DIRECT, some .NUMBER_SINGULAR, some .CASE_GENITIVE, some .GENDER_MASCULINE, some .ANIMALITY_ANIMATE], 6),
   ([some .TIME_FUTURE, some .VOICE_REVERSE, some .NUMBER_PLURAL, some .CASE_ACCUSATIVE, none, some .ANIMALITY_ANIMATE], 186),
   ([some .TIME_FUTURE, some .VOICE_REVERSE, some .NUMBER_SINGULAR, some .CASE_INSTRUMENTAL, none, some .ANIMALITY_ANIMATE], 176),
   ([some .TIME_PAST, some .VOICE_REVERSE, some .NUMBER_SINGULAR, some .CASE_DATIVE, some .GENDER_NEUTER, some .ANIMALITY_INANIMATE], 63),
   ([some .TIME_PRESENT, some .VOICE_DIRECT, some .NUMBER_PLURAL, some .CASE_INSTRUMENTAL, none, some .ANIMALITY_ANIMATE], 116),
   ([some .TIME_PAST, some .VOICE_DIRECT, some .NUMBER_SINGULAR, some .CASE_ACCUSATIVE, some .GENDER_MASCULINE, some .ANIMALITY_INANIMATE], 19),
   ([some .TIME_PAST, some .VOICE_REVERSE, some .NUMBER_SINGULAR, some .CASE_PREPOSITIONAL, some .GENDER_MASCULINE, some .ANIMALITY_INANIMATE], 79),
   ([some .TIME_FUTURE, some .VOICE_REVERSE, some .NUMBER_PLURAL, some .CASE_DATIVE, none, some .ANIMALITY_INANIMATE], 185),
   ([some .TIME_PAST, some .VOICE_REVERSE, some .NUMBER_SINGULAR, some .CASE_INSTRUMENTAL, some .GENDER_MASCULINE, some .ANIMALITY_INANIMATE], 73),
   ([some .TIME_PRESENT, some .VOICE_REVERSE, some .NUMBER_SINGULAR, some .CASE_DATIVE, none, some .ANIMALITY_INANIMATE], 125),
   ([some .TIME_PAST, some .VOICE_REVERSE, some .NUMBER_SINGULAR, some .CASE_ACCUSATIVE, some .GENDER_FEMININE, some .ANIMALITY_INANIMATE], 71),
   ([some .TIME_PRESENT, some .VOICE_REVERSE, some .NUMBER_PLURAL, some .CASE_GENITIVE, none, some .ANIMALITY_INANIMATE], 135),
   ([some .TIME_FUTURE, some .VOICE_REVERSE, some .NUMBER_PLURAL, some .CASE_DATIVE, none, some .ANIMALITY_ANIMATE], 184),
   ([some .TIME_FUTURE, some .VOICE_REVERSE, some .NUMBER_PLURAL, some .CASE_INSTRUMENTAL, none, some .ANIMALITY_INANIMATE], 189),
   ([some .TIME_PRESENT, some .VOICE_REVERSE, some .NUMBER_PLURAL, some .CASE_ACCUSATIVE, none, some .ANIMALITY_ANIMATE], 138),
   ([some .TIME_FUTURE, some .VOICE_REVERSE, some .NUMBER_SINGULAR, some .CASE_PREPOSITIONAL, none, some .ANIMALITY_INANIMATE], 179),
   ([some .TIME_FUTURE, some .VOICE_DIRECT, some .NUMBER_SINGULAR, some .CASE_NOMINATIVE, none, some .ANIMALITY_INANIMATE], 145),
   ([some .TIME_FUTURE, some .VOICE_REVERSE, some .NUMBER_SINGULAR, some .CASE_GENITIVE, none, some .ANIMALITY_ANIMATE], 170),
   ([some .TIME_PAST, some .VOICE_DIRECT, some .NUMBER_SINGULAR, some .CASE_PREPOSITIONAL, some .GENDER_MASCULINE, some .ANIMALITY_INANIMATE], 31),
   ([some .TIME_PAST, some .VOICE_REVERSE, some .NUMBER_SINGULAR, some .CASE_GENITIVE, some .GENDER_FEMININE, some .ANIMALITY_ANIMATE], 58),
   ([some .TIME_PRESENT, some .VOICE_REVERSE, some .NUMBER_PLURAL, some .CASE_NOMINATIVE, none, some .ANIMALITY_ANIMATE], 132),
   ([some .TIME_PAST, some .VOICE_REVERSE, some .NUMBER_SINGULAR, some .CASE_DATIVE, some .GENDER_FEMININE, some .ANIMALITY_INANIMATE], 65),
   ([some .TIME_PAST, some .VOICE_REVERSE, some .NUMBER_SINGULAR, some .CASE_GENITIVE, some .GENDER_MASCULINE, some .ANIMALITY_INANIMATE], 55),
   ([some .TIME_PAST, some .VOICE_DIRECT, some .NUMBER_PLURAL, some .CASE_INSTRUMENTAL, none, some .ANIMALITY_INANIMATE], 45),
   ([some .TIME_PAST, some .VOICE_DIRECT, some .NUMBER_SINGULAR, some .CASE_INSTRUMENTAL, some .GENDER_NEUTER, some .ANIMALITY_INANIMATE], 27),
   ([some .TIME_PAST, some .VOICE_REVERSE, some .NUMBER_PLURAL, some .CASE_ACCUSATIVE, none, some .ANIMALITY_ANIMATE], 90),
   ([some .TIME_PAST, some .VOICE_REVERSE, some .NUMBER_SINGULAR, some .CASE_DATIVE, some .GENDER_MASCULINE, some .ANIMALITY_ANIMATE], 60),
   ([some .TIME_PRESENT, some .VOICE_DIRECT, some .NUMBER_SINGULAR, some .CASE_GENITIVE, none, some .ANIMALITY_ANIMATE], 98),
   ([some .TIME_PAST, some .VOICE_REVERSE, some .NUMBER_SINGULAR, some .CASE_ACCUSATIVE, some .GENDER_NEUTER, some .ANIMALITY_INANIMATE], 69),
   ([some .TIME_PAST, some .VOICE_REVERSE, some .NUMBER_SINGULAR, some .CASE_NOMINATIVE, some .GENDER_MASCULINE, some .ANIMALITY_ANIMATE], 48),
   ([some .TIME_PRESENT, some .VOICE_DIRECT, some .NUMBER_SINGULAR, some .CASE_GENITIVE, none, some .ANIMALITY_INANIMATE], 99),
   ([some .TIME_PRESENT, some .VOICE_REVERSE, some .NUMBER_PLURAL, some .CASE_DATIVE, none, some .ANIMALITY_ANIMATE], 136),
   ([some .TIME_FUTURE, some .VOICE_DIRECT, some .NUMBER_PLURAL, some .CASE_GENITIVE, none, some .ANIMALITY_ANIMATE], 158),
   ([some .TIME_FUTURE, some .VOICE_DIRECT, some .NUMBER_SINGULAR, some .CASE_INSTRUMENTAL, none, some .ANIMALITY_INANIMATE], 153),
   ([some .TIME_PAST, some .VOICE_DIRECT, some .NUMBER_SINGULAR, some .CASE_ACCUSATIVE, some .GENDER_FEMININE, some .ANIMALITY_ANIMATE], 22),
   ([some .TIME_FUTURE, some .VOICE_DIRECT, some .NUMBER_SINGULAR, some .CASE_PREPOSITIONAL, none, some .ANIMALITY_INANIMATE], 155),
   ([some .TIME_PRESENT, some .VOICE_DIRECT, some .NUMBER_SINGULAR, some .CASE_NOMINATIVE, none, some .ANIMALITY_ANIMATE], 96),
   ([some .TIME_PAST, some .VOICE_REVERSE, some .NUMBER_SINGULAR, some .CASE_INSTRUMENTAL, some .GENDER_FEMININE, some .ANIMALITY_ANIMATE], 76),
   ([some .TIME_PAST, some .VOICE_REVERSE, some .NUMBER_PLURAL, some .CASE_PREPOSITIONAL, none, some .ANIMALITY_ANIMATE], 94),
   ([some .TIME_PAST, some .VOICE_REVERSE, some .NUMBER_SINGULAR, some .CASE_ACCUSATIVE, some .GENDER_NEUTER, some .ANIMALITY_ANIMATE], 68),
   ([some .TIME_PAST, some .VOICE_DIRECT, some .NUMBER_PLURAL, some .CASE_NOMINATIVE, none, some .ANIMALITY_INANIMATE], 37),
   ([some .TIME_PAST, some .VOICE_DIRECT, some .NUMBER_SINGULAR, some .CASE_NOMINATIVE, some .GENDER_NEUTER, some .ANIMALITY_INANIMATE], 3),
   ([some .TIME_PRESENT, some .VOICE_REVERSE, some .NUMBER_PLURAL, some .CASE_ACCUSATIVE, none, some .ANIMALITY_INANIMATE], 139),
   ([some .TIME_PAST, some .VOICE_DIRECT, some .NUMBER_PLURAL, some .CASE_GENITIVE, none, some .ANIMALITY_INANIMATE], 39),
   ([some .TIME_PRESENT, some .VOICE_REVERSE, some .NUMBER_SINGULAR, some .CASE_DATIVE, none, some .ANIMALITY_ANIMATE], 124),
   ([some .TIME_PRESENT, some .VOICE_DIRECT, some .NUMBER_SINGULAR, some .CASE_PREPOSITIONAL, none, some .ANIMALITY_INANIMATE], 107),
   ([some .TIME_PAST, some .VOICE_REVERSE, some .NUMBER_SINGULAR, some .CASE_NOMINATIVE, some .GENDER_NEUTER, some .ANIMALITY_INANIMATE], 51),
   ([some .TIME_PAST, some .VOICE_REVERSE, some .NUMBER_PLURAL, some .CASE_GENITIVE, none, some .ANIMALITY_ANIMATE], 86),
   ([some .TIME_PAST, some .VOICE_DIRECT, some .NUMBER_SINGULAR, some .CASE_ACCUSATIVE, some .GENDER_NEUTER, some .ANIMALITY_ANIMATE], 20),
   ([some .TIME_PRESENT, some .VOICE_DIRECT, some .NUMBER_PLURAL, some .CASE_INSTRUMENTAL, none, some .ANIMALITY_INANIMATE], 117),
   ([some .TIME_PAST, some .VOICE_DIRECT, some .NUMBER_SINGULAR, some .CASE_INSTRUMENTAL, some .GENDER_FEMININE, some .ANIMALITY_ANIMATE], 28),
   ([some .TIME_PRESENT, some .VOICE_REVERSE, some .NUMBER_SINGULAR, some .CASE_PREPOSITIONAL, none, some .ANIMALITY_INANIMATE], 131),
   ([some .TIME_PAST, some .VOICE_REVERSE, some .NUMBER_SINGULAR, some .CASE_ACCUSATIVE, some .GENDER_FEMININE, some .ANIMALITY_ANIMATE], 70),
   ([some .TIME_PRESENT, some .VOICE_DIRECT, some .NUMBER_SINGULAR, some .CASE_DATIVE, none, some .ANIMALITY_ANIMATE], 100),
   ([some .TIME_PAST, some .VOICE_DIRECT, some .NUMBER_PLURAL, some .CASE_GENITIVE, none, some .ANIMALITY_ANIMATE], 38),
   ([some .TIME_PAST, some .VOICE_REVERSE, some .NUMBER_PLURAL, some .CASE_DATIVE, none, some .ANIMALITY_INANIMATE], 89),
   ([some .TIME_PAST, some .VOICE_DIRECT, some .NUMBER_PLURAL, some .CASE_DATIVE, none, some .ANIMALITY_INANIMATE], 41),
   ([some .TIME_PAST, some .VOICE_DIRECT, some .NUMBER_SINGULAR, some .CASE_NOMINATIVE, some .GENDER_MASCULINE, some .ANIMALITY_ANIMATE], 0),
   ([some .TIME_PAST, some .VOICE_REVERSE, some .NUMBER_PLURAL, some .CASE_INSTRUMENTAL, none, some .ANIMALITY_INANIMATE], 93),
   ([some .TIME_PAST, some .VOICE_DIRECT, some .NUMBER_SINGULAR, some .CASE_PREPOSITIONAL, some .GENDER_MASCULINE, some .ANIMALITY_ANIMATE], 30),
   ([some .TIME_PRESENT, some .VOICE_REVERSE, some .NUMBER_SINGULAR, some .CASE_INSTRUMENTAL, none, some .ANIMALITY_ANIMATE], 128),
   ([some .TIME_PAST, some .VOICE_DIRECT, some .NUMBER_SINGULAR, some .CASE_DATIVE, some .GENDER_MASCULINE, some .ANIMALITY_ANIMATE], 12),
   ([some .TIME_PAST, some .VOICE_REVERSE, some .NUMBER_SINGULAR, some .CASE_INSTRUMENTAL, some .GENDER_NEUTER, some .ANIMALITY_INANIMATE], 75),
   ([some .TIME_PRESENT, some .VOICE_REVERSE, some .NUMBER_SINGULAR, some .CASE_NOMINATIVE, none, some .ANIMALITY_ANIMATE], 120),
   ([some .TIME_PRESENT, some .VOICE_DIRECT, some .NUMBER_PLURAL, some .CASE_PREPOSITIONAL, none, some .ANIMALITY_INANIMATE], 119),
   ([some .TIME_PAST, some .VOICE_DIRECT, some .NUMBER_SINGULAR, some .CASE_GENITIVE, some .GENDER_MASCULINE, some .ANIMALITY_INANIMATE], 7),
   ([some .TIME_FUTURE, some .VOICE_REVERSE, some .NUMBER_SINGULAR, some .CASE_NOMINATIVE, none, some .ANIMALITY_ANIMATE], 168),
   ([some .TIME_PAST, some .VOICE_DIRECT, some .NUMBER_SINGULAR, some .CASE_DATIVE, some .GENDER_FEMININE, some .ANIMALITY_INANIMATE], 17),
   ([some .TIME_FUTURE, some .VOICE_DIRECT, some .NUMBER_SINGULAR, some .CASE_INSTRUMENTAL, none, some .ANIMALITY_ANIMATE], 152),
   ([some .TIME_FUTURE, some .VOICE_REVERSE, some .NUMBER_SINGULAR, some .CASE_NOMINATIVE, none, some .ANIMALITY_INANIMATE], 169),
   ([some .TIME_PAST, some .VOICE_DIRECT, some .NUMBER_SINGULAR, some .CASE_GENITIVE, some .GENDER_FEMININE, some .ANIMALITY_ANIMATE], 10),
   ([some .TIME_PRESENT, some .VOICE_REVERSE, some .NUMBER_SINGULAR, some .CASE_GENITIVE, none, some .ANIMALITY_INANIMATE], 123),
   ([some .TIME_FUTURE, some .VOICE_REVERSE, some .NUMBER_PLURAL, some .CASE_NOMINATIVE, none, some .ANIMALITY_ANIMATE], 180),
   ([some .TIME_PRESENT, some .VOICE_REVERSE, some .NUMBER_PLURAL, some .CASE_INSTRUMENTAL, none, some .ANIMALITY_INANIMATE], 141),
   ([some .TIME_PRESENT, some .VOICE_DIRECT, some .NUMBER_PLURAL, some .CASE_ACCUSATIVE, none, some .ANIMALITY_INANIMATE], 115),
   ([some .TIME_PRESENT, some .VOICE_REVERSE, some .NUMBER_SINGULAR, some .CASE_GENITIVE, none, some .ANIMALITY_ANIMATE], 122),
   ([some .TIME_FUTURE, some .VOICE_DIRECT, some .NUMBER_PLURAL, some .CASE_ACCUSATIVE, none, some .ANIMALITY_ANIMATE], 162),
   ([some .TIME_FUTURE, some .VOICE_REVERSE, some .NUMBER_PLURAL, some .CASE_GENITIVE, none, some .ANIMALITY_INANIMATE], 183),
   ([some .TIME_PAST, some .VOICE_DIRECT, some .NUMBER_SINGULAR, some .CASE_ACCUSATIVE, some .GENDER_FEMININE, some .ANIMALITY_INANIMATE], 23),
   ([some .TIME_PAST, some .VOICE_REVERSE, some .NUMBER_PLURAL, some .CASE_NOMINATIVE, none, some .ANIMALITY_INANIMATE], 85),
   ([some .TIME_PAST, some .VOICE_DIRECT, some .NUMBER_SINGULAR, some .CASE_INSTRUMENTAL, some .GENDER_MASCULINE, some .ANIMALITY_INANIMATE], 25),
   ([some .TIME_FUTURE, some .VOICE_DIRECT, some .NUMBER_PLURAL, some .CASE_DATIVE, none, some .ANIMALITY_INANIMATE], 161),
   ([some .TIME_FUTURE, some .VOICE_REVERSE, some .NUMBER_SINGULAR, some .CASE_ACCUSATIVE, none, some .ANIMALITY_INANIMATE], 175),
   ([some .TIME_FUTURE, some .VOICE_REVERSE, some .NUMBER_PLURAL, some .CASE_PREPOSITIONAL, none, some .ANIMALITY_ANIMATE], 190),
   ([some .TIME_PAST, some .VOICE_REVERSE, some .NUMBER_SINGULAR, some .CASE_ACCUSATIVE, some .GENDER_MASCULINE, some .ANIMALITY_INANIMATE], 67),
   ([some .TIME_PAST, some .VOICE_DIRECT, some .NUMBER_SINGULAR, some .CASE_DATIVE, some .GENDER_NEUTER, some .ANIMALITY_INANIMATE], 15),
   ([some .TIME_FUTURE, some .VOICE_REVERSE, some .NUMBER_SINGULAR, some .CASE_GENITIVE, none, some .ANIMALITY_INANIMATE], 171),
   ([some .TIME_PRESENT, some .VOICE_REVERSE, some .NUMBER_PLURAL, some .CASE_INSTRUMENTAL, none, some .ANIMALITY_ANIMATE], 140),
   ([some .TIME_PAST, some .VOICE_DIRECT, some .NUMBER_PLURAL, some .CASE_DATIVE, none, some .ANIMALITY_ANIMATE], 40),
   ([some .TIME_FUTURE, some .VOICE_REVERSE, some .NUMBER_PLURAL, some .CASE_INSTRUMENTAL, none, some .ANIMALITY_ANIMATE], 188),
   ([some .TIME_PAST, some .VOICE_REVERSE, some .NUMBER_SINGULAR, some .CASE_GENITIVE, some .GENDER_MASCULINE, some .ANIMALITY_ANIMATE], 54),
   ([some .TIME_PRESENT, some .VOICE_DIRECT, some .NUMBER_SINGULAR, some .CASE_DATIVE, none, some .ANIMALITY_INANIMATE], 101),
   ([some .TIME_PAST, some .VOICE_REVERSE, some .NUMBER_SINGULAR, some .CASE_INSTRUMENTAL, some .GENDER_NEUTER, some .ANIMALITY_ANIMATE], 74),
   ([some .TIME_PAST, some .VOICE_REVERSE, some .NUMBER_SINGULAR, some .CASE_GENITIVE, some .GENDER_FEMININE, some .ANIMALITY_INANIMATE], 59),
   ([some .TIME_FUTURE, some .VOICE_DIRECT, some .NUMBER_SINGULAR, some .CASE_ACCUSATIVE, none, some .ANIMALITY_INANIMATE], 151),
   ([some .TIME_PAST, some .VOICE_DIRECT, some .NUMBER_SINGULAR, some .CASE_NOMINATIVE, some .GENDER_MASCULINE, some .ANIMALITY_INANIMATE], 1),
   ([some .TIME_PRESENT, some .VOICE_DIRECT, some .NUMBER_PLURAL, some .CASE_DATIVE, none, some .ANIMALITY_ANIMATE], 112),
   ([some .TIME_FUTURE, some .VOICE_DIRECT, some .NUMBER_SINGULAR, some .CASE_ACCUSATIVE, none, some .ANIMALITY_ANIMATE], 150),
   ([some .TIME_PAST, some .VOICE_REVERSE, some .NUMBER_SINGULAR, some .CASE_NOMINATIVE, some .GENDER_FEMININE, some .ANIMALITY_ANIMATE], 52),
   ([some .TIME_FUTURE, some .VOICE_DIRECT, some .NUMBER_PLURAL, some .CASE_PREPOSITIONAL, none, some .ANIMALITY_ANIMATE], 166),
   ([some .TIME_PRESENT, some .VOICE_DIRECT, some .NUMBER_PLURAL, some .CASE_NOMINATIVE, none, some .ANIMALITY_ANIMATE], 108),
   ([some .TIME_FUTURE, some .VOICE_REVERSE, some .NUMBER_SINGULAR, some .CASE_DATIVE, none, some .ANIMALITY_INANIMATE], 173),
   ([some .TIME_PAST, some .VOICE_REVERSE, some .NUMBER_SINGULAR, some .CASE_NOMINATIVE, some .GENDER_FEMININE, some .ANIMALITY_INANIMATE], 53),
   ([some .TIME_FUTURE, some .VOICE_DIRECT, some .NUMBER_PLURAL, some .CASE_INSTRUMENTAL, none, some .ANIMALITY_ANIMATE], 164),
   ([some .TIME_PAST, some .VOICE_DIRECT, some .NUMBER_SINGULAR, some .CASE_PREPOSITIONAL, some .GENDER_NEUTER, some .ANIMALITY_INANIMATE], 33),
   ([some .TIME_PAST, some .VOICE_REVERSE, some .NUMBER_SINGULAR, some .CASE_PREPOSITIONAL, some .GENDER_NEUTER, some .ANIMALITY_ANIMATE], 80),
   ([some .TIME_PRESENT, some .VOICE_DIRECT, some .NUMBER_PLURAL, some .CASE_PREPOSITIONAL, none, some .ANIMALITY_ANIMATE], 118),
   ([some .TIME_PAST, some .VOICE_DIRECT, some .NUMBER_PLURAL, some .CASE_NOMINATIVE, none, some .ANIMALITY_ANIMATE], 36),
   ([some .TIME_PRESENT, some .VOICE_DIRECT, some .NUMBER_PLURAL, some .CASE_GENITIVE, none, some .ANIMALITY_INANIMATE], 111),
   ([some .TIME_PAST, some .VOICE_REVERSE, some .NUMBER_SINGULAR, some .CASE_PREPOSITIONAL, some .GENDER_FEMININE, some .ANIMALITY_INANIMATE], 83),
   ([some .TIME_PRESENT, some .VOICE_DIRECT, some .NUMBER_SINGULAR, some .CASE_NOMINATIVE, none, some .ANIMALITY_INANIMATE], 97),
   ([some .TIME_FUTURE, some .VOICE_REVERSE, some .NUMBER_PLURAL, some .CASE_NOMINATIVE, none, some .ANIMALITY_INANIMATE], 181),
   ([some .TIME_PAST, some .VOICE_REVERSE, some .NUMBER_SINGULAR, some .CASE_PREPOSITIONAL, some .GENDER_NEUTER, some .ANIMALITY_INANIMATE], 81),
   ([some .TIME_PRESENT, some .VOICE_DIRECT, some .NUMBER_SINGULAR, some .CASE_ACCUSATIVE, none, some .ANIMALITY_INANIMATE], 103),
   ([some .TIME_PAST, some .VOICE_REVERSE, some .NUMBER_SINGULAR, some .CASE_PREPOSITIONAL, some .GENDER_MASCULINE, some .ANIMALITY_ANIMATE], 78),
   ([some .TIME_PAST, some .VOICE_REVERSE, some .NUMBER_PLURAL, some .CASE_NOMINATIVE, none, some .ANIMALITY_ANIMATE], 84),
   ([some .TIME_PAST, some .VOICE_REVERSE, some .NUMBER_PLURAL, some .CASE_PREPOSITIONAL, none, some .ANIMALITY_INANIMATE], 95),
   ([some .TIME_FUTURE, some .VOICE_DIRECT, some .NUMBER_PLURAL, some .CASE_GENITIVE, none, some .ANIMALITY_INANIMATE], 159),
   ([some .TIME_PAST, some .VOICE_DIRECT, some .NUMBER_SINGULAR, some .CASE_NOMINATIVE, some .GENDER_NEUTER, some .ANIMALITY_ANIMATE], 2),
   ([some .TIME_FUTURE, some .VOICE_REVERSE, some .NUMBER_PLURAL, some .CASE_PREPOSITIONAL, none, some .ANIMALITY_INANIMATE], 191),
   ([some .TIME_FUTURE, some .VOICE_DIRECT, some .NUMBER_PLURAL, some .CASE_ACCUSATIVE, none, some .ANIMALITY_INANIMATE], 163),
   ([some .TIME_FUTURE, some .VOICE_DIRECT, some .NUMBER_SINGULAR, some .CASE_PREPOSITIONAL, none, some .ANIMALITY_ANIMATE], 154),
   ([some .TIME_PAST, some .VOICE_DIRECT, some .NUMBER_SINGULAR, some .CASE_DATIVE, some .GENDER_NEUTER, some .ANIMALITY_ANIMATE], 14),
   ([some .TIME_PAST, some .VOICE_DIRECT, some .NUMBER_PLURAL, some .CASE_PREPOSITIONAL, none, some .ANIMALITY_ANIMATE], 46),
   ([some .TIME_PAST, some .VOICE_REVERSE, some .NUMBER_SINGULAR, some .CASE_INSTRUMENTAL, some .GENDER_FEMININE, some .ANIMALITY_INANIMATE], 77),
   ([some .TIME_PRESENT, some .VOICE_DIRECT, some .NUMBER_PLURAL, some .CASE_NOMINATIVE, none, some .ANIMALITY_INANIMATE], 109),
   ([some .TIME_PAST, some .VOICE_DIRECT, some .NUMBER_SINGULAR, some .CASE_GENITIVE, some .GENDER_NEUTER, some .ANIMALITY_INANIMATE], 9),
   ([some .TIME_FUTURE, some .VOICE_REVERSE, some .NUMBER_PLURAL, some .CASE_ACCUSATIVE, none, some .ANIMALITY_INANIMATE], 187),
   ([some .TIME_PAST, some .VOICE_REVERSE, some .NUMBER_PLURAL, some .CASE_ACCUSATIVE, none, some .ANIMALITY_INANIMATE], 91),
   ([some .TIME_PAST, some .VOICE_DIRECT, some .NUMBER_SINGULAR, some .CASE_INSTRUMENTAL, some .GENDER_MASCULINE, some .ANIMALITY_ANIMATE], 24),
   ([some .TIME_FUTURE, some .VOICE_DIRECT, some .NUMBER_PLURAL, some .CASE_NOMINATIVE, none, some .ANIMALITY_ANIMATE], 156),
   ([some .TIME_PRESENT, some .VOICE_DIRECT, some .NUMBER_SINGULAR, some .CASE_ACCUSATIVE, none, some .ANIMALITY_ANIMATE], 102),
   ([some .TIME_PAST, some .VOICE_DIRECT, some .NUMBER_SINGULAR, some .CASE_GENITIVE, some .GENDER_NEUTER, some .ANIMALITY_ANIMATE], 8),
   ([some .TIME_PRESENT, some .VOICE_DIRECT, some .NUMBER_SINGULAR, some .CASE_INSTRUMENTAL, none, some .ANIMALITY_INANIMATE], 105),
   ([some .TIME_FUTURE, some .VOICE_DIRECT, some .NUMBER_SINGULAR, some .CASE_NOMINATIVE, none, some .ANIMALITY_ANIMATE], 144),
   ([some .TIME_PAST, some .VOICE_REVERSE, some .NUMBER_SINGULAR, some .CASE_DATIVE, some .GENDER_MASCULINE, some .ANIMALITY_INANIMATE], 61),
   ([some .TIME_PAST, some .VOICE_DIRECT, some .NUMBER_SINGULAR, some .CASE_PREPOSITIONAL, some .GENDER_FEMININE, some .ANIMALITY_ANIMATE], 34),
   ([some .TIME_PAST, some .VOICE_REVERSE, some .NUMBER_PLURAL, some .CASE_DATIVE, none, some .ANIMALITY_ANIMATE], 88),
   ([some .TIME_PAST, some .VOICE_DIRECT, some .NUMBER_SINGULAR, some .CASE_DATIVE, some .GENDER_FEMININE, some .ANIMALITY_ANIMATE], 16),
   ([some .TIME_PAST, some .VOICE_REVERSE, some .NUMBER_SINGULAR, some .CASE_DATIVE, some .GENDER_FEMININE, some .ANIMALITY_ANIMATE], 64),
   ([some .TIME_FUTURE, some .VOICE_REVERSE, some .NUMBER_SINGULAR, some .CASE_PREPOSITIONAL, none, some .ANIMALITY_ANIMATE], 178),
   ([some .TIME_PAST, some .VOICE_REVERSE, some .NUMBER_SINGULAR, some .CASE_PREPOSITIONAL, some .GENDER_FEMININE, some .ANIMALITY_ANIMATE], 82),
   ([some .TIME_PRESENT, some .VOICE_REVERSE, some .NUMBER_SINGULAR, some .CASE_PREPOSITIONAL, none, some .ANIMALITY_ANIMATE], 130),
   ([some .TIME_PAST, some .VOICE_DIRECT, some .NUMBER_SINGULAR, some .CASE_DATIVE, some .GENDER_MASCULINE, some .ANIMALITY_INANIMATE], 13),
   ([some .TIME_PAST, some .VOICE_DIRECT, some .NUMBER_PLURAL, some .CASE_ACCUSATIVE, none, some .ANIMALITY_ANIMATE], 42),
   ([some .TIME_PRESENT, some .VOICE_REVERSE, some .NUMBER_PLURAL, some .CASE_PREPOSITIONAL, none, some .ANIMALITY_INANIMATE], 143),
   ([some .TIME_PRESENT, some .VOICE_REVERSE, some .NUMBER_PLURAL, some .CASE_NOMINATIVE, none, some .ANIMALITY_INANIMATE], 133),
   ([some .TIME_FUTURE, some .VOICE_REVERSE, some .NUMBER_SINGULAR, some .CASE_INSTRUMENTAL, none, some .ANIMALITY_INANIMATE], 177),
   ([some .TIME_PAST, some .VOICE_DIRECT, some .NUMBER_PLURAL, some .CASE_ACCUSATIVE, none, some .ANIMALITY_INANIMATE], 43),
   ([some .TIME_PAST, some .VOICE_REVERSE, some .NUMBER_SINGULAR, some .CASE_GENITIVE, some .GENDER_NEUTER, some .ANIMALITY_ANIMATE], 56),
   ([some .TIME_PRESENT, some .VOICE_DIRECT, some .NUMBER_SINGULAR, some .CASE_PREPOSITIONAL, none, some .ANIMALITY_ANIMATE], 106),
   ([some .TIME_PRESENT, some .VOICE_REVERSE, some .NUMBER_PLURAL, some .CASE_GENITIVE, none, some .ANIMALITY_ANIMATE], 134),
   ([some .TIME_PAST, some .VOICE_REVERSE, some .NUMBER_SINGULAR, some .CASE_INSTRUMENTAL, some .GENDER_MASCULINE, some .ANIMALITY_ANIMATE], 72),
   ([some .TIME_PAST, some .VOICE_REVERSE, some .NUMBER_SINGULAR, some .CASE_GENITIVE, some .GENDER_NEUTER, some .ANIMALITY_INANIMATE], 57),
   ([some .TIME_PAST, some .VOICE_DIRECT, some .NUMBER_SINGULAR, some .CASE_INSTRUMENTAL, some .GENDER_FEMININE, some .ANIMALITY_INANIMATE], 29),
   ([some .TIME_FUTURE, some .VOICE_DIRECT, some .NUMBER_SINGULAR, some .CASE_DATIVE, none, some .ANIMALITY_ANIMATE], 148),
   ([some .TIME_PAST, some .VOICE_REVERSE, some .NUMBER_SINGULAR, some .CASE_DATIVE, some .GENDER_NEUTER, some .ANIMALITY_ANIMATE], 62),
   ([some .TIME_FUTURE, some .VOICE_DIRECT, some .NUMBER_PLURAL, some .CASE_DATIVE, none, some .ANIMALITY_ANIMATE], 160),
   ([some .TIME_PAST, some .VOICE_REVERSE, some .NUMBER_SINGULAR, some .CASE_NOMINATIVE, some .GENDER_NEUTER, some .ANIMALITY_ANIMATE], 50)]

end Utg.M0001
