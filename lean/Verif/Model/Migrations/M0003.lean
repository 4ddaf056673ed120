import Verif.Model.Migrations.OldRec
/-!
# The key tables of `utg/migrations/m_0003_change_verb_forms.py`

Generated by `tools/gen_migrations.py` from the text of the source (regular expressions only), then read against it.
-/

namespace Utg.M0003
open Py

/-- `OLD_VERB_CACHE` (utg/migrations/m_0003_change_verb_forms.py:30). -/
def oldVerb : Dict OldKey Nat :=
  [([some .VERB_FORM_CONDITIONAL, some (.cur .TIME_FUTURE), some (.cur .NUMBER_PLURAL), some (.cur .PERSON_SECOND), none], 32),
   ([some (.cur .VERB_FORM_INDICATIVE), some (.cur .TIME_PAST), some (.cur .NUMBER_SINGULAR), none, some (.cur .GENDER_FEMININE)], 7),
   ([some (.cur .VERB_FORM_IMPERATIVE), some (.cur .TIME_FUTURE), some (.cur .NUMBER_SINGULAR), some (.cur .PERSON_THIRD), none], 27),
   ([some .VERB_FORM_CONDITIONAL, some (.cur .TIME_PAST), some (.cur .NUMBER_PLURAL), none, none], 11),
   ([some (.cur .VERB_FORM_IMPERATIVE), some (.cur .TIME_FUTURE), some (.cur .NUMBER_PLURAL), some (.cur .PERSON_FIRST), none], 30),
   ([some (.cur .VERB_FORM_IMPERATIVE), some (.cur .TIME_PRESENT), some (.cur .NUMBER_PLURAL), some (.cur .PERSON_FIRST), none], 16),
   ([some (.cur .VERB_FORM_INDICATIVE), some (.cur .TIME_FUTURE), some (.cur .NUMBER_SINGULAR), some (.cur .PERSON_SECOND), none], 22),
   ([some (.cur .VERB_FORM_IMPERATIVE), some (.cur .TIME_PAST), some (.cur .NUMBER_PLURAL), none, none], 12),
   ([some (.cur .VERB_FORM_IMPERATIVE), some (.cur .TIME_FUTURE), some (.cur .NUMBER_PLURAL), some (.cur .PERSON_SECOND), none], 33),
   ([some (.cur .VERB_FORM_IMPERATIVE), some (.cur .TIME_PRESENT), some (.cur .NUMBER_SINGULAR), some (.cur .PERSON_THIRD), none], 15),
   ([some (.cur .VERB_FORM_INDICATIVE), some (.cur .TIME_FUTURE), some (.cur .NUMBER_SINGULAR), some (.cur .PERSON_FIRST), none], 19),
   ([some (.cur .VERB_FORM_IMPERATIVE), some (.cur .TIME_PRESENT), some (.cur .NUMBER_SINGULAR), some (.cur .PERSON_FIRST), none], 13),
   ([some .VERB_FORM_CONDITIONAL, some (.cur .TIME_PAST), some (.cur .NUMBER_SINGULAR), none, some (.cur .GENDER_MASCULINE)], 2),
   ([some .VERB_FORM_CONDITIONAL, some (.cur .TIME_FUTURE), some (.cur .NUMBER_PLURAL), some (.cur .PERSON_FIRST), none], 29),
   ([some .VERB_FORM_CONDITIONAL, some (.cur .TIME_PAST), some (.cur .NUMBER_SINGULAR), none, some (.cur .GENDER_NEUTER)], 5),
   ([some (.cur .VERB_FORM_INDICATIVE), some (.cur .TIME_PAST), some (.cur .NUMBER_PLURAL), none, none], 10),
   ([some (.cur .VERB_FORM_IMPERATIVE), some (.cur .TIME_FUTURE), some (.cur .NUMBER_PLURAL), some (.cur .PERSON_THIRD), none], 36),
   ([some (.cur .VERB_FORM_INDICATIVE), some (.cur .TIME_FUTURE), some (.cur .NUMBER_SINGULAR), some (.cur .PERSON_THIRD), none], 25),
   ([some .VERB_FORM_CONDITIONAL, some (.cur .TIME_FUTURE), some (.cur .NUMBER_SINGULAR), some (.cur .PERSON_FIRST), none], 20),
   ([some (.cur .VERB_FORM_IMPERATIVE), some (.cur .TIME_PRESENT), some (.cur .NUMBER_PLURAL), some (.cur .PERSON_THIRD), none], 18),
   ([some (.cur .VERB_FORM_IMPERATIVE), some (.cur .TIME_PAST), some (.cur .NUMBER_SINGULAR), none, some (.cur .GENDER_MASCULINE)], 3),
   ([some .VERB_FORM_CONDITIONAL, some (.cur .TIME_PAST), some (.cur .NUMBER_SINGULAR), none, some (.cur .GENDER_FEMININE)], 8),
   ([some (.cur .VERB_FORM_INFINITIVE), none, none, none, none], 0),
   ([some (.cur .VERB_FORM_IMPERATIVE), some (.cur .TIME_FUTURE), some (.cur .NUMBER_SINGULAR), some (.cur .PERSON_SECOND), none], 24),
   ([some (.cur .VERB_FORM_IMPERATIVE), some (.cur .TIME_PRESENT), some (.cur .NUMBER_SINGULAR), some (.cur .PERSON_SECOND), none], 14),
   ([some .VERB_FORM_CONDITIONAL, some (.cur .TIME_FUTURE), some (.cur .NUMBER_PLURAL), some (.cur .PERSON_THIRD), none], 35),
   ([some (.cur .VERB_FORM_INDICATIVE), some (.cur .TIME_FUTURE), some (.cur .NUMBER_PLURAL), some (.cur .PERSON_FIRST), none], 28),
   ([some (.cur .VERB_FORM_IMPERATIVE), some (.cur .TIME_FUTURE), some (.cur .NUMBER_SINGULAR), some (.cur .PERSON_FIRST), none], 21),
   ([some (.cur .VERB_FORM_IMPERATIVE), some (.cur .TIME_PAST), some (.cur .NUMBER_SINGULAR), none, some (.cur .GENDER_NEUTER)], 6),
   ([some (.cur .VERB_FORM_INDICATIVE), some (.cur .TIME_FUTURE), some (.cur .NUMBER_PLURAL), some (.cur .PERSON_SECOND), none], 31),
   ([some (.cur .VERB_FORM_IMPERATIVE), some (.cur .TIME_PRESENT), some (.cur .NUMBER_PLURAL), some (.cur .PERSON_SECOND), none], 17),
   ([some .VERB_FORM_CONDITIONAL, some (.cur .TIME_FUTURE), some (.cur .NUMBER_SINGULAR), some (.cur .PERSON_THIRD), none], 26),
   ([some .VERB_FORM_CONDITIONAL, some (.cur .TIME_FUTURE), some (.cur .NUMBER_SINGULAR), some (.cur .PERSON_SECOND), none], 23),
   ([some (.cur .VERB_FORM_INDICATIVE), some (.cur .TIME_PAST), some (.cur .NUMBER_SINGULAR), none, some (.cur .GENDER_MASCULINE)], 1),
   ([some (.cur .VERB_FORM_INDICATIVE), some (.cur .TIME_FUTURE), some (.cur .NUMBER_PLURAL), some (.cur .PERSON_THIRD), none], 34),
   ([some (.cur .VERB_FORM_INDICATIVE), some (.cur .TIME_PAST), some (.cur .NUMBER_SINGULAR), none, some (.cur .GENDER_NEUTER)], 4),
   ([some (.cur .VERB_FORM_IMPERATIVE), some (.cur .TIME_PAST), some (.cur .NUMBER_SINGULAR), none, some (.cur .GENDER_FEMININE)], 9)]

end Utg.M0003
