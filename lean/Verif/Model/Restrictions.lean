import Verif.Model.Logic
/-!
# `utg/restrictions.py`
-/

namespace Utg

/-- `RESTRICTIONS` (utg/restrictions.py:6-25). -/
def RESTRICTIONS : WordType → Restrictions
  | .NOUN => [(.NUMBER_PLURAL, [.GENDER])]                                                          -- line 7
  | .ADJECTIVE => [(.NUMBER_PLURAL, [.GENDER]),                                                     -- line 8
                   (.ADJECTIVE_CATEGORY_RELATIVE, [.GRADE]),                                        -- line 9
                   (.ADJECTIVE_CATEGORY_POSSESSIVE, [.GRADE]),                                      -- line 10
                   (.ADJECTIVE_FORM_SHORT, [.CASE, .ANIMALITY, .GRADE]),                            -- line 11
                   (.GRADE_COMPARATIVE, [.NUMBER, .CASE, .GENDER, .ANIMALITY])]                     -- line 12
  | .PRONOUN => [(.NUMBER_PLURAL, [.GENDER])]                                                       -- line 13
  | .VERB => [(.VERB_FORM_INFINITIVE, [.TIME, .PERSON, .NUMBER, .GENDER]),                          -- line 14
              (.VERB_FORM_IMPERATIVE, [.TIME, .GENDER]),                                            -- line 16
              (.NUMBER_PLURAL, [.GENDER]),                                                          -- line 17
              (.TIME_PAST, [.PERSON]),                                                              -- line 18
              (.TIME_PRESENT, [.GENDER]),                                                           -- line 19
              (.TIME_FUTURE, [.GENDER])]                                                            -- line 20
  | .PARTICIPLE => [(.NUMBER_PLURAL, [.GENDER]),                                                    -- line 21
                    (.PARTICIPLE_FORM_SHORT, [.TIME, .VOICE, .CASE, .ANIMALITY])]                   -- line 22
  | .INTEGER => []                                                                                  -- line 23
  | .TEXT => []                                                                                     -- line 24
  | .PREPOSITION => []                                                                              -- line 25

/-- `RESTRICTED_KEY_PARTS.get(word_type, ())` (utg/restrictions.py:28-32, utg/logic.py:79). -/
def RESTRICTED_KEY_PARTS : WordType → List (List Rec)
  | .NOUN => [[.NOUN_FORM_COUNTABLE, .NUMBER_SINGULAR]]                                             -- line 29
  | .VERB => [[.VERB_FORM_IMPERATIVE, .PERSON_THIRD],                                               -- line 30
              [.VERB_FORM_IMPERATIVE, .PERSON_FIRST, .NUMBER_SINGULAR]]                             -- line 31
  | _ => []

/-- `PRESETS` (utg/restrictions.py:35). -/
def PRESETS : List (Rec × Rec) := [(.NOUN_FORM_COUNTABLE, .NUMBER_PLURAL)]

end Utg
