import Verif.Model.Data
/-!
# `logic.pretty_format_current_keys_cache` (utg/logic.py:167-172)

The text is made by `pprint.pformat` of the standard library, modelled here for dictionaries of dictionaries with tuples of records as keys
and integers as values. `pprint` sorts the items of a dictionary by comparing its keys; how records of `rels` compare is not modelled: the two
sorting functions are parameters. The names below are printed by `tools/gen_names.py`.
-/

namespace Utg
open Py

/-- The name of the class of a relation (utg/relations.py:10-118). -/
def Group.name : Group → Str
  | .CASE => str! "CASE"  -- line 10
  | .ANIMALITY => str! "ANIMALITY"  -- line 19
  | .NUMBER => str! "NUMBER"  -- line 23
  | .GENDER => str! "GENDER"  -- line 27
  | .VERB_FORM => str! "VERB_FORM"  -- line 32
  | .VOICE => str! "VOICE"  -- line 38
  | .TIME => str! "TIME"  -- line 42
  | .PERSON => str! "PERSON"  -- line 47
  | .ASPECT => str! "ASPECT"  -- line 52
  | .ADJECTIVE_CATEGORY => str! "ADJECTIVE_CATEGORY"  -- line 56
  | .GRADE => str! "GRADE"  -- line 61
  | .PRONOUN_CATEGORY => str! "PRONOUN_CATEGORY"  -- line 67
  | .INTEGER_FORM => str! "INTEGER_FORM"  -- line 80
  | .NOUN_FORM => str! "NOUN_FORM"  -- line 87
  | .ADJECTIVE_FORM => str! "ADJECTIVE_FORM"  -- line 91
  | .PARTICIPLE_FORM => str! "PARTICIPLE_FORM"  -- line 95
  | .WORD_CASE => str! "WORD_CASE"  -- line 100
  | .DEPENDENCY_MODE => str! "DEPENDENCY_MODE"  -- line 104
  | .PREPOSITION_FORM => str! "PREPOSITION_FORM"  -- line 109
  | .WORD_TYPE => str! "WORD_TYPE"  -- line 115

/-- The name of a record: first column (utg/relations.py:10-126). -/
def Rec.name : Rec → Str
  | .CASE_NOMINATIVE => str! "NOMINATIVE"  -- line 11
  | .CASE_GENITIVE => str! "GENITIVE"  -- line 12
  | .CASE_DATIVE => str! "DATIVE"  -- line 13
  | .CASE_ACCUSATIVE => str! "ACCUSATIVE"  -- line 14
  | .CASE_INSTRUMENTAL => str! "INSTRUMENTAL"  -- line 15
  | .CASE_PREPOSITIONAL => str! "PREPOSITIONAL"  -- line 16
  | .ANIMALITY_ANIMATE => str! "ANIMATE"  -- line 20
  | .ANIMALITY_INANIMATE => str! "INANIMATE"  -- line 21
  | .NUMBER_SINGULAR => str! "SINGULAR"  -- line 24
  | .NUMBER_PLURAL => str! "PLURAL"  -- line 25
  | .GENDER_MASCULINE => str! "MASCULINE"  -- line 28
  | .GENDER_NEUTER => str! "NEUTER"  -- line 29
  | .GENDER_FEMININE => str! "FEMININE"  -- line 30
  | .VERB_FORM_INFINITIVE => str! "INFINITIVE"  -- line 33
  | .VERB_FORM_INDICATIVE => str! "INDICATIVE"  -- line 34
  | .VERB_FORM_IMPERATIVE => str! "IMPERATIVE"  -- line 36
  | .VOICE_DIRECT => str! "DIRECT"  -- line 39
  | .VOICE_REVERSE => str! "REVERSE"  -- line 40
  | .TIME_PAST => str! "PAST"  -- line 43
  | .TIME_PRESENT => str! "PRESENT"  -- line 44
  | .TIME_FUTURE => str! "FUTURE"  -- line 45
  | .PERSON_FIRST => str! "FIRST"  -- line 48
  | .PERSON_SECOND => str! "SECOND"  -- line 49
  | .PERSON_THIRD => str! "THIRD"  -- line 50
  | .ASPECT_IMPERFECTIVE => str! "IMPERFECTIVE"  -- line 53
  | .ASPECT_PERFECTIVE => str! "PERFECTIVE"  -- line 54
  | .ADJECTIVE_CATEGORY_QUALITY => str! "QUALITY"  -- line 57
  | .ADJECTIVE_CATEGORY_RELATIVE => str! "RELATIVE"  -- line 58
  | .ADJECTIVE_CATEGORY_POSSESSIVE => str! "POSSESSIVE"  -- line 59
  | .GRADE_POSITIVE => str! "POSITIVE"  -- line 62
  | .GRADE_COMPARATIVE => str! "COMPARATIVE"  -- line 63
  | .GRADE_SUPERLATIVE => str! "SUPERLATIVE"  -- line 64
  | .PRONOUN_CATEGORY_PERSONAL => str! "PERSONAL"  -- line 68
  | .PRONOUN_CATEGORY_REFLEXIVE => str! "REFLEXIVE"  -- line 69
  | .PRONOUN_CATEGORY_POSSESSIVE => str! "POSSESSIVE"  -- line 70
  | .PRONOUN_CATEGORY_INTERROGATIVE => str! "INTERROGATIVE"  -- line 71
  | .PRONOUN_CATEGORY_RELATIVE => str! "RELATIVE"  -- line 72
  | .PRONOUN_CATEGORY_DEMONSTRATIVE => str! "DEMONSTRATIVE"  -- line 73
  | .PRONOUN_CATEGORY_ATTRIBUTIVE => str! "ATTRIBUTIVE"  -- line 74
  | .PRONOUN_CATEGORY_NEGATIVE => str! "NEGATIVE"  -- line 75
  | .PRONOUN_CATEGORY_VAGUE => str! "VAGUE"  -- line 76
  | .PRONOUN_CATEGORY_MUTUAL => str! "MUTUAL"  -- line 77
  | .INTEGER_FORM_SINGULAR => str! "SINGULAR"  -- line 81
  | .INTEGER_FORM_DUAL => str! "DUAL"  -- line 82
  | .INTEGER_FORM_COMPOSITE_DUAL => str! "COMPOSITE_DUAL"  -- line 83
  | .INTEGER_FORM_PLURAL => str! "PLURAL"  -- line 84
  | .INTEGER_FORM_MIL_BIL => str! "MIL_BIL"  -- line 85
  | .NOUN_FORM_NORMAL => str! "NORMAL"  -- line 88
  | .NOUN_FORM_COUNTABLE => str! "COUNTABLE"  -- line 89
  | .ADJECTIVE_FORM_FULL => str! "FULL"  -- line 92
  | .ADJECTIVE_FORM_SHORT => str! "SHORT"  -- line 93
  | .PARTICIPLE_FORM_FULL => str! "FULL"  -- line 96
  | .PARTICIPLE_FORM_SHORT => str! "SHORT"  -- line 97
  | .WORD_CASE_LOWER => str! "LOWER"  -- line 101
  | .WORD_CASE_UPPER => str! "UPPER"  -- line 102
  | .DEPENDENCY_MODE_FULL => str! "FULL"  -- line 105
  | .DEPENDENCY_MODE_SEMANTIC => str! "SEMANTIC"  -- line 106
  | .PREPOSITION_FORM_NORMAL => str! "NORMAL"  -- line 110
  | .PREPOSITION_FORM_ALTERNATIVE => str! "ALTERNATIVE"  -- line 111
  | .PREPOSITION_FORM_SPECIAL => str! "SPECIAL"  -- line 112
  | .WORD_TYPE_NOUN => str! "NOUN"  -- line 119
  | .WORD_TYPE_ADJECTIVE => str! "ADJECTIVE"  -- line 120
  | .WORD_TYPE_PRONOUN => str! "PRONOUN"  -- line 121
  | .WORD_TYPE_VERB => str! "VERB"  -- line 122
  | .WORD_TYPE_PARTICIPLE => str! "PARTICIPLE"  -- line 123
  | .WORD_TYPE_INTEGER => str! "INTEGER"  -- line 124
  | .WORD_TYPE_TEXT => str! "TEXT"  -- line 125
  | .WORD_TYPE_PREPOSITION => str! "PREPOSITION"  -- line 126

/-- `repr(record)` of `rels`, as in the frozen tables (utg/migrations/m_0009_pronoun_modernization.py:28-685): `CASE.DATIVE`. -/
def Rec.repr (r : Rec) : Str := r.group.name ++ '.' :: r.name

/-- `repr` of an element of a key. -/
def reprEntry : Option Rec → Str
  | none => str! "None"
  | some r => r.repr

/-- `', '.join(parts)` (`pprint._safe_repr`). -/
def joinComma : List Str → Str
  | [] => []
  | [p] => p
  | p :: q :: ps => p ++ str! ", " ++ joinComma (q :: ps)

/-- `repr` of a key (`pprint._safe_repr` of a tuple): a tuple of one element has a comma behind it. -/
def reprKey : Key → Str
  | [] => str! "()"
  | [e] => '(' :: reprEntry e ++ str! ",)"
  | es => '(' :: joinComma (es.map reprEntry) ++ str! ")"

/-- `'{%s}' % ', '.join('%s: %s' % ...)` (`pprint._safe_repr` of a dictionary with sorted items). -/
def reprDict {α β : Type} (reprK : α → Str) (reprV : β → Str) (items : List (α × β)) : Str :=
  '{' :: joinComma (items.map fun e => reprK e.1 ++ str! ": " ++ reprV e.2) ++ str! "}"

/-- `PrettyPrinter._format_dict_items`: a line for each item. A value is formatted knowing the column where it begins, and how much must fit
behind it. -/
def formatItems {α β : Type} (reprK : α → Str) (formatV : β → Nat → Nat → Str) (indent allowance : Nat) : List (α × β) → Str
  | [] => []
  | [(k, v)] => reprK k ++ str! ": " ++ formatV v (indent + (reprK k).length + 2) allowance
  | (k, v) :: e :: es => reprK k ++ str! ": " ++ formatV v (indent + (reprK k).length + 2) 1 ++ ',' :: '\n' :: List.replicate indent ' ' ++
      formatItems reprK formatV indent allowance (e :: es)

/-- `PrettyPrinter._format` of a dictionary with sorted items: on one line if it fits in 80 columns, else `_pprint_dict`. -/
def formatDict {α β : Type} (reprK : α → Str) (reprV : β → Str) (formatV : β → Nat → Nat → Str) (items : List (α × β)) (indent allowance : Nat) : Str :=
  let rep := reprDict reprK reprV items
  if rep.length + indent + allowance > 80 then '{' :: formatItems reprK formatV (indent + 1) (allowance + 1) items ++ str! "}"
  else rep

/-- How `pprint` sorts the items of the table and of its entries. -/
structure Sorting where
  outer : List (WordType × Dict Key Nat) → List (WordType × Dict Key Nat)
  inner : Dict Key Nat → Dict Key Nat

/-- `pprint.pformat(table)`. -/
def pformat (S : Sorting) (table : List (WordType × Dict Key Nat)) : Str :=
  formatDict (fun t : WordType => t.toRec.repr) (fun d => reprDict reprKey (fun n : Nat => pyStr n) (S.inner d))
    (fun d => formatDict reprKey (fun n : Nat => pyStr n) (fun n _ _ => pyStr n) (S.inner d)) (S.outer table) 0 0

/-- `data.WORDS_CACHES` (utg/data.py:12-13). -/
def WORDS_CACHES : List (WordType × Dict Key Nat) := WordType.all.map fun t => (t, wordsCache t)

/-- `logic.pretty_format_current_keys_cache()` (utg/logic.py:167-172). -/
def prettyFormatCurrentKeysCache (S : Sorting) : Str := pformat S WORDS_CACHES

end Utg
