import Verif.Conformance.Util
/-! # The tables of utg/tests/test_transformators.py, run in the model

Generated by `tools/gen_conformance.py` from the source text of the tests. A later row for the same key replaces an earlier one, as
in a Python `dict` display. -/

namespace Utg
open Py

/-- `test_noun_integer` (utg/tests/test_transformators.py:20-47). -/
example : [
  ([.INTEGER_FORM_SINGULAR], [.NOUN_FORM_NORMAL, .INTEGER_FORM_SINGULAR, .NUMBER_SINGULAR]),
  ([.INTEGER_FORM_DUAL, .CASE_NOMINATIVE], [.NOUN_FORM_NORMAL, .INTEGER_FORM_DUAL, .NUMBER_SINGULAR, .CASE_GENITIVE]),
  ([.INTEGER_FORM_DUAL, .CASE_DATIVE], [.NOUN_FORM_COUNTABLE, .INTEGER_FORM_DUAL, .NUMBER_PLURAL, .CASE_DATIVE]),
  ([.INTEGER_FORM_DUAL, .CASE_ACCUSATIVE, .ANIMALITY_ANIMATE], [.NOUN_FORM_COUNTABLE, .INTEGER_FORM_DUAL, .NUMBER_PLURAL, .CASE_ACCUSATIVE, .ANIMALITY_ANIMATE]),
  ([.INTEGER_FORM_DUAL, .CASE_ACCUSATIVE, .ANIMALITY_INANIMATE], [.NOUN_FORM_NORMAL, .INTEGER_FORM_DUAL, .NUMBER_SINGULAR, .CASE_GENITIVE, .ANIMALITY_INANIMATE]),
  ([.INTEGER_FORM_COMPOSITE_DUAL, .CASE_NOMINATIVE], [.NOUN_FORM_NORMAL, .INTEGER_FORM_COMPOSITE_DUAL, .NUMBER_SINGULAR, .CASE_GENITIVE]),
  ([.INTEGER_FORM_COMPOSITE_DUAL, .CASE_DATIVE], [.NOUN_FORM_COUNTABLE, .INTEGER_FORM_COMPOSITE_DUAL, .NUMBER_PLURAL, .CASE_DATIVE]),
  ([.INTEGER_FORM_COMPOSITE_DUAL, .CASE_ACCUSATIVE, .ANIMALITY_ANIMATE], [.NOUN_FORM_NORMAL, .INTEGER_FORM_COMPOSITE_DUAL, .NUMBER_SINGULAR, .CASE_GENITIVE, .ANIMALITY_ANIMATE]),
  ([.INTEGER_FORM_COMPOSITE_DUAL, .CASE_ACCUSATIVE, .ANIMALITY_INANIMATE], [.NOUN_FORM_NORMAL, .INTEGER_FORM_COMPOSITE_DUAL, .NUMBER_SINGULAR, .CASE_GENITIVE, .ANIMALITY_INANIMATE]),
  ([.INTEGER_FORM_PLURAL, .CASE_NOMINATIVE], [.NOUN_FORM_COUNTABLE, .INTEGER_FORM_PLURAL, .NUMBER_PLURAL, .CASE_GENITIVE]),
  ([.INTEGER_FORM_PLURAL, .CASE_DATIVE], [.NOUN_FORM_COUNTABLE, .INTEGER_FORM_PLURAL, .NUMBER_PLURAL, .CASE_DATIVE]),
  ([.INTEGER_FORM_PLURAL, .CASE_ACCUSATIVE, .ANIMALITY_ANIMATE], [.NOUN_FORM_COUNTABLE, .INTEGER_FORM_PLURAL, .NUMBER_PLURAL, .CASE_GENITIVE, .ANIMALITY_ANIMATE]),
  ([.INTEGER_FORM_PLURAL, .CASE_ACCUSATIVE, .ANIMALITY_INANIMATE], [.NOUN_FORM_COUNTABLE, .INTEGER_FORM_PLURAL, .NUMBER_PLURAL, .CASE_GENITIVE, .ANIMALITY_INANIMATE]),
  ([.INTEGER_FORM_MIL_BIL, .CASE_NOMINATIVE], [.NOUN_FORM_COUNTABLE, .INTEGER_FORM_MIL_BIL, .NUMBER_PLURAL, .CASE_GENITIVE]),
  ([.INTEGER_FORM_MIL_BIL, .CASE_DATIVE], [.NOUN_FORM_COUNTABLE, .INTEGER_FORM_MIL_BIL, .NUMBER_PLURAL, .CASE_GENITIVE]),
  ([.INTEGER_FORM_MIL_BIL, .CASE_ACCUSATIVE, .ANIMALITY_ANIMATE], [.NOUN_FORM_COUNTABLE, .INTEGER_FORM_MIL_BIL, .NUMBER_PLURAL, .CASE_GENITIVE, .ANIMALITY_ANIMATE]),
  ([.INTEGER_FORM_MIL_BIL, .CASE_ACCUSATIVE, .ANIMALITY_INANIMATE], [.NOUN_FORM_COUNTABLE, .INTEGER_FORM_MIL_BIL, .NUMBER_PLURAL, .CASE_GENITIVE, .ANIMALITY_INANIMATE])].all (fun (e : List Rec × List Rec) => sameProps (nounInteger (props e.1)) (props e.2)) = true := by decide +kernel

/-- `test_noun_integer__semantic_dependency` (utg/tests/test_transformators.py:50-77). -/
example : [
  ([.DEPENDENCY_MODE_SEMANTIC, .INTEGER_FORM_SINGULAR], [.DEPENDENCY_MODE_SEMANTIC, .NOUN_FORM_NORMAL, .INTEGER_FORM_SINGULAR, .NUMBER_SINGULAR]),
  ([.DEPENDENCY_MODE_SEMANTIC, .INTEGER_FORM_DUAL, .CASE_NOMINATIVE], [.DEPENDENCY_MODE_SEMANTIC, .NOUN_FORM_NORMAL, .INTEGER_FORM_DUAL, .NUMBER_PLURAL, .CASE_NOMINATIVE]),
  ([.DEPENDENCY_MODE_SEMANTIC, .INTEGER_FORM_DUAL, .CASE_DATIVE], [.DEPENDENCY_MODE_SEMANTIC, .NOUN_FORM_NORMAL, .INTEGER_FORM_DUAL, .NUMBER_PLURAL, .CASE_DATIVE]),
  ([.DEPENDENCY_MODE_SEMANTIC, .INTEGER_FORM_DUAL, .CASE_ACCUSATIVE, .ANIMALITY_ANIMATE], [.DEPENDENCY_MODE_SEMANTIC, .NOUN_FORM_NORMAL, .INTEGER_FORM_DUAL, .NUMBER_PLURAL, .CASE_ACCUSATIVE, .ANIMALITY_ANIMATE]),
  ([.DEPENDENCY_MODE_SEMANTIC, .INTEGER_FORM_DUAL, .CASE_ACCUSATIVE, .ANIMALITY_INANIMATE], [.DEPENDENCY_MODE_SEMANTIC, .NOUN_FORM_NORMAL, .INTEGER_FORM_DUAL, .NUMBER_PLURAL, .CASE_ACCUSATIVE, .ANIMALITY_INANIMATE]),
  ([.DEPENDENCY_MODE_SEMANTIC, .INTEGER_FORM_COMPOSITE_DUAL, .CASE_NOMINATIVE], [.DEPENDENCY_MODE_SEMANTIC, .NOUN_FORM_NORMAL, .INTEGER_FORM_COMPOSITE_DUAL, .NUMBER_PLURAL, .CASE_NOMINATIVE]),
  ([.DEPENDENCY_MODE_SEMANTIC, .INTEGER_FORM_COMPOSITE_DUAL, .CASE_DATIVE], [.DEPENDENCY_MODE_SEMANTIC, .NOUN_FORM_NORMAL, .INTEGER_FORM_COMPOSITE_DUAL, .NUMBER_PLURAL, .CASE_DATIVE]),
  ([.DEPENDENCY_MODE_SEMANTIC, .INTEGER_FORM_COMPOSITE_DUAL, .CASE_ACCUSATIVE, .ANIMALITY_ANIMATE], [.DEPENDENCY_MODE_SEMANTIC, .NOUN_FORM_NORMAL, .INTEGER_FORM_COMPOSITE_DUAL, .NUMBER_PLURAL, .CASE_ACCUSATIVE, .ANIMALITY_ANIMATE]),
  ([.DEPENDENCY_MODE_SEMANTIC, .INTEGER_FORM_COMPOSITE_DUAL, .CASE_ACCUSATIVE, .ANIMALITY_INANIMATE], [.DEPENDENCY_MODE_SEMANTIC, .NOUN_FORM_NORMAL, .INTEGER_FORM_COMPOSITE_DUAL, .NUMBER_PLURAL, .CASE_ACCUSATIVE, .ANIMALITY_INANIMATE]),
  ([.DEPENDENCY_MODE_SEMANTIC, .INTEGER_FORM_PLURAL, .CASE_NOMINATIVE], [.DEPENDENCY_MODE_SEMANTIC, .NOUN_FORM_NORMAL, .INTEGER_FORM_PLURAL, .NUMBER_PLURAL, .CASE_NOMINATIVE]),
  ([.DEPENDENCY_MODE_SEMANTIC, .INTEGER_FORM_PLURAL, .CASE_DATIVE], [.DEPENDENCY_MODE_SEMANTIC, .NOUN_FORM_NORMAL, .INTEGER_FORM_PLURAL, .NUMBER_PLURAL, .CASE_DATIVE]),
  ([.DEPENDENCY_MODE_SEMANTIC, .INTEGER_FORM_PLURAL, .CASE_ACCUSATIVE, .ANIMALITY_ANIMATE], [.DEPENDENCY_MODE_SEMANTIC, .NOUN_FORM_NORMAL, .INTEGER_FORM_PLURAL, .NUMBER_PLURAL, .CASE_ACCUSATIVE, .ANIMALITY_ANIMATE]),
  ([.DEPENDENCY_MODE_SEMANTIC, .INTEGER_FORM_PLURAL, .CASE_ACCUSATIVE, .ANIMALITY_INANIMATE], [.DEPENDENCY_MODE_SEMANTIC, .NOUN_FORM_NORMAL, .INTEGER_FORM_PLURAL, .NUMBER_PLURAL, .CASE_ACCUSATIVE, .ANIMALITY_INANIMATE]),
  ([.DEPENDENCY_MODE_SEMANTIC, .INTEGER_FORM_MIL_BIL, .CASE_NOMINATIVE], [.DEPENDENCY_MODE_SEMANTIC, .NOUN_FORM_NORMAL, .INTEGER_FORM_MIL_BIL, .NUMBER_PLURAL, .CASE_NOMINATIVE]),
  ([.DEPENDENCY_MODE_SEMANTIC, .INTEGER_FORM_MIL_BIL, .CASE_DATIVE], [.DEPENDENCY_MODE_SEMANTIC, .NOUN_FORM_NORMAL, .INTEGER_FORM_MIL_BIL, .NUMBER_PLURAL, .CASE_DATIVE]),
  ([.DEPENDENCY_MODE_SEMANTIC, .INTEGER_FORM_MIL_BIL, .CASE_ACCUSATIVE, .ANIMALITY_ANIMATE], [.DEPENDENCY_MODE_SEMANTIC, .NOUN_FORM_NORMAL, .INTEGER_FORM_MIL_BIL, .NUMBER_PLURAL, .CASE_ACCUSATIVE, .ANIMALITY_ANIMATE]),
  ([.DEPENDENCY_MODE_SEMANTIC, .INTEGER_FORM_MIL_BIL, .CASE_ACCUSATIVE, .ANIMALITY_INANIMATE], [.DEPENDENCY_MODE_SEMANTIC, .NOUN_FORM_NORMAL, .INTEGER_FORM_MIL_BIL, .NUMBER_PLURAL, .CASE_ACCUSATIVE, .ANIMALITY_INANIMATE])].all (fun (e : List Rec × List Rec) => sameProps (nounInteger (props e.1)) (props e.2)) = true := by decide +kernel

/-- `test_adjective_integer` (utg/tests/test_transformators.py:80-116). -/
example : [
  ([.INTEGER_FORM_SINGULAR], [.INTEGER_FORM_SINGULAR, .NUMBER_SINGULAR]),
  ([.INTEGER_FORM_DUAL, .CASE_NOMINATIVE, .GENDER_MASCULINE], [.INTEGER_FORM_DUAL, .NUMBER_PLURAL, .CASE_GENITIVE, .GENDER_MASCULINE]),
  ([.INTEGER_FORM_DUAL, .CASE_DATIVE, .GENDER_MASCULINE], [.INTEGER_FORM_DUAL, .NUMBER_PLURAL, .CASE_DATIVE, .GENDER_MASCULINE]),
  ([.INTEGER_FORM_DUAL, .CASE_ACCUSATIVE, .GENDER_MASCULINE], [.INTEGER_FORM_DUAL, .NUMBER_PLURAL, .CASE_GENITIVE, .GENDER_MASCULINE]),
  ([.INTEGER_FORM_DUAL, .CASE_NOMINATIVE, .GENDER_NEUTER], [.INTEGER_FORM_DUAL, .NUMBER_PLURAL, .CASE_GENITIVE, .GENDER_NEUTER]),
  ([.INTEGER_FORM_DUAL, .CASE_DATIVE, .GENDER_NEUTER], [.INTEGER_FORM_DUAL, .NUMBER_PLURAL, .CASE_DATIVE, .GENDER_NEUTER]),
  ([.INTEGER_FORM_DUAL, .CASE_ACCUSATIVE, .GENDER_NEUTER], [.INTEGER_FORM_DUAL, .NUMBER_PLURAL, .CASE_GENITIVE, .GENDER_NEUTER]),
  ([.INTEGER_FORM_DUAL, .CASE_NOMINATIVE, .GENDER_FEMININE], [.INTEGER_FORM_DUAL, .NUMBER_PLURAL, .CASE_NOMINATIVE, .GENDER_FEMININE]),
  ([.INTEGER_FORM_DUAL, .CASE_DATIVE, .GENDER_FEMININE], [.INTEGER_FORM_DUAL, .NUMBER_PLURAL, .CASE_DATIVE, .GENDER_FEMININE]),
  ([.INTEGER_FORM_DUAL, .CASE_ACCUSATIVE, .GENDER_FEMININE], [.INTEGER_FORM_DUAL, .NUMBER_PLURAL, .CASE_NOMINATIVE, .GENDER_FEMININE]),
  ([.INTEGER_FORM_COMPOSITE_DUAL, .CASE_NOMINATIVE], [.INTEGER_FORM_COMPOSITE_DUAL, .NUMBER_SINGULAR, .CASE_GENITIVE]),
  ([.INTEGER_FORM_COMPOSITE_DUAL, .CASE_DATIVE], [.INTEGER_FORM_COMPOSITE_DUAL, .NUMBER_PLURAL, .CASE_DATIVE]),
  ([.INTEGER_FORM_COMPOSITE_DUAL, .CASE_ACCUSATIVE, .ANIMALITY_ANIMATE], [.INTEGER_FORM_COMPOSITE_DUAL, .NUMBER_SINGULAR, .CASE_GENITIVE, .ANIMALITY_ANIMATE]),
  ([.INTEGER_FORM_COMPOSITE_DUAL, .CASE_ACCUSATIVE, .ANIMALITY_INANIMATE], [.INTEGER_FORM_COMPOSITE_DUAL, .NUMBER_SINGULAR, .CASE_GENITIVE, .ANIMALITY_INANIMATE]),
  ([.INTEGER_FORM_PLURAL, .CASE_NOMINATIVE], [.INTEGER_FORM_PLURAL, .NUMBER_PLURAL, .CASE_GENITIVE]),
  ([.INTEGER_FORM_PLURAL, .CASE_DATIVE], [.INTEGER_FORM_PLURAL, .NUMBER_PLURAL, .CASE_DATIVE]),
  ([.INTEGER_FORM_PLURAL, .CASE_ACCUSATIVE, .ANIMALITY_ANIMATE], [.INTEGER_FORM_PLURAL, .NUMBER_PLURAL, .CASE_GENITIVE, .ANIMALITY_ANIMATE]),
  ([.INTEGER_FORM_PLURAL, .CASE_ACCUSATIVE, .ANIMALITY_INANIMATE], [.INTEGER_FORM_PLURAL, .NUMBER_PLURAL, .CASE_GENITIVE, .ANIMALITY_INANIMATE]),
  ([.INTEGER_FORM_MIL_BIL, .CASE_NOMINATIVE], [.INTEGER_FORM_MIL_BIL, .NUMBER_PLURAL, .CASE_GENITIVE]),
  ([.INTEGER_FORM_MIL_BIL, .CASE_DATIVE], [.INTEGER_FORM_MIL_BIL, .NUMBER_PLURAL, .CASE_GENITIVE]),
  ([.INTEGER_FORM_MIL_BIL, .CASE_ACCUSATIVE, .ANIMALITY_ANIMATE], [.INTEGER_FORM_MIL_BIL, .NUMBER_PLURAL, .CASE_GENITIVE, .ANIMALITY_ANIMATE]),
  ([.INTEGER_FORM_MIL_BIL, .CASE_ACCUSATIVE, .ANIMALITY_INANIMATE], [.INTEGER_FORM_MIL_BIL, .NUMBER_PLURAL, .CASE_GENITIVE, .ANIMALITY_INANIMATE])].all (fun (e : List Rec × List Rec) => sameProps (adjectiveInteger (props e.1)) (props e.2)) = true := by decide +kernel

/-- `test_adjective_integer__semantic_dependency` (utg/tests/test_transformators.py:118-154). -/
example : [
  ([.DEPENDENCY_MODE_SEMANTIC, .INTEGER_FORM_SINGULAR], [.DEPENDENCY_MODE_SEMANTIC, .INTEGER_FORM_SINGULAR, .NUMBER_SINGULAR]),
  ([.DEPENDENCY_MODE_SEMANTIC, .INTEGER_FORM_DUAL, .CASE_NOMINATIVE, .GENDER_MASCULINE], [.DEPENDENCY_MODE_SEMANTIC, .INTEGER_FORM_DUAL, .NUMBER_PLURAL, .CASE_NOMINATIVE, .GENDER_MASCULINE]),
  ([.DEPENDENCY_MODE_SEMANTIC, .INTEGER_FORM_DUAL, .CASE_DATIVE, .GENDER_MASCULINE], [.DEPENDENCY_MODE_SEMANTIC, .INTEGER_FORM_DUAL, .NUMBER_PLURAL, .CASE_DATIVE, .GENDER_MASCULINE]),
  ([.DEPENDENCY_MODE_SEMANTIC, .INTEGER_FORM_DUAL, .CASE_ACCUSATIVE, .GENDER_MASCULINE], [.DEPENDENCY_MODE_SEMANTIC, .INTEGER_FORM_DUAL, .NUMBER_PLURAL, .CASE_ACCUSATIVE, .GENDER_MASCULINE]),
  ([.DEPENDENCY_MODE_SEMANTIC, .INTEGER_FORM_DUAL, .CASE_NOMINATIVE, .GENDER_NEUTER], [.DEPENDENCY_MODE_SEMANTIC, .INTEGER_FORM_DUAL, .NUMBER_PLURAL, .CASE_NOMINATIVE, .GENDER_NEUTER]),
  ([.DEPENDENCY_MODE_SEMANTIC, .INTEGER_FORM_DUAL, .CASE_DATIVE, .GENDER_NEUTER], [.DEPENDENCY_MODE_SEMANTIC, .INTEGER_FORM_DUAL, .NUMBER_PLURAL, .CASE_DATIVE, .GENDER_NEUTER]),
  ([.DEPENDENCY_MODE_SEMANTIC, .INTEGER_FORM_DUAL, .CASE_ACCUSATIVE, .GENDER_NEUTER], [.DEPENDENCY_MODE_SEMANTIC, .INTEGER_FORM_DUAL, .NUMBER_PLURAL, .CASE_ACCUSATIVE, .GENDER_NEUTER]),
  ([.DEPENDENCY_MODE_SEMANTIC, .INTEGER_FORM_DUAL, .CASE_NOMINATIVE, .GENDER_FEMININE], [.DEPENDENCY_MODE_SEMANTIC, .INTEGER_FORM_DUAL, .NUMBER_PLURAL, .CASE_NOMINATIVE, .GENDER_FEMININE]),
  ([.DEPENDENCY_MODE_SEMANTIC, .INTEGER_FORM_DUAL, .CASE_DATIVE, .GENDER_FEMININE], [.DEPENDENCY_MODE_SEMANTIC, .INTEGER_FORM_DUAL, .NUMBER_PLURAL, .CASE_DATIVE, .GENDER_FEMININE]),
  ([.DEPENDENCY_MODE_SEMANTIC, .INTEGER_FORM_DUAL, .CASE_ACCUSATIVE, .GENDER_FEMININE], [.DEPENDENCY_MODE_SEMANTIC, .INTEGER_FORM_DUAL, .NUMBER_PLURAL, .CASE_ACCUSATIVE, .GENDER_FEMININE]),
  ([.DEPENDENCY_MODE_SEMANTIC, .INTEGER_FORM_COMPOSITE_DUAL, .CASE_NOMINATIVE], [.DEPENDENCY_MODE_SEMANTIC, .INTEGER_FORM_COMPOSITE_DUAL, .NUMBER_PLURAL, .CASE_NOMINATIVE]),
  ([.DEPENDENCY_MODE_SEMANTIC, .INTEGER_FORM_COMPOSITE_DUAL, .CASE_DATIVE], [.DEPENDENCY_MODE_SEMANTIC, .INTEGER_FORM_COMPOSITE_DUAL, .NUMBER_PLURAL, .CASE_DATIVE]),
  ([.DEPENDENCY_MODE_SEMANTIC, .INTEGER_FORM_COMPOSITE_DUAL, .CASE_ACCUSATIVE, .ANIMALITY_ANIMATE], [.DEPENDENCY_MODE_SEMANTIC, .INTEGER_FORM_COMPOSITE_DUAL, .NUMBER_PLURAL, .CASE_ACCUSATIVE, .ANIMALITY_ANIMATE]),
  ([.DEPENDENCY_MODE_SEMANTIC, .INTEGER_FORM_COMPOSITE_DUAL, .CASE_ACCUSATIVE, .ANIMALITY_INANIMATE], [.DEPENDENCY_MODE_SEMANTIC, .INTEGER_FORM_COMPOSITE_DUAL, .NUMBER_PLURAL, .CASE_ACCUSATIVE, .ANIMALITY_INANIMATE]),
  ([.DEPENDENCY_MODE_SEMANTIC, .INTEGER_FORM_PLURAL, .CASE_NOMINATIVE], [.DEPENDENCY_MODE_SEMANTIC, .INTEGER_FORM_PLURAL, .NUMBER_PLURAL, .CASE_NOMINATIVE]),
  ([.DEPENDENCY_MODE_SEMANTIC, .INTEGER_FORM_PLURAL, .CASE_DATIVE], [.DEPENDENCY_MODE_SEMANTIC, .INTEGER_FORM_PLURAL, .NUMBER_PLURAL, .CASE_DATIVE]),
  ([.DEPENDENCY_MODE_SEMANTIC, .INTEGER_FORM_PLURAL, .CASE_ACCUSATIVE, .ANIMALITY_ANIMATE], [.DEPENDENCY_MODE_SEMANTIC, .INTEGER_FORM_PLURAL, .NUMBER_PLURAL, .CASE_ACCUSATIVE, .ANIMALITY_ANIMATE]),
  ([.DEPENDENCY_MODE_SEMANTIC, .INTEGER_FORM_PLURAL, .CASE_ACCUSATIVE, .ANIMALITY_INANIMATE], [.DEPENDENCY_MODE_SEMANTIC, .INTEGER_FORM_PLURAL, .NUMBER_PLURAL, .CASE_ACCUSATIVE, .ANIMALITY_INANIMATE]),
  ([.DEPENDENCY_MODE_SEMANTIC, .INTEGER_FORM_MIL_BIL, .CASE_NOMINATIVE], [.DEPENDENCY_MODE_SEMANTIC, .INTEGER_FORM_MIL_BIL, .NUMBER_PLURAL, .CASE_NOMINATIVE]),
  ([.DEPENDENCY_MODE_SEMANTIC, .INTEGER_FORM_MIL_BIL, .CASE_DATIVE], [.DEPENDENCY_MODE_SEMANTIC, .INTEGER_FORM_MIL_BIL, .NUMBER_PLURAL, .CASE_DATIVE]),
  ([.DEPENDENCY_MODE_SEMANTIC, .INTEGER_FORM_MIL_BIL, .CASE_ACCUSATIVE, .ANIMALITY_ANIMATE], [.DEPENDENCY_MODE_SEMANTIC, .INTEGER_FORM_MIL_BIL, .NUMBER_PLURAL, .CASE_ACCUSATIVE, .ANIMALITY_ANIMATE]),
  ([.DEPENDENCY_MODE_SEMANTIC, .INTEGER_FORM_MIL_BIL, .CASE_ACCUSATIVE, .ANIMALITY_INANIMATE], [.DEPENDENCY_MODE_SEMANTIC, .INTEGER_FORM_MIL_BIL, .NUMBER_PLURAL, .CASE_ACCUSATIVE, .ANIMALITY_INANIMATE])].all (fun (e : List Rec × List Rec) => sameProps (adjectiveInteger (props e.1)) (props e.2)) = true := by decide +kernel

end Utg
