import Verif.Spec.Phrase
/-! # The adjective of a counted noun: what Russian wants -/

namespace Utg.Spec
open Py

/-- The numbers and cases grammar admits for an adjective in front of a counted noun (the number being of the class `agreement`, the phrase in the case
`case`), as the comments in
`transformators.py` quote it: один agrees; два, три, четыре — also at the end of a greater number — take, in the nominative and in the accusative, the
genitive plural, with a noun of feminine gender the nominative plural too, but the nominative plural only where the noun is not an animate one in
the accusative (вижу двух новых русалок), and there the accusative itself is possible; пять and the rest take the genitive plural; in the other cases
the adjective agrees, in the plural; миллион takes the genitive plural in all cases. -/
def admitted (agreement case gender animality : Rec) : List (Rec × Rec) :=
  match agreement with
  | .INTEGER_FORM_SINGULAR => [(.NUMBER_SINGULAR, case)]
  | .INTEGER_FORM_DUAL =>
    if case = .CASE_NOMINATIVE ∨ case = .CASE_ACCUSATIVE then
      (.NUMBER_PLURAL, .CASE_GENITIVE) ::
        (if case = .CASE_ACCUSATIVE ∧ animality = .ANIMALITY_ANIMATE then [(.NUMBER_PLURAL, .CASE_ACCUSATIVE)]
         else if gender = .GENDER_FEMININE then [(.NUMBER_PLURAL, .CASE_NOMINATIVE)] else [])
    else [(.NUMBER_PLURAL, case)]
  | .INTEGER_FORM_COMPOSITE_DUAL =>
    if case = .CASE_NOMINATIVE ∨ case = .CASE_ACCUSATIVE then
      (.NUMBER_PLURAL, .CASE_GENITIVE) :: (if gender = .GENDER_FEMININE then [(.NUMBER_PLURAL, .CASE_NOMINATIVE)] else [])
    else [(.NUMBER_PLURAL, case)]
  | .INTEGER_FORM_PLURAL => if case = .CASE_NOMINATIVE ∨ case = .CASE_ACCUSATIVE then [(.NUMBER_PLURAL, .CASE_GENITIVE)] else [(.NUMBER_PLURAL, case)]
  | _ => [(.NUMBER_PLURAL, .CASE_GENITIVE)]

/-- The phrases in which the adjective has another form: numbers above twenty that end in two, three or four, in the nominative or the accusative
(двадцать два нового телефона), and two, three or four animate nouns of feminine gender in the accusative (вижу двух новые русалок). -/
def Slips (agreement case gender animality : Rec) : Prop :=
  (agreement = .INTEGER_FORM_COMPOSITE_DUAL ∧ (case = .CASE_NOMINATIVE ∨ case = .CASE_ACCUSATIVE)) ∨
  (agreement = .INTEGER_FORM_DUAL ∧ case = .CASE_ACCUSATIVE ∧ gender = .GENDER_FEMININE ∧ animality = .ANIMALITY_ANIMATE)

end Utg.Spec
