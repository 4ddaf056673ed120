import Verif.Spec.Phrase
/-! # A counted subject and its verb -/

namespace Utg.Spec
open Py

/-- `[число] [воин|число|им] [пришёл|воин|число]`. -/
def countedSubjectText (number noun case verb : Str) : Str :=
  bracketed number [] ++ ' ' :: bracketed noun [number, case] ++ ' ' :: bracketed verb [noun, number]

/-- The past of a verb whose subject, of the gender given, is counted: singular for один, двадцать один, …, and also for двадцать два, двадцать три,
двадцать четыре, …; plural for the others. -/
def countedPast (n : Int) (gender : Rec) : List Rec :=
  if agreementClass n = .INTEGER_FORM_SINGULAR ∨ agreementClass n = .INTEGER_FORM_COMPOSITE_DUAL
  then [.VERB_FORM_INDICATIVE, .TIME_PAST, .NUMBER_SINGULAR, gender]
  else [.VERB_FORM_INDICATIVE, .TIME_PAST, .NUMBER_PLURAL]

end Utg.Spec
