import Verif.Spec.CountedSubject
/-! # A counted subject and its verb in the present or the future -/

namespace Utg.Spec
open Py

/-- The present or future of a verb whose subject is counted: singular for один, двадцать один, …, and also for двадцать два, двадцать три,
двадцать четыре, …; plural for the others; in the person the verb is written in. -/
def countedPresent (n : Int) (time person : Rec) : List Rec :=
  [.VERB_FORM_INDICATIVE, time,
    if agreementClass n = .INTEGER_FORM_SINGULAR ∨ agreementClass n = .INTEGER_FORM_COMPOSITE_DUAL then .NUMBER_SINGULAR else .NUMBER_PLURAL, person]

end Utg.Spec
