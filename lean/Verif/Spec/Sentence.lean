import Verif.Spec.Phrase
/-! # The sentence of the README -/

namespace Utg.Spec
open Py

/-- `x`, written with a capital letter. -/
def WrittenCapital (U : PyUni) (capital x : Str) : Prop :=
  U.lower capital = x ∧ (∀ c ∈ capital, c ≠ '|' ∧ c ≠ ']' ∧ c ≠ '%') ∧
    (∃ c cs, capital = c :: cs ∧ U.isUpper c = true ∧ U.isSpace c = false) ∧ ∀ c ∈ capital.getLast?, U.isSpace c = false

/-- `[Npc] [verb|npc] [hero|case] [coins] [noun|coins|case'].` -/
def sentenceText (capital npc verb hero case coins noun case' : Str) : Str :=
  bracketed capital [] ++ ' ' :: bracketed verb [npc] ++ ' ' :: bracketed hero [case] ++ ' ' :: bracketed coins [] ++ ' ' ::
    bracketed noun [coins, case'] ++ ['.']

end Utg.Spec
