import Verif.Spec.Phrase
/-! # A preposition, a number, and what is counted -/

namespace Utg.Spec
open Py

/-- `[о|число] [число] [день|число|пр]`. -/
def aboutNumberText (preposition number noun case : Str) : Str :=
  bracketed preposition [number] ++ ' ' :: bracketed number [] ++ ' ' :: bracketed noun [number, case]

end Utg.Spec
