import Verif.Spec.Reference
/-! # Numbers in a template -/

namespace Utg.Spec
open Py

/-- The characters of numbers are neither changed by `upper` and `lower` nor white space (as in Unicode). -/
structure DigitsPlain (U : PyUni) : Prop where
  upper : ∀ c : Char, c.isDigit = true ∨ c = '-' → U.upperC c = [c]
  lower : ∀ s : Str, (∀ c ∈ s, c.isDigit = true ∨ c = '-') → U.lower s = s
  space : ∀ c : Char, c.isDigit = true ∨ c = '-' → U.isSpace c = false

/-- A word that is the number `n`, as `construct_integer` makes it (whatever its properties). -/
def SpellsNumber (w : Word) (n : Int) : Prop := w.type = .INTEGER ∧ w.forms = [pyStr n]

end Utg.Spec
