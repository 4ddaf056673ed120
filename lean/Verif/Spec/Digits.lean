import Verif.Model.Digits
import Verif.Spec.Numbers
/-!
# Specification vocabulary for the limit on digits
-/

namespace Utg.Spec
open Py

/-- A limit CPython accepts: 0 for none, or at least 640. -/
def IsLimit (limit : Nat) : Prop := limit = 0 ∨ 640 ≤ limit

/-- The number has more digits than the limit allows. -/
def TooLong (limit : Nat) (n : Int) : Prop := limit ≠ 0 ∧ 10 ^ limit ≤ n.natAbs

instance (limit : Nat) (n : Int) : Decidable (TooLong limit n) := inferInstanceAs (Decidable (_ ∧ _))

/-- The number of digits in a text, of any script. -/
def digitCount (s : Str) : Nat := s.countP fun c => (decimalValue c).isSome

/-- A history of calls of `construct_integer`, going on after a failure: what each gave. -/
def limitedHistory (limit : Nat) : IntState → List Int → List (Except PyErr Obj)
  | _, [] => []
  | s, n :: ns => (constructLimited limit s n).2 :: limitedHistory limit (constructLimited limit s n).1 ns

end Utg.Spec
