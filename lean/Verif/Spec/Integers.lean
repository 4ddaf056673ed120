import Verif.Model.Constructors
/-!
# Specification vocabulary for integers

How Russian nouns and adjectives agree with a number depends on the last digits of its decimal notation. Nothing here is
used by the model.
-/

namespace Utg.Spec
open Py

/-- The decimal notation of `n` ends in the given digits. -/
abbrev EndsIn (n : Int) (digits : Str) : Prop := digits <:+ pyStr n

/-- The agreement class of a number, as a value of `INTEGER_FORM`. -/
def agreementClass (n : Int) : Rec :=
  if n.natAbs = 10 ^ 6 ∨ n.natAbs = 10 ^ 9 then .INTEGER_FORM_MIL_BIL
  else if EndsIn n (str! "1") ∧ ¬ EndsIn n (str! "11") then .INTEGER_FORM_SINGULAR
  else if n.natAbs = 2 ∨ n.natAbs = 3 ∨ n.natAbs = 4 then .INTEGER_FORM_DUAL
  else if (EndsIn n (str! "2") ∧ ¬ EndsIn n (str! "12")) ∨ (EndsIn n (str! "3") ∧ ¬ EndsIn n (str! "13")) ∨
      (EndsIn n (str! "4") ∧ ¬ EndsIn n (str! "14")) then .INTEGER_FORM_COMPOSITE_DUAL
  else .INTEGER_FORM_PLURAL

/-- The grammatical number of a number. -/
def grammaticalNumber (n : Int) : Rec := if n.natAbs = 1 then .NUMBER_SINGULAR else .NUMBER_PLURAL

/-- A history of calls `construct_integer(n)`: the final module state and the objects returned, in order. -/
def constructHistory : IntState → List Int → Except PyErr (IntState × List Obj)
  | s, [] => .ok (s, [])
  | s, n :: ns => do
    let (s, o) ← constructInteger s n
    let (s, os) ← constructHistory s ns
    .ok (s, o :: os)

end Utg.Spec
