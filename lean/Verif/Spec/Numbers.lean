import Verif.Model.Numbers
import Verif.Spec.Integers
/-!
# Specification vocabulary for numbers that are not integers
-/

namespace Utg.Spec
open Py

/-- The word form of a numeral: its only form is the text, its properties the two records, in this order. -/
def numeral (text : Str) (number agreement : Rec) : WordForm :=
  WordForm.new ⟨.INTEGER, [text], .new [.record number, .record agreement]⟩

/-- The integer an `int` or a `bool` is. -/
def asInteger : PyNumber → Option Int
  | .int n => some n
  | .bool true => some 1
  | .bool false => some 0
  | _ => none

/-- The agreement class of a fraction with the whole part `n`. -/
def fractionClass (n : Int) : Rec :=
  if (EndsIn n (str! "2") ∧ ¬ EndsIn n (str! "12")) ∨ (EndsIn n (str! "3") ∧ ¬ EndsIn n (str! "13")) then .INTEGER_FORM_COMPOSITE_DUAL
  else .INTEGER_FORM_PLURAL

/-- `construct_integer` of the first gives the second, or fails with it. -/
inductive Answers : PyNumber → Except PyErr WordForm → Prop
  /-- An integer. -/
  | integer (a : PyNumber) (n : Int) (is : asInteger a = some n) :
      Answers a (.ok (numeral (pyStr n) (grammaticalNumber n) (agreementClass n)))
  /-- A number that is written otherwise, such as `-5.0`, but is the integer `n`. -/
  | whole (written : Str) (n : Int) (outside : n < 0 ∨ 10000 < n) :
      Answers (.real written (some n)) (.ok (numeral written (grammaticalNumber n) (agreementClass n)))
  /-- A number whose absolute value is between `n` and `n + 1`. -/
  | fraction (written : Str) (x : ℚ) (n : Nat) (outside : x < 0 ∨ 10000 < x) (above : n < |x|) (below : |x| < n + 1) :
      Answers (.real written (some x)) (.ok (numeral written .NUMBER_PLURAL (fractionClass n)))
  /-- `nan` or infinity. -/
  | unbounded (written : Str) : Answers (.real written none) (.ok (numeral written .NUMBER_PLURAL .INTEGER_FORM_PLURAL))
  /-- A number between 0 and 10000 that is no `int` and no `bool`, even one like `5.0`. -/
  | within (written : Str) (x : ℚ) (least : 0 ≤ x) (most : x ≤ 10000) : Answers (.real written (some x)) (.error .TypeError)
  /-- What is no number. -/
  | other : Answers .other (.error .TypeError)

/-- A history of calls of `construct_integer`, going on after a failure: what each gave. -/
def numberHistory : IntState → List PyNumber → List (Except PyErr Obj)
  | _, [] => []
  | s, a :: as => (constructNumber s a).2 :: numberHistory (constructNumber s a).1 as

end Utg.Spec
