import Verif.Model.Constructors
import Mathlib.Data.Rat.Floor
/-!
# `construct_integer` of what is not an integer

`utg/constructors.py` compares its argument with numbers, takes remainders and uses it as an index; it does not look at its type.
-/

namespace Utg
open Py

/-- The argument of `construct_integer`: an `int`, a `bool`, another real number (a `float`, a `Fraction`) with its `str` and its value, none
for `nan` and the infinite ones; or something that cannot be compared with an integer (a text, `None`, a list). -/
inductive PyNumber where
  | int (n : Int)
  | bool (b : Bool)
  | real (written : Str) (value : Option ℚ)
  | other

/-- `number % m` of a non-negative number (utg/constructors.py:31,33,35); for floats it is exact. -/
def ratMod (x : ℚ) (m : Nat) : ℚ := x - m * ⌊x / m⌋₊

/-- The chain of tests in `_construct_integer` (utg/constructors.py:25-38); `number` is already non-negative. All comparisons with `nan`
are false, and the remainders of infinity are `nan`. -/
def classifyReal : Option ℚ → IntegerProperties
  | none => .IS_OTHER
  | some number =>
    if number = 1000000 ∨ number = 1000000000 then .IS_KKK
    else if number = 1 then .IS_1
    else if number = 2 ∨ number = 3 ∨ number = 4 then .IS_234
    else if 10 ≤ ratMod number 100 ∧ ratMod number 100 ≤ 19 then .IS_10_19
    else if ratMod number 10 = 1 then .IS_END_BY_1
    else if 2 ≤ ratMod number 10 ∧ ratMod number 10 ≤ 4 then .IS_MOD_234
    else .IS_OTHER

/-- `_construct_integer(number)` (utg/constructors.py:21-40) for a real number. -/
def constructRealFresh (written : Str) (value : Option ℚ) : Except PyErr WordForm := do
  let properties := (classifyReal (value.map fun x => |x|)).properties
  let w ← Word.new .INTEGER [written] properties
  .ok (WordForm.new w)

/-- `_INTEGER_CACHE` is filled if it is `None` (utg/constructors.py:51-52). -/
def IntState.fill (right : Nat) (s : IntState) : Except PyErr IntState :=
  match s.cache with
  | some _ => .ok s
  | none => do
    let (s, cache) ← IntState.allocMany 0 (right - 0 + 1) s
    .ok { s with cache := some cache }

/-- The state that is left, and the result. -/
def IntState.outcome (s : IntState) : Except PyErr (IntState × Obj) → IntState × Except PyErr Obj
  | .ok (s', o) => (s', .ok o)
  | .error e => (s, .error e)

/-- `construct_integer(number)` (utg/constructors.py:47-55) for any argument: `True` and `False` are the indexes 1 and 0; another number is no
index. The constant `_INTEGER_CACHE_RIGHT` is a parameter. -/
def constructNumberWith (right : Nat) (s : IntState) : PyNumber → IntState × Except PyErr Obj
  | .int n => s.outcome (constructIntegerWith right s n)
  | .bool b => s.outcome (constructIntegerWith right s (if b then 1 else 0))
  | .real written value =>
    if ∃ x, value = some x ∧ 0 ≤ x ∧ x ≤ right then
      match s.fill right with
      | .error e => (s, .error e)
      | .ok s => (s, .error .TypeError)
    else match constructRealFresh written value with
      | .error e => (s, .error e)
      | .ok f => ({ s with nextId := s.nextId + 1 }, .ok ⟨s.nextId, f⟩)
  | .other => (s, .error .TypeError)

/-- `construct_integer(number)` (utg/constructors.py:47-55). -/
def constructNumber (s : IntState) (number : PyNumber) : IntState × Except PyErr Obj := constructNumberWith INTEGER_CACHE_RIGHT s number

end Utg
