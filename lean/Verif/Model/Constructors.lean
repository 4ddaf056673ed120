import Verif.Model.Words
/-!
# `utg/constructors.py`
-/

namespace Utg
open Py

/-- `INTEGER_PROPERTIES` (utg/constructors.py:9-18). -/
inductive IntegerProperties where
  | IS_KKK | IS_1 | IS_234 | IS_10_19 | IS_END_BY_1 | IS_MOD_234 | IS_OTHER
  deriving DecidableEq, Repr

/-- The column `properties` of `INTEGER_PROPERTIES` (utg/constructors.py:12-18). -/
def IntegerProperties.properties : IntegerProperties → Properties
  | .IS_KKK => .new [.record .NUMBER_PLURAL, .record .INTEGER_FORM_MIL_BIL]                 -- line 12
  | .IS_1 => .new [.record .NUMBER_SINGULAR, .record .INTEGER_FORM_SINGULAR]                -- line 13
  | .IS_234 => .new [.record .NUMBER_PLURAL, .record .INTEGER_FORM_DUAL]                    -- line 14
  | .IS_10_19 => .new [.record .NUMBER_PLURAL, .record .INTEGER_FORM_PLURAL]                -- line 15
  | .IS_END_BY_1 => .new [.record .NUMBER_PLURAL, .record .INTEGER_FORM_SINGULAR]           -- line 16
  | .IS_MOD_234 => .new [.record .NUMBER_PLURAL, .record .INTEGER_FORM_COMPOSITE_DUAL]      -- line 17
  | .IS_OTHER => .new [.record .NUMBER_PLURAL, .record .INTEGER_FORM_PLURAL]                -- line 18

/-- The chain of tests in `_construct_integer` (utg/constructors.py:25-38); `number` is already non-negative. -/
def classifyInteger (number : Nat) : IntegerProperties :=
  if number = 1000000 ∨ number = 1000000000 then .IS_KKK
  else if number = 1 then .IS_1
  else if number = 2 ∨ number = 3 ∨ number = 4 then .IS_234
  else if 10 ≤ number % 100 ∧ number % 100 ≤ 19 then .IS_10_19
  else if number % 10 = 1 then .IS_END_BY_1
  else if 2 ≤ number % 10 ∧ number % 10 ≤ 4 then .IS_MOD_234
  else .IS_OTHER

/-- `_construct_integer(number)` (utg/constructors.py:21-40), for an `int` argument. -/
def constructIntegerFresh (number : Int) : Except PyErr WordForm := do
  let form := pyStr number
  let properties := (classifyInteger number.natAbs).properties
  let w ← Word.new .INTEGER [form] properties
  .ok (WordForm.new w)

/-- A Python object: identity and value. -/
structure Obj where
  id : Nat
  value : WordForm

/-- Module state: the next fresh object identity, and `_INTEGER_CACHE` (utg/constructors.py:43-45). -/
structure IntState where
  nextId : Nat
  cache : Option (List Obj)

/-- The state after import: `_INTEGER_CACHE = None` (utg/constructors.py:45). -/
def IntState.init : IntState := ⟨0, none⟩

/-- Creating the object `_construct_integer(number)`. -/
def IntState.alloc (s : IntState) (number : Int) : Except PyErr (IntState × Obj) := do
  let f ← constructIntegerFresh number
  .ok ({ s with nextId := s.nextId + 1 }, ⟨s.nextId, f⟩)

/-- Allocates the objects for the numbers `start, ..., start + n - 1` in order (the generator of utg/constructors.py:52). -/
def IntState.allocMany (start : Nat) : Nat → IntState → Except PyErr (IntState × List Obj)
  | 0, s => .ok (s, [])
  | n + 1, s => do
    let (s, o) ← s.alloc start
    let (s, os) ← allocMany (start + 1) n s
    .ok (s, o :: os)

/-- `_INTEGER_CACHE_RIGHT` (utg/constructors.py:44); `_INTEGER_CACHE_LEFT` is 0 (line 43). -/
def INTEGER_CACHE_RIGHT : Nat := 10000

/-- The body of `construct_integer` (utg/constructors.py:47-55), with the constant `_INTEGER_CACHE_RIGHT` as a parameter. -/
def constructIntegerWith (right : Nat) (s : IntState) (number : Int) : Except PyErr (IntState × Obj) := do
  if 0 ≤ number ∧ number ≤ right then
    let (s, cache) ← match s.cache with
      | some cache => .ok (s, cache)
      | none => do
        let (s, cache) ← IntState.allocMany 0 (right - 0 + 1) s
        .ok ({ s with cache := some cache }, cache)
    match cache[number.toNat]? with
    | none => .error .IndexError
    | some o => .ok (s, o)
  else s.alloc number

/-- `construct_integer(number)` (utg/constructors.py:47-55). -/
def constructInteger (s : IntState) (number : Int) : Except PyErr (IntState × Obj) :=
  constructIntegerWith INTEGER_CACHE_RIGHT s number

end Utg
