import Verif.Model.Numbers
/-!
# CPython's limit on the number of digits

Since 3.11 `str(number)` and `int(text)` raise `ValueError` for more digits than `sys.get_int_max_str_digits()`, which is 0 (no limit) or at
least 640; by default 4300.
-/

namespace Utg
open Py

/-- `str(n)`: the sign is not counted. -/
def limitedStr (limit : Nat) (n : Int) : Except PyErr Str :=
  if limit ≠ 0 ∧ limit < (natDigits n.natAbs).length then .error .ValueError else .ok (pyStr n)

/-- `int(s)`: digits are counted, leading zeros too, but neither the sign nor underscores nor white space. -/
def limitedInt (limit : Nat) (s : Str) : Except PyErr Int := do
  let n ← pyInt s
  if limit ≠ 0 ∧ limit < (s.filter fun c => (decimalValue c).isSome).length then .error .ValueError else .ok n

/-- `_construct_integer(number)` (utg/constructors.py:21-40). -/
def constructLimitedFresh (limit : Nat) (number : Int) : Except PyErr WordForm := do
  let form ← limitedStr limit number
  let properties := (classifyInteger number.natAbs).properties
  let w ← Word.new .INTEGER [form] properties
  .ok (WordForm.new w)

/-- Creating the object `_construct_integer(number)`. -/
def IntState.allocLimited (limit : Nat) (s : IntState) (number : Int) : Except PyErr (IntState × Obj) := do
  let f ← constructLimitedFresh limit number
  .ok ({ s with nextId := s.nextId + 1 }, ⟨s.nextId, f⟩)

/-- The objects for the numbers `start, ..., start + n - 1` in order (the generator of utg/constructors.py:52). -/
def IntState.allocManyLimited (limit start : Nat) : Nat → IntState → Except PyErr (IntState × List Obj)
  | 0, s => .ok (s, [])
  | n + 1, s => do
    let (s, o) ← s.allocLimited limit start
    let (s, os) ← allocManyLimited limit (start + 1) n s
    .ok (s, o :: os)

/-- `construct_integer(number)` (utg/constructors.py:47-55): the state that is left, and the result. The constant `_INTEGER_CACHE_RIGHT` is
a parameter. -/
def constructLimitedWith (right limit : Nat) (s : IntState) (number : Int) : IntState × Except PyErr Obj :=
  if 0 ≤ number ∧ number ≤ right then
    let filled : Except PyErr (IntState × List Obj) := match s.cache with
      | some cache => .ok (s, cache)
      | none => do
        let (s, cache) ← IntState.allocManyLimited limit 0 (right - 0 + 1) s
        .ok ({ s with cache := some cache }, cache)
    match filled with
    | .error e => (s, .error e)
    | .ok (s, cache) =>
      match cache[number.toNat]? with
      | none => (s, .error .IndexError)
      | some o => (s, .ok o)
  else s.outcome (s.allocLimited limit number)

/-- `construct_integer(number)` (utg/constructors.py:47-55). -/
def constructLimited (limit : Nat) (s : IntState) (number : Int) : IntState × Except PyErr Obj :=
  constructLimitedWith INTEGER_CACHE_RIGHT limit s number

/-- One item of `Properties.deserialize` (utg/words.py:24-27). -/
def deserializeItemLimited (limit : Nat) (kv : JKey × Int) : Except PyErr (Option Rec) := do
  let n ← (match kv.1 with
    | .int n => .ok n
    | .str s => limitedInt limit s : Except PyErr Int)
  match groupOfCode n with
  | none => .ok none
  | some g => .ok (recOfValue g kv.2)

/-- `Properties.deserialize(data)` (utg/words.py:22-27). -/
def Properties.deserializeLimited (limit : Nat) (data : Dict JKey Int) : Except PyErr Properties := do
  let rs ← data.mapM (deserializeItemLimited limit)
  .ok (.new ((rs.filterMap id).map .record))

end Utg
