import Verif.Model.Words
/-!
# The code shared by `utg/migrations/m_0007_*.py`, `m_0008_*.py`, `m_0009_*.py`

The three modules contain the same functions (lines 7-26 of each) and differ in their tables. Word data are the serialized
words of `utg/words.py:93-96`; `migrate` updates them in place and returns them, the model returns the updated data.
-/

namespace Utg
open Py

/-- `get_nearest_old_index(new_key, old_cache)` (lines 24-26 of m_0007, m_0008 and m_0009; 25-27 of m_0003, m_0006): a
`KeyError` if there are no old keys. -/
def getNearestOldIndex (newKey : Key) (oldCache : Dict Key Nat) : Except PyErr Nat :=
  match getNearestKey newKey oldCache.keys with
  | none => .error .KeyError
  | some oldKey => match oldCache.get? oldKey with
    | none => .error .KeyError
    | some i => .ok i

/-- `new_forms[new_index] = old_forms[old_index]` (line 17 of m_0007, m_0008 and m_0009). -/
def moveForm (oldForms newForms : List Str) (newIndex oldIndex : Nat) : Except PyErr (List Str) :=
  match oldForms[oldIndex]? with
  | none => .error .IndexError
  | some f => if newIndex < newForms.length then .ok (newForms.set newIndex f) else .error .IndexError

/-- `migrate_forms` (lines 12-21 of m_0007, m_0008 and m_0009), as a function of the list of forms. -/
def migrateForms (oldCache newCache : Dict Key Nat) (oldForms : List Str) : Except PyErr (List Str) :=
  newCache.foldlM (fun newForms e => do moveForm oldForms newForms e.2 (← getNearestOldIndex e.1 oldCache))
    (List.replicate newCache.length [])

/-- `migrate(word_data)` (lines 7-9 of m_0007, m_0008 and m_0009). -/
def migrateWith (oldCaches newCaches : WordType → Dict Key Nat) (d : WordData) : Except PyErr WordData :=
  match wordTypeOfValue d.type with
  | none => .error (.RelsLookupError d.type)
  | some t => do .ok { d with forms := ← migrateForms (oldCaches t) (newCaches t) d.forms }

end Utg
