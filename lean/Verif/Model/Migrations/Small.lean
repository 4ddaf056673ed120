import Verif.Model.Migrations.M0001
import Verif.Model.Migrations.M0003
import Verif.Model.Migrations.M0006
/-!
# The other migrations
-/

namespace Utg
open Py

namespace M0001

/-- `len([1 for old, new in zip(old_key, new_key) if old == new])` (utg/migrations/m_0001_include_short_forms_in_full.py:36). -/
def union : Key → Key → Nat
  | o :: os, n :: ns => (if o = n then 1 else 0) + union os ns
  | _, _ => 0

/-- The loop of `get_nearest_old_index` (m_0001:35-40). `best = none` stands for `best_index = None, best_union = -1`. -/
def nearestLoop (newKey : Key) : Dict Key Nat → Option (Nat × Nat) → Option (Nat × Nat)
  | [], best => best
  | (oldKey, oldIndex) :: rest, best =>
    let u := union oldKey newKey
    match best with
    | none => nearestLoop newKey rest (some (oldIndex, u))
    | some (i, v) => nearestLoop newKey rest (if v < u then some (oldIndex, u) else some (i, v))

/-- `get_nearest_old_index(new_key, old_cache)` (m_0001:28-42): `new_key[1:]` drops the first element. -/
def getNearestOldIndex (newKey : Key) (oldCache : Dict Key Nat) : Option Nat :=
  (nearestLoop newKey.tail oldCache none).map Prod.fst

/-- `migrate_forms` (m_0001:18-25); indexing by `None` is a `TypeError`. -/
def migrateForms (oldCache newCache : Dict Key Nat) (oldForms : List Str) : Except PyErr (List Str) :=
  newCache.foldlM (fun newForms e => match getNearestOldIndex e.1 oldCache with
    | none => .error .TypeError
    | some i => moveForm oldForms newForms e.2 i) (List.replicate newCache.length [])

/-- `migrate(word_data)` (m_0001:7-15). -/
def migrate (d : WordData) : Except PyErr WordData :=
  if d.type = 1 then do .ok { d with forms := ← migrateForms oldAdjective (wordsCache .ADJECTIVE) d.forms }
  else if d.type = 4 then do .ok { d with forms := ← migrateForms oldParticiple (wordsCache .PARTICIPLE) d.forms }
  else .ok d

end M0001

namespace M0002

/-- Word data of that time: with `patches`, index ↦ serialized word (here: its forms). -/
structure PatchedWordData where
  type : Int
  forms : List Str
  patches : Dict Int (List Str)
  deriving DecidableEq, Repr

/-- `migrate(word_data)` (utg/migrations/m_0002_countable_noun_form.py:4-15). -/
def migrate (d : PatchedWordData) : Except PyErr PatchedWordData :=
  if d.type ≠ 0 then .ok d
  else if d.patches ≠ [] then
    match d.patches.get? 7 with
    | none => .error .KeyError
    | some fs => .ok { d with forms := d.forms ++ fs }
  else .ok { d with forms := d.forms ++ d.forms.drop 6 }

end M0002

namespace M0003

/-- Importing utg/migrations/m_0003_change_verb_forms.py evaluates `OLD_VERB_CACHE` (line 30). -/
def importModule : Except PyErr (Dict Key Nat) := evalTable oldVerb

/-- `migrate(word_data)` (m_0003:7-27) with the given `OLD_VERB_CACHE`. -/
def migrateFrom (old : Dict Key Nat) (d : WordData) : Except PyErr WordData :=
  if d.type = 3 then do .ok { d with forms := ← migrateForms old (wordsCache .VERB) d.forms } else .ok d

/-- `migrate(word_data)` (m_0003:7-27) of the module as imported. -/
def migrate (d : WordData) : Except PyErr WordData := do migrateFrom (← importModule) d

end M0003

namespace M0004

/-- `migrate(word_data)` (utg/migrations/m_0004_new_preposition_form.py:3-10). -/
def migrate (d : WordData) : Except PyErr WordData :=
  if d.type ≠ 10 then .ok d
  else match d.forms.getLast? with
    | none => .error .IndexError
    | some f => .ok { d with forms := d.forms ++ [f] }

end M0004

namespace M0005

/-- `migrate(word_data)` (utg/migrations/m_0005_remove_time_participle_property.py:4-12). -/
def migrate (d : WordData) : WordData :=
  if d.type ≠ 4 then d
  else { d with properties := d.properties.filter fun kv => decide (kv.1 ≠ .str (str! "5")) }

end M0005

namespace M0006

/-- Importing utg/migrations/m_0006_per_word_type_restrictions.py evaluates `OLD_CACHES` (lines 30-494). -/
def importModule : Except PyErr (List (WordType × Dict Key Nat)) :=
  WordType.all.mapM fun t => do .ok (t, ← evalTable (oldCaches t))

/-- `migrate(word_data)` (m_0006:8-27) with the given `OLD_CACHES`; the functions are those of m_0007. -/
def migrateFrom (old : WordType → Dict Key Nat) (d : WordData) : Except PyErr WordData := migrateWith old wordsCache d

end M0006

end Utg
