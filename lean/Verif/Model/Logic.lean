import Verif.Model.Relations
import Verif.Py.Dict
import Verif.Py.Float64
/-!
# `utg/logic.py`

Generators become lists. A key is a list of optional records: `None` in a key is `none`.
-/

namespace Utg
open Py

/-- A form key or raw key: a tuple of records and `None`s. -/
abbrev Key := List (Option Rec)

/-- `restrictions[word_type]`: record ↦ relations it switches off (utg/restrictions.py:6-25). -/
abbrev Restrictions := Dict Rec (List Group)

/-- `get_default_properties()[relation]` (utg/logic.py:12-20): the first record of the relation, but `None` for `WORD_TYPE`. -/
def defaultProperty (g : Group) : Option Rec :=
  if g = .WORD_TYPE then none else g.records.head?

/-- `get_verbose_to_relations()` (utg/logic.py:22-29): verbose id ↦ record, relations in order of definition. -/
def verboseToProperties : Dict Str Rec :=
  (Group.all.flatMap Group.records).foldl (fun d r => d.set r.verboseId r) []

/-- The test of utg/logic.py:41-42: some used property switches `central` off. -/
def isRestricted (left : Key) (central : Group) (restrictions : Restrictions) : Bool :=
  left.any fun used =>
    match used with
    | none => false
    | some r => match restrictions.get? r with
      | none => false
      | some gs => gs.contains central

/-- `_keys_generator(left, right, restrictions)` (utg/logic.py:32-51). -/
def keysGenerator (left : Key) (right : List Group) (restrictions : Restrictions) : List Key :=
  match right with
  | [] => [[]]
  | central :: right =>
    if isRestricted left central restrictions then
      (keysGenerator (left ++ [none]) right restrictions).map fun tail => none :: tail
    else
      central.records.flatMap fun record =>
        (keysGenerator (left ++ [some record]) right restrictions).map fun tail => some record :: tail

/-- `restricted_part.issubset(set(key))` (utg/logic.py:56). -/
def containsPart (part : List Rec) (key : Key) : Bool := part.all fun r => key.contains (some r)

/-- `_restricted_keys_generator` (utg/logic.py:53-59): drops the keys that contain a restricted part. -/
def restrictedKeysGenerator (left : Key) (right : List Group) (restrictions : Restrictions) (parts : List (List Rec)) :
    List Key :=
  (keysGenerator left right restrictions).filter fun key => !(parts.any fun part => containsPart part key)

/-- `_get_cache` (utg/logic.py:62-70): (key ↦ index, list of keys). -/
def getCache (schema : List Group) (restrictions : Restrictions) (parts : List (List Rec)) : Dict Key Nat × List Key :=
  let ks := restrictedKeysGenerator [] schema restrictions parts
  ((ks.zipIdx).foldl (fun d ki => d.set ki.1 ki.2) [], ks)

/-- The contribution `1 + 0.01 * index` of a match at `index` (utg/logic.py:96), in binary64. -/
def simTerm (index : Nat) : Nat := F64.add F64.one (F64.mulNat F64.c001 index)

/-- The inner loop of `get_nearest_key` (utg/logic.py:93-96) from position `index` and accumulated similarity `acc`. -/
def similarityFrom (index : Nat) (acc : Nat) : Key → Key → Nat
  | k :: ks, a :: as => similarityFrom (index + 1) (if k = a then F64.add acc (simTerm index) else acc) ks as
  | _, _ => acc

/-- `current_similarity` of an available key (utg/logic.py:93-96); `zip` stops at the shorter key. -/
def similarity (key availableKey : Key) : Nat := similarityFrom 0 0 key availableKey

/-- The outer loop of `get_nearest_key` (utg/logic.py:92-100). `best = none` stands for `best_key = None,
best_similarity = -1`. -/
def nearestLoop (key : Key) : List Key → Option (Key × Nat) → Option (Key × Nat)
  | [], best => best
  | a :: as, best =>
    let s := similarity key a
    match best with
    | none => nearestLoop key as (some (a, s))
    | some (b, t) => nearestLoop key as (if t < s then some (a, s) else some (b, t))

/-- `get_nearest_key(key, available_keys)` (utg/logic.py:88-102). -/
def getNearestKey (key : Key) (availableKeys : List Key) : Option Key :=
  (nearestLoop key availableKeys none).map Prod.fst

/-- `_raw_keys_generator(key, schema)` (utg/logic.py:105-122). A key longer than the schema would be an `IndexError`; it does
not occur (keys come from the same schema), the model returns no keys. -/
def rawKeysGenerator : Key → List Group → List Key
  | [], _ => [[]]
  | _ :: _, [] => []
  | some r :: ks, _ :: gs => (rawKeysGenerator ks gs).map fun tail => some r :: tail
  | none :: ks, g :: gs => g.records.flatMap fun head => (rawKeysGenerator ks gs).map fun tail => some head :: tail

/-- `_full_keys_generator(schema)` (utg/logic.py:125-134). -/
def fullKeysGenerator : List Group → List Key
  | [] => [[]]
  | g :: gs => g.records.flatMap fun r => (fullKeysGenerator gs).map fun tail => some r :: tail

/-- First loop of `_get_raw_cache` (utg/logic.py:140-143). -/
def rawCacheExisting (keys : List Key) (schema : List Group) : Dict Key Nat :=
  (keys.zipIdx.flatMap fun ki => (rawKeysGenerator ki.1 schema).map fun rk => (rk, ki.2)).foldl
    (fun d e => d.set e.1 e.2) []

/-- One step of the second loop of `_get_raw_cache` (utg/logic.py:146-151): `cache[nearest_key]` is a `KeyError` if there is
no nearest key (`None`). -/
def rawCacheFill (cache : Dict Key Nat) (key : Key) : Except PyErr (Dict Key Nat) :=
  if cache.contains key then .ok cache
  else match getNearestKey key cache.keys with
    | none => .error .KeyError
    | some nk => match cache.get? nk with
      | none => .error .KeyError
      | some i => .ok (cache.set key i)

/-- `_get_raw_cache(keys, schema)` (utg/logic.py:137-153). -/
def getRawCache (keys : List Key) (schema : List Group) : Except PyErr (Dict Key Nat) :=
  (fullKeysGenerator schema).foldlM rawCacheFill (rawCacheExisting keys schema)

end Utg
