import Verif.Model.AnyJson
import Verif.Model.Migrations
/-!
# Migrations of anything that `json.loads` can give

`migrate(word_data)` of `utg/migrations/m_0001`, `m_0002`, `m_0004`, `m_0005`, `m_0007`, `m_0008`, `m_0009` on a document that may be damaged.
`migrate` changes the document in place and returns it: the model gives the document as it is left, and what was returned or raised.
-/

namespace Utg
open Py

/-- The document as `migrate` leaves it, and what it returned or raised. -/
structure Migrated where
  doc : Json
  result : Except LoadErr Json

/-- `doc[key] = x` (line 19 of m_0007, m_0008, m_0009; 25 of m_0001); the document is a dictionary, since `doc[key]` was read before. -/
def Json.assign (doc : Json) (key : Str) (x : Json) : Json :=
  match doc with
  | .obj items => .obj (Dict.set items key x)
  | j => j

/-- `WORD_TYPE(x)` (line 8 of m_0007, m_0008, m_0009). -/
def wordTypeOfJson (x : Json) : Except LoadErr WordType :=
  match x.asKey with
  | .error e => .error e
  | .ok none => .error (.Lookup x)
  | .ok (some v) => match wordTypeOfValue v with
    | none => .error (.Lookup x)
    | some t => .ok t

/-- `x == n` (m_0001:9,12; `!=` in m_0002:6, m_0004:5, m_0005:6): a list, a dictionary, a text or `None` is different from every number. -/
def Json.isInt (n : Int) (x : Json) : Bool :=
  match x.asKey with
  | .ok (some v) => v == n
  | _ => false

/-- `new_forms[new_index] = old_forms[old_index]` (line 17 of m_0007, m_0008, m_0009; 23 of m_0001). -/
def movePart (oldForms : Json) (newForms : List Json) (newIndex oldIndex : Nat) : Except LoadErr (List Json) :=
  match oldForms.nth oldIndex with
  | .error e => .error e
  | .ok x => if newIndex < newForms.length then .ok (newForms.set newIndex x) else .error (.other .IndexError)

/-- The loop of `migrate_forms` (lines 14-17 of m_0007, m_0008, m_0009; 20-23 of m_0001); `near` is `get_nearest_old_index`. -/
def pickParts (near : Key → Except PyErr Nat) (newCache : Dict Key Nat) (oldForms : Json) : Except LoadErr (List Json) :=
  newCache.foldlM (fun newForms e => match near e.1 with
    | .error x => .error (.other x)
    | .ok i => movePart oldForms newForms e.2 i) (List.replicate newCache.length (.str []))

/-- `migrate_forms(word_data, old_cache, new_cache)` (lines 12-21 of m_0007, m_0008, m_0009; 18-25 of m_0001): the new list is put into the
document when it is complete. -/
def migratePicked (near : Key → Except PyErr Nat) (newCache : Dict Key Nat) (doc : Json) : Migrated :=
  match doc.item (str! "forms") with
  | .error e => ⟨doc, .error e⟩
  | .ok oldForms => match pickParts near newCache oldForms with
    | .error e => ⟨doc, .error e⟩
    | .ok newForms =>
      let doc' := doc.assign (str! "forms") (.arr newForms)
      ⟨doc', .ok doc'⟩

/-- `migrate(word_data)` (lines 7-9 of m_0007, m_0008 and m_0009; 8-10 of m_0006). -/
def migrateJson (oldCaches newCaches : WordType → Dict Key Nat) (doc : Json) : Migrated :=
  match doc.item (str! "type") with
  | .error e => ⟨doc, .error e⟩
  | .ok x => match wordTypeOfJson x with
    | .error e => ⟨doc, .error e⟩
    | .ok t => migratePicked (getNearestOldIndex · (oldCaches t)) (newCaches t) doc

/-- m_0007 with its tables. -/
def M0007.migrateJson := Utg.migrateJson M0007.oldCaches M0007.newCaches

/-- m_0008 with its tables. -/
def M0008.migrateJson := Utg.migrateJson M0008.oldCaches M0008.newCaches

/-- m_0009 with its tables. -/
def M0009.migrateJson := Utg.migrateJson M0009.oldCaches M0009.newCaches

/-- `get_nearest_old_index(new_key, old_cache)` of m_0001 (28-42) used as an index: `None` is a `TypeError` (for an empty table only). -/
def M0001.nearest (oldCache : Dict Key Nat) (newKey : Key) : Except PyErr Nat :=
  match M0001.getNearestOldIndex newKey oldCache with
  | none => .error .TypeError
  | some i => .ok i

/-- `migrate(word_data)` (m_0001:7-15): the two `if`s in turn. -/
def M0001.migrateJson (doc : Json) : Migrated :=
  match doc.item (str! "type") with
  | .error e => ⟨doc, .error e⟩
  | .ok x =>
    if x.isInt 1 then migratePicked (M0001.nearest M0001.oldAdjective) (wordsCache .ADJECTIVE) doc
    else if x.isInt 4 then migratePicked (M0001.nearest M0001.oldParticiple) (wordsCache .PARTICIPLE) doc
    else ⟨doc, .ok doc⟩

/-- `bool(x)` (m_0002:10): `0`, `0.0`, `False`, `None` and whatever is empty are false. -/
def Json.truth : Json → Bool
  | .null => false
  | .bool b => b
  | .int n => n != 0
  | .float _ n => n != some 0
  | .str s => !s.isEmpty
  | .arr items => !items.isEmpty
  | .obj items => !items.isEmpty

/-- A number: `bool`, `int` or `float`. -/
def Json.isNumeral : Json → Bool
  | .bool _ | .int _ | .float .. => true
  | _ => false

/-- `x += y` (m_0002:11,13). A list takes in whatever can be iterated; a text only a text; `plus` is the sum of two numbers, whatever it is. -/
def Json.add (plus : Json → Json → Json) (x y : Json) : Except LoadErr Json :=
  match x, y with
  | .arr items, y => match y.iterate with
    | .error e => .error e
    | .ok more => .ok (.arr (items ++ more))
  | .str s, .str t => .ok (.str (s ++ t))
  | x, y => if x.isNumeral && y.isNumeral then .ok (plus x y) else .error .TypeError

/-- `list(x[k:])` (m_0002:13). A dictionary raises `TypeError` (`KeyError` in Python 3.12 and later). -/
def Json.rest (k : Nat) : Json → Except LoadErr Json
  | .str s => .ok (.arr ((s.drop k).map fun c => .str [c]))
  | .arr items => .ok (.arr (items.drop k))
  | _ => .error .TypeError

/-- What is added to the forms (m_0002:10-13): `word_data['patches'][7]['forms']`, or `list(word_data['forms'][6:])`. -/
def M0002.addition (doc patches forms : Json) : Except LoadErr Json :=
  if patches.truth then
    match doc.item (str! "patches") with
    | .error e => .error e
    | .ok patches => match patches.nth 7 with
      | .error e => .error e
      | .ok patch => patch.item (str! "forms")
  else forms.rest 6

/-- `migrate(word_data)` (utg/migrations/m_0002_countable_noun_form.py:4-15). The left side of `+=` is read before the right one. -/
def M0002.migrateJson (plus : Json → Json → Json) (doc : Json) : Migrated :=
  match doc.item (str! "type") with
  | .error e => ⟨doc, .error e⟩
  | .ok x =>
    if !x.isInt 0 then ⟨doc, .ok doc⟩
    else match doc.item (str! "patches") with
      | .error e => ⟨doc, .error e⟩
      | .ok patches => match doc.item (str! "forms") with
        | .error e => ⟨doc, .error e⟩
        | .ok forms => match M0002.addition doc patches forms with
          | .error e => ⟨doc, .error e⟩
          | .ok more => match forms.add plus more with
            | .error e => ⟨doc, .error e⟩
            | .ok forms' =>
              let doc' := doc.assign (str! "forms") forms'
              ⟨doc', .ok doc'⟩

/-- `migrate(word_data)` (utg/migrations/m_0004_new_preposition_form.py:3-10): the method `append` is looked up first. -/
def M0004.migrateJson (doc : Json) : Migrated :=
  match doc.item (str! "type") with
  | .error e => ⟨doc, .error e⟩
  | .ok x =>
    if !x.isInt 10 then ⟨doc, .ok doc⟩
    else match doc.item (str! "forms") with
      | .error e => ⟨doc, .error e⟩
      | .ok (.arr items) => match items.getLast? with
        | none => ⟨doc, .error (.other .IndexError)⟩
        | some last =>
          let doc' := doc.assign (str! "forms") (.arr (items ++ [last]))
          ⟨doc', .ok doc'⟩
      | .ok _ => ⟨doc, .error .AttributeError⟩

/-- `x == '5'`. -/
def Json.isText (s : Str) : Json → Bool
  | .str t => t == s
  | _ => false

/-- `'5' in x` (m_0005:9): a key of a dictionary, an item of a list, a part of a text. -/
def Json.hasFive : Json → Except LoadErr Bool
  | .obj items => .ok (Dict.contains items (str! "5"))
  | .arr items => .ok (items.any (Json.isText (str! "5")))
  | .str s => .ok (s.contains '5')
  | _ => .error .TypeError

/-- `migrate(word_data)` (utg/migrations/m_0005_remove_time_participle_property.py:4-12): neither a list nor a text can delete the item `'5'`. -/
def M0005.migrateJson (doc : Json) : Migrated :=
  match doc.item (str! "type") with
  | .error e => ⟨doc, .error e⟩
  | .ok x =>
    if !x.isInt 4 then ⟨doc, .ok doc⟩
    else match doc.item (str! "properties") with
      | .error e => ⟨doc, .error e⟩
      | .ok properties => match properties.hasFive with
        | .error e => ⟨doc, .error e⟩
        | .ok false => ⟨doc, .ok doc⟩
        | .ok true => match properties with
          | .obj items =>
            let doc' := doc.assign (str! "properties") (.obj (items.filter fun kv => decide (kv.1 ≠ str! "5")))
            ⟨doc', .ok doc'⟩
          | _ => ⟨doc, .error .TypeError⟩

end Utg
