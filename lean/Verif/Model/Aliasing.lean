import Verif.Model.Migrations
/-!
# Lists of forms as shared objects

`Verif.Model.Words` treats a word and its saved data as values. In the program both hold a reference to a Python list:
`Word(type, forms)` keeps the caller's list (utg/words.py:89), `serialize` puts the word's own list into the data
(utg/words.py:95) and `deserialize` takes the list of the data (utg/words.py:101). `autofill_missed_forms`
(utg/words.py:189-205) and two of the migrations change a list in place. This module models words, saved data and the lists they
share; all three are named by their position in the order of creation. `Properties` objects have no public method that changes
them, and the dictionary made by `Properties.serialize` is referred to by one saved word only, so both stay values.
-/

namespace Utg
open Py

/-- A `Word` object (utg/words.py:82-91) with a reference to its list of forms. -/
structure WordRef where
  type : WordType
  forms : Nat
  properties : Properties
  deriving DecidableEq, Repr

/-- The dictionary returned by `Word.serialize` (utg/words.py:93-96), or a loaded one, with a reference to its list of forms. -/
structure DataRef where
  type : Int
  forms : Nat
  properties : Dict JKey Int
  deriving DecidableEq, Repr

/-- All lists of forms, all words, all saved data. -/
structure Memory where
  lists : List (List Str)
  words : List WordRef
  data : List DataRef
  deriving DecidableEq, Repr

/-- What a word is now. -/
def Memory.word (m : Memory) (w : Nat) : Option Word :=
  match m.words[w]? with
  | none => none
  | some r => (m.lists[r.forms]?).map fun fs => ⟨r.type, fs, r.properties⟩

/-- What saved data are now. -/
def Memory.saved (m : Memory) (d : Nat) : Option WordData :=
  match m.data[d]? with
  | none => none
  | some r => (m.lists[r.forms]?).map fun fs => ⟨r.type, fs, r.properties⟩

/-- `json.loads(json.dumps(data))`: the codes become strings, the order stays. The keys of one dictionary are taken to be all
numbers or all strings. -/
def viaJson (d : WordData) : WordData :=
  ⟨d.type, d.forms, d.properties.map fun kv => (match kv.1 with | .int n => .str (pyStr n) | k => k, kv.2)⟩

/-- The migrations that work on saved data of this shape; m_0002 wants `patches`, m_0003 and m_0006 cannot be imported. -/
inductive Migration where
  | m1 | m4 | m5 | m7 | m8 | m9
  deriving DecidableEq, Repr

/-- What the migration makes of the data (modules `Model/Migrations`). -/
def Migration.apply : Migration → WordData → Except PyErr WordData
  | .m1 => M0001.migrate
  | .m4 => M0004.migrate
  | .m5 => fun d => .ok (M0005.migrate d)
  | .m7 => M0007.migrate
  | .m8 => M0008.migrate
  | .m9 => M0009.migrate

/-- Whether the data get a new list (`word_data['forms'] = new_forms`: m_0001:25 for adjectives and participles, line 19 of m_0007,
m_0008, m_0009); otherwise the old list is kept and m_0004:8 appends to it. -/
def Migration.newList (k : Migration) (d : WordData) : Bool :=
  match k with
  | .m1 => decide (d.type = 1 ∨ d.type = 4)
  | .m4 | .m5 => false
  | .m7 | .m8 | .m9 => true

/-- The loop of `autofill_missed_forms` (utg/words.py:196-205) on the list itself: the list as the loop leaves it, and the
exception raised, if any. -/
def autofillRun (t : WordType) (available : List Key) : List Nat → List Str → List Str × Option PyErr
  | [], forms => (forms, none)
  | i :: is, forms => match autofillStep t available forms i with
    | .error e => (forms, some e)
    | .ok forms => autofillRun t available is forms

/-- `autofill_missed_forms` (utg/words.py:189-205) on the list itself. -/
def autofillList (t : WordType) (forms : List Str) : List Str × Option PyErr :=
  match availableKeys t forms with
  | .error e => (forms, some e)
  | .ok available => autofillRun t available (List.range forms.length) forms

/-- What a user can do. -/
inductive MOp where
  /-- `['...', ...]` -/
  | list (texts : List Str)
  /-- `Word(type, list, properties)` (utg/words.py:82-91) -/
  | create (type : WordType) (list : Nat) (properties : Properties)
  /-- `Word(type, ['...', ...], properties)` -/
  | createFrom (type : WordType) (texts : List Str) (properties : Properties)
  /-- `word.serialize()` (utg/words.py:93-96) -/
  | serialize (word : Nat)
  /-- `Word.deserialize(data)` (utg/words.py:98-102) -/
  | deserialize (data : Nat)
  /-- `json.loads(json.dumps(word.serialize()))` -/
  | saveJson (word : Nat)
  /-- `Word.deserialize(json.loads(json.dumps(data)))` -/
  | loadJson (data : Nat)
  /-- `list[i] = text` -/
  | setItem (list i : Nat) (text : Str)
  /-- `word.forms[i] = text` -/
  | setForm (word i : Nat) (text : Str)
  /-- `list.append(text)` -/
  | append (list : Nat) (text : Str)
  /-- `word.autofill_missed_forms()` (utg/words.py:189-205) -/
  | autofill (word : Nat)
  /-- `word.forms = list` -/
  | assignForms (word list : Nat)
  /-- `data['forms'] = list` -/
  | assignData (data list : Nat)
  /-- `m_000k.migrate(data)` -/
  | migrate (k : Migration) (data : Nat)
  deriving DecidableEq, Repr

/-- Replace the contents of a list. -/
def Memory.change (m : Memory) (l : Nat) (f : List Str → List Str) : Memory :=
  match m.lists[l]? with
  | none => m
  | some fs => { m with lists := m.lists.set l (f fs) }

/-- `Word(type, list, properties)` with the list named `l` (utg/words.py:82-91); nothing is created if it raises. -/
def Memory.newWord (m : Memory) (t : WordType) (l : Nat) (p : Properties) : Memory :=
  match m.lists[l]? with
  | none => m
  | some fs => match Word.new t fs p with
    | .error _ => m
    | .ok _ => { m with words := m.words ++ [⟨t, l, p⟩] }

/-- `Word.deserialize(data)` where the list of `data` is the one named `l` (utg/words.py:98-102). -/
def Memory.newLoaded (m : Memory) (l : Nat) (d : WordData) : Memory :=
  match Word.deserialize d with
  | .error _ => m
  | .ok w => { m with words := m.words ++ [⟨w.type, l, w.properties⟩] }

/-- One operation. An operation on an object that does not exist or that raises an exception changes nothing, except that
`autofill_missed_forms` keeps what it had done. -/
def Memory.step (m : Memory) : MOp → Memory
  | .list texts => { m with lists := m.lists ++ [texts] }
  | .create t l p => m.newWord t l p
  | .createFrom t texts p => Memory.newWord { m with lists := m.lists ++ [texts] } t m.lists.length p
  | .serialize w => match m.words[w]? with
    | none => m
    | some r => { m with data := m.data ++ [⟨r.type.value, r.forms, r.properties.serialize⟩] }
  | .deserialize d => match m.data[d]?, m.saved d with
    | some r, some data => m.newLoaded r.forms data
    | _, _ => m
  | .saveJson w => match m.word w with
    | none => m
    | some v =>
      let data := viaJson v.serialize
      { m with lists := m.lists ++ [data.forms], data := m.data ++ [⟨data.type, m.lists.length, data.properties⟩] }
  | .loadJson d => match m.saved d with
    | none => m
    | some data => Memory.newLoaded { m with lists := m.lists ++ [(viaJson data).forms] } m.lists.length (viaJson data)
  | .setItem l i text => m.change l fun fs => fs.set i text
  | .setForm w i text => match m.words[w]? with
    | none => m
    | some r => m.change r.forms fun fs => fs.set i text
  | .append l text => m.change l fun fs => fs ++ [text]
  | .autofill w => match m.words[w]? with
    | none => m
    | some r => m.change r.forms fun fs => (autofillList r.type fs).1
  | .assignForms w l => match m.words[w]?, m.lists[l]? with
    | some r, some _ => { m with words := m.words.set w { r with forms := l } }
    | _, _ => m
  | .assignData d l => match m.data[d]?, m.lists[l]? with
    | some r, some _ => { m with data := m.data.set d { r with forms := l } }
    | _, _ => m
  | .migrate k d => match m.data[d]?, m.saved d with
    | some r, some data => match k.apply data with
      | .error _ => m
      | .ok new =>
        if k.newList data then
          { m with lists := m.lists ++ [new.forms], data := m.data.set d { r with forms := m.lists.length, properties := new.properties } }
        else
          { m.change r.forms (fun _ => new.forms) with data := m.data.set d { r with properties := new.properties } }
    | _, _ => m

/-- The memory after a sequence of operations. -/
def Memory.after (ops : List MOp) : Memory := ops.foldl Memory.step ⟨[], [], []⟩

end Utg
