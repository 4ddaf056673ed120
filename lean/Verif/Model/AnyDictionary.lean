import Verif.Model.AnyWords
import Verif.Model.Dictionary
/-!
# A dictionary of words loaded from any JSON documents

`Dictionary.add_word`, `has_word` and `get_word` for words whose forms are whatever `json.loads` gave. Words and word forms are values. The
float `NaN`, which is not equal to itself, is left out. How numbers compare is a parameter.
-/

namespace Utg
open Py

/-- A number: `bool`, `int` or `float`. -/
def Json.numeric : Json → Bool
  | .bool _ => true
  | .int _ => true
  | .float _ _ => true
  | _ => false

/-- A key of `Dictionary._data` (utg/dictionary.py:7,10): keys that are equal have the same. -/
inductive HKey where
  | nothing
  | number (n : Int)
  | fraction (written : Str)
  | text (s : Str)
  deriving DecidableEq

/-- The key that `x` is: `True == 1 == 1.0`. Lists and objects have no hash. -/
def Json.hkey : Json → Except LoadErr HKey
  | .null => .ok .nothing
  | .bool b => .ok (.number (if b then 1 else 0))
  | .int n => .ok (.number n)
  | .float _ (some n) => .ok (.number n)
  | .float written none => .ok (.fraction written)
  | .str s => .ok (.text s)
  | .arr _ => .error .TypeError
  | .obj _ => .error .TypeError

mutual
/-- `x == y` (the comparison of lists in utg/dictionary.py:33,37). Objects are equal if they have the same keys with equal values. -/
def Json.eqv : Json → Json → Bool
  | .arr xs, y => match y with
    | .arr ys => eqvList xs ys
    | _ => false
  | .obj xs, y => match y with
    | .obj ys => decide (xs.length = ys.length) && eqvItems xs ys
    | _ => false
  | x, y => match x.hkey, y.hkey with
    | .ok a, .ok b => decide (a = b)
    | _, _ => false
/-- `x == y` for lists. -/
def eqvList : List Json → List Json → Bool
  | [], ys => ys.isEmpty
  | x :: xs, ys => match ys with
    | [] => false
    | y :: ys => x.eqv y && eqvList xs ys
/-- All the items are in the other object. -/
def eqvItems : List (Str × Json) → List (Str × Json) → Bool
  | [], _ => true
  | (k, x) :: xs, ys => (match Dict.get? ys k with
    | none => false
    | some y => x.eqv y) && eqvItems xs ys
end

mutual
/-- `x < y` (utg/dictionary.py:33,37). Texts, lists and numbers are compared with their like, everything else raises `TypeError`. -/
def Json.less (numLess : Json → Json → Bool) : Json → Json → Except LoadErr Bool
  | .arr xs, y => match y with
    | .arr ys => lessList numLess xs ys
    | _ => .error .TypeError
  | .str a, y => match y with
    | .str b => .ok (strLt a b)
    | _ => .error .TypeError
  | x, y => if x.numeric && y.numeric then .ok (numLess x y) else .error .TypeError
/-- `x < y` for lists: the first items that are not equal decide. -/
def lessList (numLess : Json → Json → Bool) : List Json → List Json → Except LoadErr Bool
  | [], ys => .ok (!ys.isEmpty)
  | x :: xs, ys => match ys with
    | [] => .ok false
    | y :: ys => if x.eqv y then lessList numLess xs ys else x.less numLess y
end

/-- `WordForm` (utg/words.py:209-217), without `form_properties`. -/
structure LoadedForm where
  word : LoadedWord
  properties : Properties

/-- `Dictionary._data` (utg/dictionary.py:7,10). -/
abbrev LoadedDictionary := Dict HKey LoadedForm

/-- The chain of comparisons of utg/dictionary.py:25-49: does `new` replace `registered`? -/
def replacesAny (numLess : Json → Json → Bool) (new registered : LoadedForm) : Except LoadErr Bool :=
  if new.word.type.value < registered.word.type.value then .ok true
  else if new.word.type.value > registered.word.type.value then .ok false
  else do
    if ← new.word.forms.less numLess registered.word.forms then .ok true
    else if ← registered.word.forms.less numLess new.word.forms then .ok false
    else .ok (decide (new.properties.manhattanDistance < registered.properties.manhattanDistance))

/-- The body of the loop in `add_word` (utg/dictionary.py:19-49) for a word form with key `key`. -/
def LoadedDictionary.register (numLess : Json → Json → Bool) (d : LoadedDictionary) (key : HKey) (f : LoadedForm) :
    Except LoadErr LoadedDictionary :=
  match Dict.get? d key with
  | none => .ok (Dict.set d key f)
  | some registered => do if ← replacesAny numLess f registered then .ok (Dict.set d key f) else .ok d

/-- One word form of `all_forms` (utg/words.py:117-118): its properties. -/
def LoadedWord.nthProperties (w : LoadedWord) (i : Nat) : Except LoadErr Properties :=
  match (invertedCache w.type)[i]? with
  | none => .error (.other .IndexError)
  | some key => .ok (propertiesOfKey key)

/-- One round of the loop in `add_word` (utg/dictionary.py:17-49). -/
def LoadedDictionary.addForm (numLess : Json → Json → Bool) (U : PyUni) (w : LoadedWord) (d : LoadedDictionary) (i : Nat) :
    Except LoadErr LoadedDictionary := do
  let p ← w.nthProperties i
  let text ← w.spell U p
  let key ← text.hkey
  LoadedDictionary.register numLess d key ⟨w, .new [.props p, .props w.properties]⟩

/-- The loop of `add_word` (utg/dictionary.py:17-49) over the remaining indices: the dictionary as it is left behind, and the exception. -/
def LoadedDictionary.addForms (numLess : Json → Json → Bool) (U : PyUni) (w : LoadedWord) :
    LoadedDictionary → List Nat → LoadedDictionary × Option LoadErr
  | d, [] => (d, none)
  | d, i :: is => match LoadedDictionary.addForm numLess U w d i with
    | .error e => (d, some e)
    | .ok d' => LoadedDictionary.addForms numLess U w d' is

/-- `d.add_word(word)` (utg/dictionary.py:16-49). `len(self.forms)` was taken when the word was made, so it is there. -/
def LoadedDictionary.addWord (numLess : Json → Json → Bool) (U : PyUni) (d : LoadedDictionary) (w : LoadedWord) :
    LoadedDictionary × Option LoadErr :=
  match w.forms.size with
  | .error e => (d, some e)
  | .ok n => LoadedDictionary.addForms numLess U w d (List.range n)

/-- `d.has_word(text)` (utg/dictionary.py:52-53). -/
def LoadedDictionary.hasWord (d : LoadedDictionary) (text : Str) : Bool := Dict.contains d (HKey.text text)

/-- `d.get_word(text)` (utg/dictionary.py:55-62). -/
def LoadedDictionary.getWord (d : LoadedDictionary) (text : Str) : Except LoadErr LoadedForm :=
  match Dict.get? d (HKey.text text) with
  | none => .error (.other (.NoWordsFoundError text))
  | some f => .ok f

end Utg
