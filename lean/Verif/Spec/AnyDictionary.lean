import Verif.Model.AnyDictionary
import Verif.Spec.AnyWords
/-! # What a dictionary of words loaded from any JSON documents has -/

namespace Utg.Spec
open Py

/-- The dictionary after `add_word` was called for all the words, those included for which it raised an exception. -/
def loadedHistory (numLess : Json → Json → Bool) (U : PyUni) (ws : List LoadedWord) : LoadedDictionary :=
  ws.foldl (fun d w => (d.addWord numLess U w).1) []

/-- The form of the word for its `i`-th key is spelled `x`. -/
def SpelledAt (U : PyUni) (w : LoadedWord) (i : Nat) (x : Json) : Prop :=
  ∃ ks key, Word.getKeys w.type = .ok ks ∧ ks[i]? = some (some key) ∧ w.spell U (propertiesOfKey key) = .ok x

mutual
/-- As `json.loads` gives it: no object has a key twice. -/
def Distinct : Json → Prop
  | .arr items => DistinctList items
  | .obj items => (items.map Prod.fst).Nodup ∧ DistinctItems items
  | _ => True
/-- The same for lists. -/
def DistinctList : List Json → Prop
  | [] => True
  | x :: xs => Distinct x ∧ DistinctList xs
/-- The same for the items of an object. -/
def DistinctItems : List (Str × Json) → Prop
  | [] => True
  | (_, x) :: xs => Distinct x ∧ DistinctItems xs
end

mutual
/-- Python finds the two values equal: `1`, `1.0` and `true` are. -/
inductive Same : Json → Json → Prop
  | null : Same .null .null
  | number (x y : Json) (n : Int) : IsNumber x n → IsNumber y n → Same x y
  | fraction (written : Str) : Same (.float written none) (.float written none)
  | text (s : Str) : Same (.str s) (.str s)
  | list (xs ys : List Json) : EqualLists xs ys → Same (.arr xs) (.arr ys)
  | object (xs ys : List (Str × Json)) : xs.length = ys.length → EqualFields xs ys → Same (.obj xs) (.obj ys)
/-- The lists are equal item by item. -/
inductive EqualLists : List Json → List Json → Prop
  | nil : EqualLists [] []
  | cons (x y : Json) (xs ys : List Json) : Same x y → EqualLists xs ys → EqualLists (x :: xs) (y :: ys)
/-- The second object has all the fields of the first, with equal values. -/
inductive EqualFields : List (Str × Json) → List (Str × Json) → Prop
  | nil (ys : List (Str × Json)) : EqualFields [] ys
  | cons (k : Str) (x y : Json) (xs ys : List (Str × Json)) : HasField (.obj ys) k y → Same x y → EqualFields xs ys → EqualFields ((k, x) :: xs) ys
end

/-- Python can compare two values by `<` if they are of one of these kinds: numbers (truth values included), texts, lists. -/
inductive OfOneKind : Json → Json → Prop
  | numbers (x y : Json) : (∃ b, x = .bool b) ∨ (∃ n, x = .int n) ∨ (∃ s v, x = .float s v) →
      (∃ b, y = .bool b) ∨ (∃ n, y = .int n) ∨ (∃ s v, y = .float s v) → OfOneKind x y
  | texts (s t : Str) : OfOneKind (.str s) (.str t)
  | lists (xs ys : List Json) : OfOneKind (.arr xs) (.arr ys)

/-- Python cannot compare the values by `<`: they are not of one kind, or they are lists, and the first items that differ cannot be compared. -/
inductive CannotCompare : Json → Json → Prop
  | kinds (x y : Json) : ¬ OfOneKind x y → CannotCompare x y
  | items (pre pre' : List Json) (x y : Json) (xs ys : List Json) : EqualLists pre pre' → ¬ Same x y → CannotCompare x y →
      CannotCompare (.arr (pre ++ x :: xs)) (.arr (pre' ++ y :: ys))

/-- The form of the word for its `i`-th key cannot be spelled: `e` is raised. -/
def UnspelledAt (U : PyUni) (w : LoadedWord) (i : Nat) (e : LoadErr) : Prop :=
  ∃ ks key, Word.getKeys w.type = .ok ks ∧ ks[i]? = some (some key) ∧ w.spell U (propertiesOfKey key) = .error e

/-- A word, as it is after it was saved and loaded. -/
def asLoaded (w : Word) : LoadedWord := ⟨w.type, .arr (w.forms.map .str), w.properties⟩

/-- A word form of such a word. -/
def asLoadedForm (f : WordForm) : LoadedForm := ⟨asLoaded f.word, f.properties⟩

end Utg.Spec
