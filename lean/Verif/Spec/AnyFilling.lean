import Verif.Model.AnyFilling
import Verif.Spec.AnyDictionary
import Verif.Spec.Expressive
/-! # Proper words that stand for words loaded from any JSON documents -/

namespace Utg.Spec
open Py

/-- The proper word form `g` stands for the loaded word form `f`: it is of the same part of speech and has the same properties; only the
forms may be others. -/
structure StandsFor (g : WordForm) (f : LoadedForm) : Prop where
  accepted : Accepted g.word
  type : g.word.type = f.word.type
  own : g.word.properties = f.word.properties
  properties : g.properties = f.properties

/-- The externals stand for the loaded ones. -/
def StandFor (ext' : Externals) (ext : LoadedExternals) : Prop :=
  ∀ n, (ext.get? n = none → ext'.get? n = none) ∧ ∀ f, ext.get? n = some f → ∃ g, ext'.get? n = some g ∧ StandsFor g f.toLoadedForm

/-- The loaded word form for an id: the external of this name, else what the dictionary has. -/
def ResolvesLoaded (ext : LoadedExternals) (d : LoadedDictionary) (id : Str) (f : LoadedForm) : Prop :=
  (∃ e, ext.get? id = some e ∧ e.toLoadedForm = f) ∨ ext.get? id = none ∧ d.getWord id = .ok f

/-- A form with a capital letter, if that is asked for. -/
def inCaseLoaded (U : PyUni) (upper : Bool) (form : Json) : Except LoadErr Json :=
  match upper, form with
  | false, form => .ok form
  | true, .str (c :: cs) => .ok (.str (U.upperC c ++ cs))
  | true, .str [] => .error (.other .IndexError)
  | true, .arr [] => .error (.other .IndexError)
  | true, .arr (.str _ :: _) => .error .TypeError
  | true, .arr (_ :: _) => .error .AttributeError
  | true, .obj _ => .error (.KeyError (pyStr 0))
  | true, _ => .error .TypeError

/-- Externals as they are if their words were saved and loaded. -/
def asLoadedExternals (ext : Externals) : LoadedExternals := ext.map fun kv => (kv.1, ⟨asLoadedForm kv.2, kv.2.formProperties⟩)

/-- The value has no first letter that could be looked at; Python raises `e`. -/
inductive NoFirstLetter : Json → LoadErr → Prop
  | null : NoFirstLetter .null .TypeError
  | bool (b : Bool) : NoFirstLetter (.bool b) .TypeError
  | int (n : Int) : NoFirstLetter (.int n) .TypeError
  | float (written : Str) (n : Option Int) : NoFirstLetter (.float written n) .TypeError
  | emptyText : NoFirstLetter (.str []) (.other .IndexError)
  | emptyList : NoFirstLetter (.arr []) (.other .IndexError)
  | object (items : List (Str × Json)) : NoFirstLetter (.obj items) (.KeyError (pyStr 0))
  | list (y : Json) (ys : List Json) : IsCompound y → NoFirstLetter (.arr (y :: ys)) .TypeError

/-- The value has no last letter that could be looked at; Python raises `e`. -/
inductive NoLastLetter : Json → LoadErr → Prop
  | null : NoLastLetter .null .TypeError
  | bool (b : Bool) : NoLastLetter (.bool b) .TypeError
  | int (n : Int) : NoLastLetter (.int n) .TypeError
  | float (written : Str) (n : Option Int) : NoLastLetter (.float written n) .TypeError
  | emptyText : NoLastLetter (.str []) (.other .IndexError)
  | emptyList : NoLastLetter (.arr []) (.other .IndexError)
  | object (items : List (Str × Json)) : NoLastLetter (.obj items) (.KeyError (str! "-1"))
  | list (ys : List Json) (y : Json) : IsCompound y → NoLastLetter (.arr (ys ++ [y])) .TypeError

/-- A list whose first item is no letter, and can be looked for among letters: `null`, a number, a text of none or several letters. -/
def OddFirst (x : Json) : Prop := ∃ y ys, x = .arr (y :: ys) ∧ ¬ IsCompound y ∧ ∀ c, y ≠ .str [c]

/-- A dependency on a variable as one on the properties of the word given for it. -/
def asProperties (ext : LoadedExternals) : Dep → Dep
  | .props p => .props p
  | .ext n => match ext.get? n with
    | some f => .props f.properties
    | none => .ext n

end Utg.Spec
