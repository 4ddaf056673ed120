import Verif.Model.Aliasing
/-! # What sharing of lists should and should not be seen -/

namespace Utg.Spec
open Py

/-- The operation uses the list named `l` by its name. -/
def UsesList (l : Nat) : MOp → Prop
  | .create _ k _ | .setItem k _ _ | .append k _ | .assignForms _ k => k = l
  | .assignData _ k => k = l
  | _ => False

/-- The operation uses the data named `d`, other than by reading them into JSON. -/
def UsesData (d : Nat) : MOp → Prop
  | .deserialize k | .assignData k _ | .migrate _ k => k = d
  | _ => False

/-- The operation may give the word named `w` another list. -/
def ReplacesForms (w : Nat) : MOp → Prop
  | .assignForms k _ => k = w
  | _ => False

/-- The operation may give the data named `d` another list. -/
def ReplacesData (d : Nat) : MOp → Prop
  | .assignData k _ => k = d
  | .migrate .m4 _ | .migrate .m5 _ => False
  | .migrate _ k => k = d
  | _ => False

/-- Operations of a careful user: every word gets its own list, and data go through JSON when they are saved and loaded. -/
inductive Careful where
  | create (type : WordType) (texts : List Str) (properties : Properties)
  | save (word : Nat)
  | load (data : Nat)
  | setForm (word i : Nat) (text : Str)
  | autofill (word : Nat)
  | migrate (k : Migration) (data : Nat)
  deriving DecidableEq, Repr

/-- The same as an operation of the program. -/
def Careful.op : Careful → MOp
  | .create t texts p => .createFrom t texts p
  | .save w => .saveJson w
  | .load d => .loadJson d
  | .setForm w i text => .setForm w i text
  | .autofill w => .autofill w
  | .migrate k d => .migrate k d

/-- Words and data as plain values. -/
structure Values where
  words : List Word
  data : List WordData

/-- Data written as JSON and read again: every code is a string then, the rest is as it was. -/
def throughJson (d : WordData) : WordData where
  type := d.type
  forms := d.forms
  properties := d.properties.map fun
    | (.int code, value) => (.str (pyStr code), value)
    | (.str code, value) => (.str code, value)

/-- The function `migrate` of the migration with this number. -/
def migrationNamed (k : Migration) (d : WordData) : Except PyErr WordData :=
  match k with
  | .m1 => M0001.migrate d
  | .m4 => M0004.migrate d
  | .m5 => .ok (M0005.migrate d)
  | .m7 => M0007.migrate d
  | .m8 => M0008.migrate d
  | .m9 => M0009.migrate d

/-- The effect of an operation if words and data were plain values. -/
def Values.step (V : Values) : Careful → Values
  | .create t texts p => match Word.new t texts p with
    | .error _ => V
    | .ok w => { V with words := V.words ++ [w] }
  | .save w => match V.words[w]? with
    | none => V
    | some v => { V with data := V.data ++ [throughJson v.serialize] }
  | .load d => match V.data[d]? with
    | none => V
    | some data => match Word.deserialize (throughJson data) with
      | .error _ => V
      | .ok w => { V with words := V.words ++ [w] }
  | .setForm w i text => match V.words[w]? with
    | none => V
    | some v => { V with words := V.words.set w { v with forms := v.forms.set i text } }
  | .autofill w => match V.words[w]? with
    | none => V
    | some v => match v.autofillMissedForms with
      | .error _ => V
      | .ok v' => { V with words := V.words.set w v' }
  | .migrate k d => match V.data[d]? with
    | none => V
    | some data => match migrationNamed k data with
      | .error _ => V
      | .ok new => { V with data := V.data.set d new }

end Utg.Spec
